import Verif.Model.Bytes
import Verif.Model.Disk
/-! # Messages to a user, by the index of a JAM base -/

namespace CM

/-- Record `k` of the index is whole and its first four bytes are this checksum of a name. -/
def FuMsg (f : Data) (u : UInt32) (k : Nat) : Prop :=
  8 * k + 8 ≤ f.length ∧ (f.drop (8 * k)).take 4 = le32 u

/-- Record `k` of the index stands for no message: all bits are set. -/
def FuErased (f : Data) (k : Nat) : Prop := (f.drop (8 * k)).take 8 = List.replicate 8 255

end CM
