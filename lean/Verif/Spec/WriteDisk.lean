import Verif.Model.WriteDisk

/-! # What CrashWrite may do to the disk -/

namespace CM

/-- The text is not in a packet of the directory. -/
def TextApart (a : WriteArgs) : Prop := ∀ f, a.text = some f → ∀ num : UInt32, f ≠ makeFullPath a.dir (hexW 8 num.toNat ++ b!".pkt") 200

/-- At every moment: nothing has been changed but one packet, which was not there before; if writing does not fail, it holds a
beginning of the message. -/
def AtMost (w : World) (a : WriteArgs) (t : Tm) (fs gs : FS) : Prop :=
  gs = fs ∨ ∃ num v, fs (makeFullPath a.dir (hexW 8 num.toNat ++ b!".pkt") 200) = none ∧
    gs = fs.put (makeFullPath a.dir (hexW 8 num.toNat ++ b!".pkt") 200) v ∧
    (¬ w.writeFails → ∃ d, v = some d ∧ ∀ c, cwPacket a t num fs = some c → d <+: c)

/-- How the program ends. With exit code 0 the whole message is there, unless writing failed. With exit code 10 nothing has been
changed, unless deleting failed, and there was a reason: a file could not be opened, or there is no message to write. -/
inductive EndsAs (w : World) (a : WriteArgs) (t : Tm) (fs : FS) : Nat → FS → Prop where
  | written {gs} : (¬ w.writeFails → ∃ num c, fs (makeFullPath a.dir (hexW 8 num.toNat ++ b!".pkt") 200) = none ∧ cwPacket a t num fs = some c ∧
      gs = fs.put (makeFullPath a.dir (hexW 8 num.toNat ++ b!".pkt") 200) (some c)) → EndsAs w a t fs 0 gs
  | failed {gs} : (¬ w.deleteFails → gs = fs) → (w.openFails ∨ ∀ num, cwPacket a t num fs = none) → EndsAs w a t fs 10 gs

end CM
