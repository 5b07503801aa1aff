import Verif.Model.WriteIds

/-! # Which messages can have the same MSGID (C123) -/

namespace CM

/-- The MSGID that CrashWrite gives a message from an address, as CrashMail reads it. -/
def writtenId (orig : Node4D) (num : UInt32) : Str := writeNode4D orig ++ b!" " ++ hexW 8 num.toNat

/-- The first packet was taken away before the second was made. -/
def TakenBetween (es : List WriteEvent) (i j : Nat) (f : Str) : Prop := ∃ k, i < k ∧ k < j ∧ es[k]? = some (.take f)

/-- A run that reads the same time in all rounds, and needs no more than 256 of them. -/
def InOneSecond (e : WriteEvent) (s : UInt32) : Prop := ∃ dir fuel, fuel ≤ 256 ∧ e = .write dir (fun _ => s) fuel

end CM
