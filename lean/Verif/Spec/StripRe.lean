import Verif.Spec.Readdress
import Verif.Spec.Says
/-!
# What is stored instead of the message itself

`doc/example.prefs`: with STRIPRE the `Re:`, `Re[x]:` and `Re^x:` in front of a subject are removed before the message is
imported; of a loop-mail only the kludges are put into the BAD area.
-/

namespace CM

/-- The marks of a reply. -/
inductive ReMark : Str → Prop
  | colon (p : Str) : Ci p b!"Re:" → ReMark p
  | caret (p : Str) (x : UInt8) : Ci p b!"Re^" → ReMark (p ++ [x] ++ b!":")
  | bracket (p : Str) (x : UInt8) : Ci p b!"Re[" → ReMark (p ++ [x] ++ b!"]:")

/-- `t` is the subject `s` without the marks in front of it, and without one blank behind each of them. -/
inductive Stripped : Str → Str → Prop
  | done (s : Str) : (∀ p r, ReMark p → s ≠ p ++ r) → Stripped s s
  | mark (p r t : Str) : ReMark p → r.head? ≠ some 32 → Stripped r t → Stripped (p ++ r) t
  | blank (p r t : Str) : ReMark p → Stripped r t → Stripped (p ++ b!" " ++ r) t

/-- `k` is the kludges of the text, written with `@` instead of byte 1. -/
def KludgesOf (text k : Str) : Prop :=
  ∃ ls, IsLines text ls ∧ k = ((ls.filter fun l => l.head? == some 1).map fun l => 64 :: l.drop 1).flatten

/-- What is put in front of a message in the BAD area: where it comes from and why it is there. -/
def BadNote (m : MemMsg) (reason note : Str) : Prop :=
  ∃ who, note = who ++ b!"PKTORIG:" ++ shown m.pktOrig ++ [13] ++ b!"PKTDEST:" ++ shown m.pktDest ++ [13] ++ b!"ERROR:" ++ reason ++ [13] ∧
    (m.area ≠ [] → who = b!"AREA:" ++ m.area ++ [13]) ∧
    (m.area = [] → who = b!"DEST:" ++ shown m.dest ++ [13] ++ b!"ORIG:" ++ shown m.orig ++ [13])

end CM
