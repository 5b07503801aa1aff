import Verif.Model.LastRead
/-! # What a file of last-read records should do: a note for each user -/

namespace CM

/-- What is noted for each user. -/
abbrev LrNotes := UInt32 → Option LrRec

/-- The answer to a question about a user with this note. -/
def lrSays : Option LrRec → LrOut
  | some r => .found r
  | none => .noUser

/-- The answers when every user has one note, which stays until it is replaced. -/
def lrAnswers : LrNotes → List LrOp → List LrOut
  | _, [] => []
  | m, .opens _ :: os => .done :: lrAnswers m os
  | m, .reads _ u :: os => lrSays (m u) :: lrAnswers m os
  | m, .writes _ u r :: os => .done :: lrAnswers (fun x => if x = u then some r else m x) os

/-- The notes after the calls. -/
def lrAfter : LrNotes → List LrOp → LrNotes
  | m, [] => m
  | m, .writes _ u r :: os => lrAfter (fun x => if x = u then some r else m x) os
  | m, _ :: os => lrAfter m os

/-- The file is the records of `m` one after the other, one for each user. -/
def LrHolds (f : Data) (m : LrNotes) : Prop :=
  ∃ rs : List LrRec, f = rs.flatMap LrRec.bytes ∧
    (∀ (i j : Nat) (a b : LrRec), rs[i]? = some a → rs[j]? = some b → a.id = b.id → i = j) ∧
    ∀ u r, m u = some r ↔ r.id = u ∧ ∃ i : Nat, rs[i]? = some r

/-- The sixteen bytes from place `k` of a file are this record. -/
def LrAt (f : Data) (k : Nat) (r : LrRec) : Prop := (f.drop (16 * k)).take 16 = r.bytes

end CM
