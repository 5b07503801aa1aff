import Verif.Model.AreaMsg
import Verif.Spec.AreaMem

/-! # In which directory a message belongs (C121) -/

namespace CM

/-- The numbers of the messages stored in a directory, the latest one first. -/
def numsIn (p : Str) (rs : List (Option (Str × Nat))) : List Nat :=
  (rs.filterMap fun r => match r with | some (q, n) => if q = p then some n else none | none => none).reverse

/-- Every message that is stored is stored in the directory of its area. -/
def StoredOwn (mem : Nat → Option Str) (os : List AreaOp) (rs : List (Option (Str × Nat))) : Prop :=
  rs.length = os.length ∧ ∀ (k : Nat) (p : Str) (n : Nat), rs[k]? = some (some (p, n)) → ∃ a ok, os[k]? = some (.store a ok) ∧ ownerAfter mem a (os.take k) = some p

/-- Messages are only added, and none gets the number of another one. -/
def OnlyAdded (before after : Str → Option (List Nat)) (rs : List (Option (Str × Nat))) : Prop :=
  ∀ p, (∀ l, before p = some l → after p = some (numsIn p rs ++ l) ∧ (l.Nodup → (numsIn p rs ++ l).Nodup)) ∧
    (before p = none → after p = none ∧ numsIn p rs = [] ∨ after p = some (numsIn p rs) ∧ (numsIn p rs).Nodup)

/-- Every message for an existing area is stored. -/
def AllStored (mem : Nat → Option Str) (os : List AreaOp) (rs : List (Option (Str × Nat))) : Prop :=
  ∀ (k a : Nat) (ok : Bool), os[k]? = some (.store a ok) → ownerAfter mem a (os.take k) ≠ none → ∃ x, rs[k]? = some (some x)

/-- Directories can be made. -/
def DirsMade (os : List AreaOp) : Prop := ∀ a ok, .store a ok ∈ os → ok = true

end CM
