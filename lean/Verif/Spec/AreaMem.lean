import Verif.Model.AreaMem

/-! # In which base a message belongs (C121) -/

namespace CM

/-- The path of the area at an address, after some operations. -/
def ownerAfter (mem : Nat → Option Str) (a : Nat) (os : List AreaOp) : Option Str :=
  os.foldl (fun p o => match o with
    | .create b q => if b = a then (match p with | some p => some p | none => some q) else p
    | .remove b => if b = a then none else p
    | .store _ _ => p) (mem a)

/-- Every message is stored in the base of its area; if that cannot be opened, it may not be stored. -/
def StoredRight (mem : Nat → Option Str) (os : List AreaOp) (rs : List (Option Str)) : Prop :=
  rs.length = os.length ∧ ∀ (k a : Nat) (ok : Bool), os[k]? = some (.store a ok) →
    rs[k]? = some (ownerAfter mem a (os.take k)) ∨ (ok = false ∧ rs[k]? = some none)

/-- No area gets a record at the address of an area in which messages were stored before. -/
def NoneReused (os : List AreaOp) : Prop := ∀ x a p y, os = x ++ .create a p :: y → ∀ ok, .store a ok ∉ x

/-- No area is removed after messages have been stored in it. -/
def NoneRemoved (os : List AreaOp) : Prop := ∀ x a y, os = x ++ .remove a :: y → ∀ ok, .store a ok ∉ x

/-- The bases in which replies are linked are those of the areas that exist and have got messages, each once. -/
def LinksAll (mem : Nat → Option Str) (os : List AreaOp) (ps : List Str) : Prop :=
  ∃ l : List Nat, l.Nodup ∧ (∀ a, a ∈ l ↔ (∃ ok, .store a ok ∈ os) ∧ ownerAfter mem a os ≠ none) ∧ ps.map some = l.map fun a => ownerAfter mem a os

end CM
