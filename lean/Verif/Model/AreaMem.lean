import Verif.Model.JamOpen

/-! # The records of areas in memory, and the message bases that belong to them

An area is a record with an address. `jam_getarea` (`mb_jam.c` 95-143) recognises an area by its address, while AreaFix frees the records of the areas it
removes (`RemoveDeletedAreas`, `areafix.c` 828-847) and creates new ones (`AddArea`, `handle.c` 147-277), for which the allocator may choose any free address. -/

namespace CM

/-- The path in the record at each address, where there is one; `jam_AreaList` with the addresses in `ja->area`; the slots of `mb_jam.c`, in which areas are the positions in
`jam_AreaList`; and, which is not in the program, the path with which each handle was opened. -/
structure AreaMem where
  mem : Nat → Option Str := fun _ => none
  list : List Nat := []
  slots : JamSlots
  path : Nat → Str := fun _ => []

/-- What happens to areas during a run. -/
inductive AreaOp where
  /-- `AddArea`: a record with a path at an address -/
  | create (a : Nat) (p : Str)
  /-- `RemoveDeletedAreas` for one area -/
  | remove (a : Nat)
  /-- `jam_importfunc` for the area at an address (`mb_jam.c` 299-618); `ok`: its base can be opened if it is not open -/
  | store (a : Nat) (ok : Bool)
  deriving DecidableEq, Repr

/-- The entry of `jam_AreaList` for an area (`mb_jam.c` 103-120). -/
def areaEntry (l : List Nat) (a : Nat) : Nat × List Nat :=
  match l.findIdx? (· == a) with
  | some k => (k, l)
  | none => (l.length, l ++ [a])

/-- `jam_getarea` (`mb_jam.c` 95-143) for an area whose record has the path `p`, and the base the message is written to. A base that is opened now is that of the
path in the record (`mb_jam.c` 73, 79). -/
def areaStore (m : AreaMem) (a : Nat) (p : Str) (ok : Bool) : Except UB (Option Str × AreaMem) := do
  let e := areaEntry m.list a
  let (r, st) ← jamOpenBase ok e.1 m.slots
  let path := if st.fresh = m.slots.fresh then m.path else fun h => if h = m.slots.fresh then p else m.path h
  return (r.map path, { m with list := e.2, slots := st, path := path })

/-- One operation, and the path of the base in which a message is stored. What the program cannot do changes nothing: it has only the addresses of records, and
the allocator does not choose an address that is in use. -/
def areaOp (m : AreaMem) : AreaOp → Except UB (Option Str × AreaMem)
  | .create a p => match m.mem a with
    | some _ => .ok (none, m)
    | none => .ok (none, { m with mem := fun b => if b = a then some p else m.mem b })
  | .remove a => .ok (none, { m with mem := fun b => if b = a then none else m.mem b })
  | .store a ok => match m.mem a with
    | none => .ok (none, m)
    | some p => areaStore m a p ok

/-- A run, with what is stored where. -/
def areaRun : List AreaOp → AreaMem → Except UB (List (Option Str) × AreaMem)
  | [], m => .ok ([], m)
  | o :: os, m => do
    let (r, m) ← areaOp m o
    let (rs, m) ← areaRun os m
    return (r :: rs, m)

/-- The linking of replies in `jam_afterfunc` (`mb_jam.c` 225-228) after a run without failures: the record of each area in which messages have been stored is read
(`jam_linkmb`, 1237-1240); its path stands for the record. -/
def areaLink (m : AreaMem) : Except UB (List Str) :=
  m.list.mapM fun a => match m.mem a with
    | some p => .ok p
    | none => .error .oobRead

/-- At the beginning of a run (`jam_beforefunc`). -/
def areaStart (maxOpen : Nat) (mem : Nat → Option Str) : AreaMem := { mem := mem, slots := jamSlots0 maxOpen }

end CM
