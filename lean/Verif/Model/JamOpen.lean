import Verif.Base
/-! # `crashmail/mb_jam.c`: message bases are kept open -/

namespace CM

/-- `struct openbase` (`mb_jam.c` 7-12). Areas and handles (`s_JamBase *`) are numbered. -/
structure JamSlot where
  last : UInt32 := 0
  area : Nat := 0
  hnd : Nat := 0
  deriving DecidableEq, Repr

/-- `jam_openbases` and `jam_lastnum`; and, which is not in the program, the handles that are open with the area each of them
is for, and the next handle. -/
structure JamSlots where
  slots : List JamSlot
  lastnum : UInt32 := 1
  live : List (Nat × Nat) := []
  fresh : Nat := 0
  deriving DecidableEq, Repr

/-- `jam_beforefunc` (`mb_jam.c` 194-201, 211). -/
def jamSlots0 (maxOpen : Nat) : JamSlots := { slots := List.replicate (if maxOpen = 0 then 5 else maxOpen) {} }

/-- The slot that has not been used for the longest time (`mb_jam.c` 61-64). -/
def jamLru (slots : List JamSlot) (s : JamSlot) : Nat :=
  ((List.range slots.length).foldl (fun (best : Nat × UInt32) c =>
    match slots[c]? with
    | some t => if t.last < best.2 then (c, t.last) else best
    | none => best) (0, s.last)).1

/-- `JAM_CloseMB` and `free` (`mb_jam.c` 67-68, 233-234): closing what is not open is undefined. -/
def jamCloseHnd (st : JamSlots) (s : JamSlot) : Except UB JamSlots :=
  if (s.hnd, s.area) ∈ st.live then .ok { st with live := st.live.erase (s.hnd, s.area) } else .error .nullDeref

/-- The slot for a base that is to be opened (`mb_jam.c` 50-69). -/
def jamFreeSlot (st : JamSlots) : Except UB (Nat × JamSlots) :=
  match st.slots.findIdx? (·.last == 0) with
  | some c => .ok (c, st)
  | none =>
    match st.slots with
    | [] => .error .oobRead
    | s :: t =>
      let c := jamLru (s :: t) s
      match (s :: t)[c]? with
      | none => .error .oobRead
      | some x => do
        let st' ← jamCloseHnd st x
        return (c, { st' with slots := st'.slots.set c { x with last := 0 } })

/-- `jam_openbase` (`mb_jam.c` 34-93): the handle, or nothing; `ok` says whether the base can be opened or created. -/
def jamOpenBase (ok : Bool) (a : Nat) (st : JamSlots) : Except UB (Option Nat × JamSlots) :=
  match st.slots.findIdx? (fun s => s.area == a && s.last != 0) with
  | some c =>
    match st.slots[c]? with
    | none => .error .oobRead
    | some s => .ok (some s.hnd, { st with slots := st.slots.set c { s with last := st.lastnum }, lastnum := st.lastnum + 1 })
  | none => do
    let (c, st) ← jamFreeSlot st
    if ok then
      return (some st.fresh, { slots := st.slots.set c { last := st.lastnum, area := a, hnd := st.fresh }, lastnum := st.lastnum + 1,
                               live := (st.fresh, a) :: st.live, fresh := st.fresh + 1 })
    else return (none, st)

/-- The end of `jam_afterfunc` (`mb_jam.c` 230-235). -/
def jamCloseAll (st : JamSlots) : Except UB JamSlots :=
  st.slots.foldlM (fun st s => if s.last != 0 then jamCloseHnd st s else .ok st) st

end CM
