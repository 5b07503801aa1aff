import Verif.Model.Jam
/-! # Packets of subfields (`jamlib/subpack.c`)

Fields have less than 2^32 bytes. Memory is counted in blocks (`live`), and whether an allocation succeeds is an argument. -/

namespace CM

/-- `s_JamSubPacket` (`jam.h`). `fields` is the array with the size it really has, `none` where there is no field. -/
structure SubPack where
  numFields : UInt32
  numAlloc : UInt32
  fields : List (Option JamSub)
  deriving DecidableEq, Repr

/-- Whether `realloc` of the array, `malloc` of the field and `malloc` of its buffer succeed. -/
structure SubMem where
  array : Bool := true
  field : Bool := true
  buffer : Bool := true
  deriving DecidableEq, Repr

/-- `JAM_NewSubPacket` (`subpack.c` 57-78): the packet and the blocks that are allocated. -/
def newSubPack (packet array : Bool) (live : Int) : Option SubPack × Int :=
  if !packet then (none, live)
  else
    let live := live + 1
    if !array then (none, live - 1)
    else (some ⟨0, 20, List.replicate 20 none⟩, live + 1)

/-- The array is expanded (`subpack.c` 151-163); `false`: no memory. -/
def growSubPack (ok : Bool) (p : SubPack) : SubPack × Bool :=
  if p.numFields = p.numAlloc then
    let n := p.numAlloc * 2
    if ok then ({ p with numAlloc := n, fields := p.fields.take n.toNat ++ List.replicate (n.toNat - p.fields.length) none }, true)
    else ({ p with numAlloc := n }, false)
  else (p, true)

/-- `JAM_PutSubfield` (`subpack.c` 146-200): the packet, whether it succeeds, and the blocks. -/
def putSub (mem : SubMem) (p : SubPack) (s : JamSub) (live : Int) : Except UB (SubPack × Bool × Int) :=
  match growSubPack mem.array p with
  | (p, false) => .ok (p, false, live)
  | (p, true) =>
    if !mem.field then .ok (p, false, live)
    else
      let live := live + 1
      if s.data ≠ [] ∧ mem.buffer = false then .ok (p, false, live - 1)
      else
        let live := if s.data = [] then live else live + 1
        if p.numFields.toNat < p.fields.length then
          .ok ({ p with fields := p.fields.set p.numFields.toNat (some s), numFields := p.numFields + 1 }, true, live)
        else .error .oobWrite

/-- A field of the array. -/
def SubPack.field (p : SubPack) (i : UInt32) : Except UB (Option JamSub) :=
  match p.fields[i.toNat]? with
  | none => .error .oobRead
  | some x => .ok x

/-- The static variables of `JAM_GetSubfield` (`subpack.c` 113-114). -/
structure SubIter where
  last : Option SubPack := none
  next : UInt32 := 0

/-- `JAM_GetSubfield` (`subpack.c` 111-126). -/
def getSub (st : SubIter) (p : Option SubPack) : Except UB (Option JamSub × SubIter) :=
  let st : SubIter := match p with
    | some p => { last := some p, next := 0 }
    | none => st
  match st.last with
  | none => .error .nullDeref
  | some p =>
    if st.next < p.numFields then
      match p.field st.next with
      | .error u => .error u
      | .ok f => .ok (f, { st with next := st.next + 1 })
    else .ok (none, st)

/-- `JAM_GetSubfield_R` (`subpack.c` 133-139). -/
def getSubR (p : SubPack) (count : UInt32) : Except UB (Option JamSub × UInt32) :=
  if count < p.numFields then
    match p.field count with
    | .error u => .error u
    | .ok f => .ok (f, count + 1)
  else .ok (none, count)

/-- The loop with which all fields are read (`message.c` 353-354, 407-408; `mb_jam.c` 739). `fuel` bounds the number of calls;
`none`: the loop has not ended. -/
def readSubs : Nat → SubIter → Option SubPack → Except UB (Option (List JamSub) × SubIter)
  | 0, st, _ => .ok (none, st)
  | fuel + 1, st, p =>
    match getSub st p with
    | .error u => .error u
    | .ok (none, st) => .ok (some [], st)
    | .ok (some s, st) =>
      match readSubs fuel st none with
      | .error u => .error u
      | .ok (r, st) => .ok (r.map (s :: ·), st)

/-- The loop of `JAM_DelSubPacket` (`subpack.c` 92-98) from field `i` on; `n` is the number of fields left. -/
def delSubs (p : SubPack) : Nat → UInt32 → Int → Except UB Int
  | 0, _, live => .ok live
  | n + 1, i, live =>
    match p.field i with
    | .error u => .error u
    | .ok none => .error .nullDeref
    | .ok (some s) => delSubs p n (i + 1) (live - (if s.data = [] then 0 else 1) - 1)

/-- `JAM_DelSubPacket` (`subpack.c` 85-103) of a packet: the blocks. -/
def delSubPack (p : SubPack) (live : Int) : Except UB Int :=
  match delSubs p p.numFields.toNat 0 live with
  | .error u => .error u
  | .ok live => .ok (live - 2)

/-- Several fields are added, as `jam_importfunc` does: `jam_addfield` goes on when there is no memory (`mb_jam.c` 246-257). -/
def putSubs : SubPack → List (JamSub × SubMem) → Int → Except UB (SubPack × List Bool × Int)
  | p, [], live => .ok (p, [], live)
  | p, (s, mem) :: r, live =>
    match putSub mem p s live with
    | .error u => .error u
    | .ok (p, ok, live) =>
      match putSubs p r live with
      | .error u => .error u
      | .ok (p, l, live) => .ok (p, ok :: l, live)

end CM
