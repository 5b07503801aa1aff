import Verif.Base
/-! # `shared/jblist.c`: singly linked lists, modelled on a heap of `Next` pointers -/

namespace CM

/-- Addresses of list nodes. -/
abbrev Ptr := Nat

/-- The heap restricted to list nodes: `none` is not allocated, `some n` holds the `Next` field. -/
abbrev Heap := Ptr → Option (Option Ptr)

/-- `struct jbList` (`shared/jblist.h` 4-8). -/
structure JbList where
  first : Option Ptr
  last : Option Ptr
  deriving DecidableEq, Repr

/-- Read `p->Next`. -/
def rdNext (h : Heap) : Option Ptr → Except UB (Option Ptr)
  | none => .error .nullDeref
  | some p => match h p with
    | none => .error .oobRead
    | some n => .ok n

/-- Write `p->Next = n`. -/
def wrNext (h : Heap) (p : Option Ptr) (n : Option Ptr) : Except UB Heap :=
  match p with
  | none => .error .nullDeref
  | some p => match h p with
    | none => .error .oobWrite
    | some _ => .ok (fun q => if q = p then some n else h q)

/-- `osFree(p)`; freeing something not allocated is undefined. -/
def osFree (h : Heap) (p : Ptr) : Except UB Heap :=
  match h p with
  | none => .error .oobWrite
  | some _ => .ok (fun q => if q = p then none else h q)

/-- `jbNewList` (`shared/jblist.c` 8-12). -/
def jbNewList : JbList := ⟨none, none⟩

/-- `jbAddNode` (`shared/jblist.c` 14-24). -/
def jbAddNode (h : Heap) (l : JbList) (node : Ptr) : Except UB (Heap × JbList) := do
  let (h, first) ← (match l.first with
    | none => .ok (h, some node)
    | some f => do
      let h ← wrNext h l.last (some node)
      .ok (h, some f) : Except UB (Heap × Option Ptr))
  let h ← wrNext h (some node) none
  .ok (h, ⟨first, some node⟩)

/-- Loop of `jbFreeList` (`shared/jblist.c` 30-35), `none` when the fuel runs out. -/
def jbFreeLoop : Nat → Heap → Option Ptr → Except UB (Option Heap)
  | _, h, none => .ok (some h)
  | 0, _, some _ => .ok none
  | f + 1, h, some p => do
    let n ← rdNext h (some p)
    let h ← osFree h p
    jbFreeLoop f h n

/-- `jbFreeList` (`shared/jblist.c` 26-39). -/
def jbFreeList (fuel : Nat) (h : Heap) (l : JbList) : Except UB (Option (Heap × JbList)) := do
  let r ← jbFreeLoop fuel h l.first
  .ok (r.map fun h => (h, jbNewList))

/-- Loop of `jbFreeNum` (`shared/jblist.c` 48-54), `k` iterations left (`c = num - k`). Returns `old`,
`tmp` and whether `c == num` on exit. -/
def jbNumLoop (h : Heap) : Nat → Option Ptr → Option Ptr → Except UB (Option Ptr × Option Ptr × Bool)
  | 0, old, tmp => .ok (old, tmp, true)
  | k + 1, old, tmp =>
    match tmp with
    | none => .ok (old, none, false)
    | some p => do
      let old := if k = 0 then some p else old
      let n ← rdNext h (some p)
      jbNumLoop h k old n

/-- Unlinking and freeing `tmp` (`shared/jblist.c` 58-67 and 85-94); `isFirst` is the test that it is
the first node. -/
def jbUnlink (h : Heap) (l : JbList) (old tmp : Option Ptr) (isFirst : Bool) :
    Except UB (Heap × JbList) := do
  let h ← (match old with
    | none => .ok h
    | some o => do
      let n ← rdNext h tmp
      wrNext h (some o) n : Except UB Heap)
  let n ← rdNext h tmp
  let first := if isFirst then n else l.first
  let last := if n = none then old else l.last
  match tmp with
  | none => .error .nullDeref
  | some t => do
    let h ← osFree h t
    .ok (h, ⟨first, last⟩)

/-- `jbFreeNum` (`shared/jblist.c` 41-69). -/
def jbFreeNum (h : Heap) (l : JbList) (num : Nat) : Except UB (Heap × JbList) := do
  let (old, tmp, hit) ← jbNumLoop h num none l.first
  if hit then jbUnlink h l old tmp (num = 0) else .ok (h, l)

/-- Loop of `jbFreeNode` (`shared/jblist.c` 75-81): `(old, tmp)`; `none` when the fuel runs out. -/
def jbNodeLoop (h : Heap) (node : Ptr) : Nat → Option Ptr → Option Ptr →
    Except UB (Option (Option Ptr × Option Ptr))
  | _, old, none => .ok (some (old, none))
  | 0, _, some _ => .ok none
  | f + 1, old, some p => do
    let n ← rdNext h (some p)
    let old := if n = some node then some p else old
    if p = node then .ok (some (old, some p)) else jbNodeLoop h node f old n

/-- `jbFreeNode` (`shared/jblist.c` 71-96) for a non-null `node`. -/
def jbFreeNode (fuel : Nat) (h : Heap) (l : JbList) (node : Ptr) :
    Except UB (Option (Heap × JbList)) := do
  match ← jbNodeLoop h node fuel none l.first with
  | none => .ok none
  | some (old, tmp) =>
    if tmp = some node then do
      let r ← jbUnlink h l old tmp (some node = l.first)
      .ok (some r)
    else .ok (some (h, l))

end CM
