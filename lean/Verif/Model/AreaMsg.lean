import Verif.Model.AreaMem

/-! # The records of areas in memory, and `*.msg` message bases

As `Model/AreaMem.lean`, for areas whose messages are files in a directory. `msg_getarea` (`mb_msg.c` 24-48) recognises an area by its address too, but the
record of the area is read each time for the path. Here the directories are of interest: which exist, and the numbers of the messages in each. Simplifications: numbers do
not wrap around at 2^32; messages are called by their number only (other names are C45 and C46); reading a directory and writing into an existing one do not fail. -/

namespace CM

/-- The path in the record at each address; `ma->HighMsg` for the addresses in `msg_AreaList`; the directories that exist, with the numbers of their messages, the latest
one first. -/
structure AreaDirs where
  mem : Nat → Option Str := fun _ => none
  recs : Nat → Option Nat := fun _ => none
  dirs : Str → Option (List Nat) := fun _ => none

/-- The highest number in a directory (`mb_msg.c` 346-359, 389-393). -/
def highNum (l : List Nat) : Nat := if l.foldl max 0 = 0 then 1 else l.foldl max 0

/-- The first number from `n` on for which there is no message (`mb_msg.c` 82-87). There are at most as many messages in the way as there are messages. -/
def freeNum (l : List Nat) : Nat → Nat → Nat
  | 0, n => n
  | fuel + 1, n => if l.contains n then freeNum l fuel (n + 1) else n

/-- The end of `msg_importfunc` (`mb_msg.c` 77-90), with `ma->HighMsg`. -/
def dirWrite (m : AreaDirs) (a : Nat) (p : Str) (h : Nat) : Option (Str × Nat) × AreaDirs :=
  let n := freeNum ((m.dirs p).getD []) ((m.dirs p).getD []).length (h + 1)
  let m := { m with recs := fun b => if b = a then some n else m.recs b }
  match m.dirs p with
  | none => (none, m)
  | some l => (some (p, n), { m with dirs := fun q => if q = p then some (n :: l) else m.dirs q })

/-- `msg_importfunc` (`mb_msg.c` 69-90) for an area whose record has the path `p`, with `msg_getarea` and `msg_GetHighLowMsg` (24-48, 361-399). `ok`: a directory that does
not exist can be made. If it cannot, the entry of `msg_AreaList` stays there, with 0. -/
def dirStore (m : AreaDirs) (a : Nat) (p : Str) (ok : Bool) : Option (Str × Nat) × AreaDirs :=
  match m.recs a with
  | some h => dirWrite m a p h
  | none => match m.dirs p with
    | some l => dirWrite m a p (highNum l)
    | none => if ok then dirWrite { m with dirs := fun q => if q = p then some [] else m.dirs q } a p 1
      else (none, { m with recs := fun b => if b = a then some 0 else m.recs b })

/-- One operation, and the directory and the number under which a message is stored. -/
def dirOp (m : AreaDirs) : AreaOp → Option (Str × Nat) × AreaDirs
  | .create a p => match m.mem a with
    | some _ => (none, m)
    | none => (none, { m with mem := fun b => if b = a then some p else m.mem b })
  | .remove a => (none, { m with mem := fun b => if b = a then none else m.mem b })
  | .store a ok => match m.mem a with
    | none => (none, m)
    | some p => dirStore m a p ok

/-- A run, with what is stored where. -/
def dirRun : List AreaOp → AreaDirs → List (Option (Str × Nat)) × AreaDirs
  | [], m => ([], m)
  | o :: os, m =>
    let x := dirOp m o
    let y := dirRun os x.2
    (x.1 :: y.1, y.2)

/-- At the beginning of a run (`msg_beforefunc`, `mb_msg.c` 50-55). -/
def dirStart (mem : Nat → Option Str) (dirs : Str → Option (List Nat)) : AreaDirs := { mem := mem, dirs := dirs }

end CM
