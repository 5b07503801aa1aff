import Verif.Model.Jam
import Verif.Model.Disk
/-! # Last-read records of a JAM message base (`jamlib/lastread.c`) -/

namespace CM

/-- `s_JamLastRead` (`jamlib/jam.h` 199-206). -/
structure LrRec where
  crc : UInt32
  id : UInt32
  last : UInt32
  high : UInt32
deriving DecidableEq, Repr

/-- The sixteen bytes `fwritejamlastread` writes (`jamlib/structrw.c` 195-208). -/
def LrRec.bytes (r : LrRec) : Data := le32 r.crc ++ le32 r.id ++ le32 r.last ++ le32 r.high

/-- `freadjamlastread` at an offset (`jamlib/structrw.c` 180-193); `none` when the file has fewer than
sixteen bytes from there. Errors of the device are left out, so a failed read is the end of the file. -/
def lrReadAt (f : Data) (pos : Nat) : Option LrRec :=
  if pos + 16 ≤ f.length then some ⟨get32 f pos, get32 f (pos + 4), get32 f (pos + 8), get32 f (pos + 12)⟩ else none

/-- `LastUserPos_I` and `LastUserId_I` of an open base (`jamlib/jam.h` 217-218). The position is a number
without limit: the C code holds 16 times it in an `int`, so a file is taken to be shorter than 2^31 bytes. -/
structure LrCache where
  pos : Nat
  id : UInt32
deriving DecidableEq, Repr

/-- A base just opened: `calloc` (`jamlib/mbase.c` 128, 160). -/
def lrFresh : LrCache := ⟨0, 0⟩

/-- What the two functions return: a record, `JAM_NO_USER`, 0, or `JAM_IO_ERROR`. -/
inductive LrOut where
  | found (r : LrRec)
  | noUser
  | done
  | ioError
deriving DecidableEq, Repr

/-- The loop over the records (`jamlib/lastread.c` 64-79 and 139-164). The first number bounds the rounds;
the callers give one more than the length of the file, which is never reached. -/
def lrScan (u : UInt32) (f : Data) : Nat → Nat → Option (Nat × LrRec)
  | 0, _ => none
  | n + 1, k =>
    match lrReadAt f (16 * k) with
    | none => none
    | some r => if r.id = u then some (k, r) else lrScan u f n (k + 1)

/-- `JAM_ReadLastRead` (`jamlib/lastread.c` 49-82), with a place for the record given (no
`JAM_BAD_PARAM`). -/
def lrRead (c : LrCache) (f : Data) (u : UInt32) : LrOut × LrCache :=
  match lrScan u f (f.length + 1) 0 with
  | none => (.noUser, c)
  | some (k, r) => (.found r, ⟨k, u⟩)

/-- The second part of `JAM_WriteLastRead` (`jamlib/lastread.c` 133-173): look for the user from the
start, and write over the record found or at the end. Writing itself does not fail. -/
def lrWriteSlow (f : Data) (u : UInt32) (r : LrRec) : LrOut × Data :=
  match lrScan u f (f.length + 1) 0 with
  | none => (.done, overlay f f.length r.bytes)
  | some (k, _) => (.done, overlay f (16 * k) r.bytes)

/-- `JAM_WriteLastRead` (`jamlib/lastread.c` 89-174), with a record given (no `JAM_BAD_PARAM`). -/
def lrWrite (c : LrCache) (f : Data) (u : UInt32) (r : LrRec) : LrOut × Data :=
  if u = c.id then
    match lrReadAt f (16 * c.pos) with
    | none => (.ioError, f)
    | some old => if u = old.id then (.done, overlay f (16 * c.pos) r.bytes) else lrWriteSlow f u r
  else lrWriteSlow f u r

/-- What a program does with the last-read file. Each program has a number. -/
inductive LrOp where
  | opens (who : Nat)
  | reads (who : Nat) (u : UInt32)
  | writes (who : Nat) (u : UInt32) (r : LrRec)

/-- The file on disk, and what each program has in memory about it. -/
structure LrState where
  file : Data
  mem : Nat → LrCache

/-- One call. A call is taken to be whole: programs lock the base around it. -/
def lrStep (s : LrState) : LrOp → LrOut × LrState
  | .opens w => (.done, ⟨s.file, fun x => if x = w then lrFresh else s.mem x⟩)
  | .reads w u =>
    let p := lrRead (s.mem w) s.file u
    (p.1, ⟨s.file, fun x => if x = w then p.2 else s.mem x⟩)
  | .writes w u r =>
    let p := lrWrite (s.mem w) s.file u r
    (p.1, ⟨p.2, s.mem⟩)

/-- Calls one after the other, with their answers. -/
def lrRun : LrState → List LrOp → List LrOut × LrState
  | s, [] => ([], s)
  | s, o :: os =>
    let p := lrStep s o
    let q := lrRun p.2 os
    (p.1 :: q.1, q.2)

end CM
