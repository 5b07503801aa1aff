import Verif.Model.Jam
/-! # Several programs that write to one JAM area (`crashmail/mb_jam.c`, `jamlib/mbase.c`, `jamlib/message.c`)

Each step is a call of the system. What is written to a file in one stage is there at once (`JAM_UnlockMB` flushes
everything before the lock is released), and what is read is what the file holds at that moment. Nothing is written
to the file for last-read pointers. `fcntl` locks as POSIX says: the lock of the first byte of the header file belongs to a process;
`F_SETLK` fails while another process has it. Left out: errors while writing, processes that are killed, and
reading (`jam_getarea` reads the header once after opening). -/

namespace CM

/-- The files of a message base: whether the header, text, index and last-read file are there, what they hold, and the process that has
the lock. -/
structure JamDisk where
  hasHdr : Bool
  hasTxt : Bool
  hasIdx : Bool
  hasLrd : Bool
  hdr : Data
  txt : Data
  idx : Data
  lrd : Data
  owner : Option Nat
  deriving DecidableEq, Repr

/-- A message to be written. -/
structure JamNew where
  hdr : JamHdr
  subs : List JamSub
  text : Data
  deriving DecidableEq, Repr

/-- Where a process is. -/
inductive JamPc where
  /-- in `jam_Open` with `"r+b"`: so many files are open -/
  | opening (n : Fin 4)
  /-- in `jam_Open` with `"w+b"` -/
  | making (n : Fin 4)
  | makeLock
  | makeHead
  | makeUnlock
  /-- the base is open -/
  | ready
  | locked
  | gotBase (base : JamBaseHdr)
  | wroteText (base : JamBaseHdr) (off : Nat)
  | wroteHdr (base : JamBaseHdr) (h : JamHdr) (off : Nat)
  | wroteIdx (base : JamBaseHdr) (h : JamHdr)
  | wrote
  /-- `JAM_AddMessage` has failed -/
  | failed
  | undefined (u : UB)
  deriving DecidableEq

/-- A process: where it is, the messages it has to write and those it has reported as written. -/
structure JamProc where
  pc : JamPc := .opening 0
  todo : List JamNew
  done : List JamNew := []
  deriving DecidableEq

/-- What is not determined by the program: a file cannot be opened although it could be there, the lock is not waited for any longer
(`JAM_LockMB` with 10 seconds), the base is closed to make room for another one (`mb_jam.c` 59-69). -/
inductive JamChoice where
  | go
  | fail
  | giveUp
  | close
  deriving DecidableEq, Repr

/-- Whether a file is there. -/
def JamDisk.has (d : JamDisk) (n : Fin 4) : Bool :=
  if n = 0 then d.hasHdr else if n = 1 then d.hasTxt else if n = 2 then d.hasIdx else d.hasLrd

/-- `fopen` with `"w+b"`. -/
def JamDisk.create (d : JamDisk) (n : Fin 4) : JamDisk :=
  if n = 0 then { d with hasHdr := true, hdr := [] } else if n = 1 then { d with hasTxt := true, txt := [] }
  else if n = 2 then { d with hasIdx := true, idx := [] } else { d with hasLrd := true, lrd := [] }

/-- The next message is given up: `jam_importfunc` returns FALSE. -/
def JamProc.drop (p : JamProc) (pc : JamPc) : JamProc := { p with pc := pc, todo := p.todo.tail }

/-- One step of process `me` (`jam_openbase`, `mb_jam.c` 34-93; the end of `jam_importfunc`, 588-618; `JAM_OpenMB` and
`JAM_CreateMB`, `mbase.c` 118-193; `JAM_LockMB`, 290-326; `jam_Lock`, 500-540; `jam_Open`, 547-590; `JAM_AddMessage`,
`message.c` 283-462). -/
def jamMove (e : JamEnv) (now : UInt32) (c : JamChoice) (me : Nat) (p : JamProc) (d : JamDisk) : JamProc × JamDisk :=
  match p.todo with
  | [] => (p, d)
  | m :: rest =>
    match p.pc with
    | .opening n =>
      if c = .fail ∨ d.has n = false then ({ p with pc := .making 0 }, d)
      else if n = 3 then ({ p with pc := .ready }, d)
      else ({ p with pc := .opening (n + 1) }, d)
    | .making n =>
      if c = .fail then (p.drop (.opening 0), d)
      else if n = 3 then ({ p with pc := .makeLock }, d.create n)
      else ({ p with pc := .making (n + 1) }, d.create n)
    | .makeLock =>
      if d.owner = none ∨ d.owner = some me then ({ p with pc := .makeHead }, { d with owner := some me })
      else (p.drop (.opening 0), d)
    | .makeHead =>
      ({ p with pc := .makeUnlock }, { d with hdr := overlay d.hdr 0 (JamBaseHdr.bytes (e.junk 1024)
        { sig := jamSig, created := now, modCounter := 1, active := 0, pwCrc := 0xffffffff, baseNum := 1, reserved := List.replicate 1000 0 }) })
    | .makeUnlock => ({ p with pc := .ready }, { d with owner := none })
    | .ready =>
      if c = .close then ({ p with pc := .opening 0 }, d)
      else if c = .giveUp then (p.drop .ready, d)
      else if d.owner = none ∨ d.owner = some me then ({ p with pc := .locked }, { d with owner := some me })
      else (p, d)
    | .locked =>
      match freadAt d.hdr 0 1024 with
      | .error _ => ({ p with pc := .failed }, d)
      | .ok x => ({ p with pc := .gotBase (.ofBytes x) }, d)
    | .gotBase base => ({ p with pc := .wroteText base d.txt.length }, { d with txt := d.txt ++ m.text })
    | .wroteText base off =>
      let h : JamHdr := { m.hdr with
        txtOffset := if m.text = [] then 0 else UInt32.ofNat off, txtLen := UInt32.ofNat m.text.length, subLen := jamSubSize m.subs,
        msgNum := UInt32.ofNat (d.idx.length / 8) + base.baseNum, sig := jamSig, revision := 1 }
      ({ p with pc := .wroteHdr base h d.hdr.length }, { d with hdr := d.hdr ++ h.bytes (e.junk 76) ++ m.subs.flatMap (JamSub.bytes (e.junk 16)) })
    | .wroteHdr base h off =>
      match jamUserCrc e m.subs with
      | .error u => ({ p with pc := .undefined u }, d)
      | .ok crc => ({ p with pc := .wroteIdx base h },
          { d with idx := d.idx ++ JamIdx.bytes (e.junk 8) { userCrc := crc, hdrOffset := UInt32.ofNat off } })
    | .wroteIdx base h =>
      ({ p with pc := .wrote }, { d with hdr := overlay d.hdr 0 (JamBaseHdr.bytes (e.junk 1024)
        { base with active := if jamDeleted h.attr then base.active else base.active + 1, sig := jamSig, modCounter := base.modCounter + 1 }) })
    | .wrote => ({ pc := .ready, todo := rest, done := p.done ++ [m] }, { d with owner := none })
    | .failed => (p.drop .ready, { d with owner := none })
    | .undefined _ => (p, d)

/-- Several processes. -/
structure JamSys where
  procs : Nat → JamProc
  disk : JamDisk

/-- Process `i` takes a step. -/
def JamSys.step (e : JamEnv) (now : UInt32) (s : JamSys) (x : Nat × JamChoice) : JamSys :=
  { procs := fun j => if j = x.1 then (jamMove e now x.2 x.1 (s.procs x.1) s.disk).1 else s.procs j,
    disk := (jamMove e now x.2 x.1 (s.procs x.1) s.disk).2 }

/-- They run at the same time: the order in which they take their steps. -/
def JamSys.run (e : JamEnv) (now : UInt32) (s : JamSys) (order : List (Nat × JamChoice)) : JamSys := order.foldl (JamSys.step e now) s

end CM
