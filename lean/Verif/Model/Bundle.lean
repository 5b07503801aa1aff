import Verif.Model.Toss
/-! # Tossing a bundle (`crashmail/toss.c`): which packer unpacks it, and what happens to the files

Not modelled: log output, memory that cannot be allocated. -/

namespace CM

/-! ## Which packer -/

/-- `str[c]` in `Compare`: `str` is `char buf[40]` of `DetectPacker` (`toss.c` 34), filled with the first 40
bytes of the file (line 45); in a shorter file the rest is not set. -/
def recogAt (buf : Data) (c : Nat) : Except UB UInt8 :=
  if 40 ≤ c then .error .oobRead
  else match buf[c]? with
    | none => .error .uninit
    | some b => .ok b

/-- `Compare` (`toss.c` 3-29) from position `c` of the file with the rest of the pattern. `$` takes the
two characters after it as a hexadecimal number (`strncpy`, so fewer at the end); the number is converted to `char`. -/
def recogLoop (buf : Data) (c : Nat) : Str → Except UB Bool
  | [] => .ok true
  | x :: r => do
    let b ← recogAt buf c
    if x = 36 then
      if b ≠ (hextodec (r.take 2)).toUInt8 then return false
      else recogLoop buf (c + 1) (r.drop 2)
    else if b ≠ x ∧ x ≠ 63 then return false
    else recogLoop buf (c + 1) r
termination_by p => p.length

/-- The loop of `DetectPacker` (`toss.c` 48-49) on a file that could be read. -/
def detectPacker (file : Data) : List Packer → Except UB (Option Packer)
  | [] => .ok none
  | p :: r => do
    if ← recogLoop (file.take 40) 0 p.recog then return some p
    else detectPacker file r

/-! ## What is done with the files -/

/-- What tossing bundles needs to know: directories, BEFORETOSS, the packers, the order of files
(`SortFEList`), the list of `SafeDelete`, and how a packet is handled. `handle` is `ReadPkt` after the
packet was opened (`pkt.c` 121-527): the new state and how it ends (`readPkt` in `Model/Pkt.lean` is one);
it does not work on the files considered here. `fuel` bounds the names tried by `BadFile`. -/
structure InCfg (σ : Type) where
  inbound : Str
  tempDir : Str
  beforeToss : Str := []
  packers : List Packer
  sort : List FileEntry → List FileEntry
  dels : List Str := []
  ctrlc : σ → Bool
  handle : σ → Data → Except UB (σ × PktEnd)
  fuel : Nat := 100000

/-- The BEFORETOSS command (`pkt.c` 92-102); `false`: it failed. -/
def beforeTossRun {σ : Type} (t : InCfg σ) (file : Str) : Prog Bool := do
  if t.beforeToss = [] then return true
  else
    let c ← liftUB (expandPacker 200 [] file t.beforeToss [])
    let n ← osExecute c
    return n == 0

/-- What `ReadPkt` did: the state, `ioerror`, the result, and the contents of the packet, if it could be
opened, with how it ended. -/
structure PktRun (σ : Type) where
  st : σ
  io : Bool
  ok : Bool
  got : Option (Data × PktEnd)

/-- `ReadPkt` (`pkt.c` 76-518) on the disk. A packet that cannot be opened counts as read (`pkt.c` 125-132). -/
def readPktFile {σ : Type} (t : InCfg σ) (s : σ) (io : Bool) (file : Str) : Prog (PktRun σ) := do
  if !(← beforeTossRun t file) then return ⟨s, io, false, none⟩
  match ← readFile file with
  | none => return ⟨s, io, true, none⟩
  | some d =>
    let (s, e) ← liftUB (t.handle s d)
    match e with
    | .done => return ⟨s, io, true, some (d, e)⟩
    | .abort => return ⟨s, io, false, some (d, e)⟩
    | .bad _ =>
      let io ← badFile t.fuel io t.inbound file
      return ⟨s, io, true, some (d, e)⟩

/-- The path of an unpacked packet (`toss.c` 138). -/
def tempPath {σ : Type} (t : InCfg σ) (e : FileEntry) : Str := makeFullPath t.tempDir e.name 200

/-- A log of packets: the path, the contents if it could be opened, and how it ended. -/
abbrev PktLog := List (Str × Option (Data × PktEnd))

/-- The packets of a bundle: the state, `ioerror`, the result, and what was done with each. -/
structure PacketsRun (σ : Type) where
  st : σ
  io : Bool
  ok : Bool
  log : PktLog

/-- The loop of `TossBundle` (`toss.c` 136-158) and the test after it (162-163). -/
def unpackedLoop {σ : Type} (t : InCfg σ) : σ → Bool → List FileEntry → Prog (PacketsRun σ)
  | s, io, [] => .ret ⟨s, io, !t.ctrlc s, []⟩
  | s, io, e :: es =>
    if t.ctrlc s then .ret ⟨s, io, false, []⟩
    else if t.dels.contains (tempPath t e) then unpackedLoop t s io es
    else do
      let r ← readPktFile t s io (tempPath t e)
      if !r.ok then return ⟨r.st, r.io, false, [(tempPath t e, r.got)]⟩
      else
        let _ ← osDelete (tempPath t e)
        let q ← unpackedLoop t r.st r.io es
        return { q with log := (tempPath t e, r.got) :: q.log }

/-- How far `TossBundle` got. -/
inductive BundleEnd where
  /-- zero length -/
  | empty
  /-- no packer recognises it, or it cannot be opened -/
  | unknown
  /-- there is no temporary directory, or it cannot be read -/
  | noDir
  /-- the packer was run with this result, and these packets were tossed -/
  | unpacked (p : Packer) (res : Nat) (log : PktLog)
  deriving DecidableEq

/-- What `TossBundle` did. -/
structure BundleRun (σ : Type) where
  st : σ
  io : Bool
  ok : Bool
  how : BundleEnd

/-- The packer `DetectPacker` finds (`toss.c` 31-52): none if the file cannot be opened. -/
def detectFile (packers : List Packer) (file : Str) : Prog (Option Packer) := do
  match ← readFile file with
  | none => return none
  | some d => liftUB (detectPacker d packers)

/-- `TossBundle` (`toss.c` 81-166). `chdir`: whether `osChDirExecute` (`osmisc.c` 25-41) can go to the
temporary directory and knows where it came from. The comment for the bad file is not kept
(`osSetComment`). -/
def tossBundleD {σ : Type} (t : InCfg σ) (s : σ) (io chdir : Bool) (file : Str) (size : Nat) : Prog (BundleRun σ) := do
  if size = 0 then
    let _ ← osDelete file
    return ⟨s, io, true, .empty⟩
  else
    match ← detectFile t.packers file with
    | none =>
      let io ← badFile t.fuel io t.inbound file
      return ⟨s, io, true, .unknown⟩
    | some p =>
      let c ← liftUB (expandPacker 100 file [] p.unpacker [])
      if !chdir then return ⟨s, io, false, .noDir⟩
      else
        let n ← osExecute c
        let io ← (if n ≠ 0 then badFile t.fuel io t.inbound file else pure io)
        match ← osReadDir t.tempDir isPkt with
        | none => return ⟨s, io, false, .noDir⟩
        | some es =>
          let q ← unpackedLoop t s io (t.sort es)
          return ⟨q.st, q.io, q.ok, .unpacked p n q.log⟩

/-- The bundle part of `TossDir` and `TossFile` for one bundle (`toss.c` 252-261, 309-320): if it was tossed,
its name is put on the list of `SafeDelete` (`safedel.c` 3-14, the name is cut to 99 characters) and
deleted by `ProcessSafeDelete` (`safedel.c` 16-24) in the end. What `AfterScanToss` does in between is in
`Model/Pack.lean`. -/
def tossOne {σ : Type} (t : InCfg σ) (s : σ) (io chdir : Bool) (file : Str) (size : Nat) : Prog (BundleRun σ) := do
  let r ← tossBundleD t s io chdir file size
  if r.ok then
    let _ ← osDelete (mystrncpy file 100)
    return r
  else return r

/-- `WEXITSTATUS`, which `osExecute` (`osmisc.c` 42-50) applies to the status of `system`: bits 8-15. -/
def wExitStatus (status : Nat) : Nat := status / 256 % 256

end CM
