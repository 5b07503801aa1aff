import Verif.Model.CrashStats
import Verif.Model.GetNode
import Verif.Model.Outbound
/-! # Model of CrashListOut (`tools/crashlistout.c`)

`localtime`, the order `qsort` chooses among equals and the line with the version are parameters. The
functions at the beginning of the file are copies of functions of CrashMail: `Parse4DPat` (77-132) of
`rawParse4DPat`, `NodeCompare` and `Compare4DPat` (134-175) of the functions in `node4dpat.c` for
patterns without keyword, `hextodec` (188-207) of the one in `misc.c`; their models are used. `strip`
(209-215) is that of CrashGetNode. `strcpy(line,&line[1])` (272, 333) is taken to move the string by one
byte, which the C standard does not promise. Memory is not exhausted, the disk does not change meanwhile and
all files can be read to the end. -/

namespace CM

/-- The disk: the names in a directory in the order of `readdir` (`osScanDir`), size and date of a file
(`osGetFileEntry`) and the contents of a file (`osOpen`). -/
structure LoDisk where
  scan : Str → Option (List Str)
  stat : Str → Option (UInt32 × UInt64)
  content : Str → Option (List UInt8)

/-- What is used of a `struct tm` (236-241). -/
structure LoTm extends LocalTm where
  hour : Nat
  min : Nat

/-- `TYPE_*` (26-30). -/
inductive LoType where
  | crash | direct | normal | hold | request
  deriving DecidableEq, Repr

/-- `type_names` (32). -/
def LoType.name : LoType → Str
  | .crash => b!"Crash"
  | .direct => b!"Direct"
  | .normal => b!"Normal"
  | .hold => b!"Hold"
  | .request => b!"Request"

/-- `struct fileentry` (38-48). -/
structure LoEntry where
  node : Node4D
  file : Str
  dir : Str
  size : UInt32
  date : UInt64
  type : LoType
  flow : Bool
  deriving DecidableEq, Repr

/-- The environment. -/
structure LoEnv where
  disk : LoDisk
  localtime : UInt64 → Option LoTm
  sort : List LoEntry → List LoEntry
  title : Str

/-- The arguments with their defaults (638-682): directory, zone (a `uint32_t`), pattern, verbose. -/
structure LoArgs where
  dir : Str
  zone : UInt32 := 2
  pattern : Option Str := none
  verbose : Bool := false

/-- `unit` (179-186): `-10000000` and `-10000` are converted to `uint32_t`. -/
def loUnit (i : UInt32) : Str :=
  if i > 10000000 ∨ i < 4284967296 then dec (i.toNat / 1048576) ++ b!"M"
  else if i > 10000 ∨ i < 4294957296 then dec (i.toNat / 1024) ++ b!"K"
  else dec i.toNat

/-- `PrintDate` (228-244). -/
def loDate (e : LoEnv) (t : UInt64) : Except UB Str :=
  match e.localtime t with
  | none => .error .nullDeref
  | some tm =>
    match csMonths[tm.mon]? with
    | none => .error .oobRead
    | some m => .ok (show2 tm.mday ++ b!"-" ++ m ++ b!"-" ++ show2 tm.yy ++ b!" " ++ show2 tm.hour ++ b!":" ++ show2 tm.min)

/-! ## Collecting the entries -/

/-- The node of a file (504-517): `boss` is the node of the `.pnt` directory the file is in. -/
def loNode (zone : UInt32) (boss : Option Node4D) (file : Str) : Node4D :=
  let hex : UInt32 := (hextodec file).toUInt32
  match boss with
  | some b => { b with point := hex.toUInt16 }
  | none => ⟨zone.toUInt16, (hex >>> 16).toUInt16, hex.toUInt16, 0⟩

/-- `addentry` (495-559): at most one entry. `sub` is the `.pnt` directory and its node. -/
def loAdd (d : LoDisk) (a : LoArgs) (pat : Pat4) (sub : Option (Str × Node4D)) (file : Str) (type : LoType) (flow : Bool) :
    List LoEntry :=
  let n := loNode a.zone (sub.map (·.2)) file
  if !compare4DPat ⟨false, fun _ => -1, fun _ => -1⟩ pat n then []
  else
    let buf := match sub with
      | some (s, _) => makeFullPath s file 200
      | none => mystrncpy file 200
    match d.stat (makeFullPath a.dir buf 200) with
    | none => []
    | some (size, date) =>
      [{ node := n
         file := mystrncpy buf 100
         dir := match sub with
           | some (s, _) => makeFullPath a.dir s 100
           | none => mystrncpy a.dir 100
         size := size, date := date, type := type, flow := flow }]

/-- The extensions (596-606). -/
def loExts : List (Str × LoType × Bool) :=
  [(b!".REQ", .request, true), (b!".CLO", .crash, true), (b!".DLO", .direct, true), (b!".FLO", .normal, true),
   (b!".HLO", .hold, true), (b!".CUT", .crash, false), (b!".DUT", .direct, false), (b!".OUT", .normal, false),
   (b!".HUT", .hold, false)]

/-- `scandirfunc` (564-607) without the part for `.PNT`. -/
def loFile (d : LoDisk) (a : LoArgs) (pat : Pat4) (sub : Option (Str × Node4D)) (file : Str) : List LoEntry :=
  if file.length ≠ 12 then []
  else loExts.flatMap fun x => if eqi (file.drop 8) x.1 then loAdd d a pat sub file x.2.1 x.2.2 else []

/-- `scandirfunc` (564-607) in the outbound directory. That the directory of a point cannot be read is not
noticed. -/
def loTop (d : LoDisk) (a : LoArgs) (pat : Pat4) (file : Str) : List LoEntry :=
  if file.length ≠ 12 then []
  else
    (if eqi (file.drop 8) b!".PNT" then
      ((d.scan (makeFullPath a.dir file 200)).getD []).flatMap
        (loFile d a pat (some (file, loNode a.zone none file)))
     else []) ++ loFile d a pat none file

/-! ## Showing them -/

/-- A line of a flow file (265-295, 321-356): the first character if it is one of `#`, `^` and `-`, the name,
and the size of the file if it exists. -/
structure LoRef where
  mark : Option UInt8
  name : Str
  size : Option UInt32
  deriving DecidableEq, Repr

/-- The mark before the name and the name. -/
def loMark : Str → Option UInt8 × Str
  | c :: r => if c = 35 ∨ c = 94 ∨ c = 45 then (some c, r) else (none, c :: r)
  | [] => (none, [])

/-- One line of a flow file. -/
def loRef (d : LoDisk) (dir : Str) (s : Str) : LoRef :=
  let m := loMark s
  let full := if eqi (getFilePart m.2) m.2 then makeFullPath dir m.2 200 else m.2
  ⟨m.1, m.2, (d.stat full).map (·.1)⟩

/-- The loops over the lines of a file (265-297, 321-357, 382-391, 411-417): the lines after `strip`. The first
argument bounds the number of lines (the length of the file does). -/
def loLines : Nat → List UInt8 → Except UB (List Str)
  | 0, _ => .ok []
  | n + 1, f =>
    match osFGets 200 f with
    | none => .ok []
    | some (s, r) =>
      if s = [] then .ok []
      else do
        let t ← gnStrip s
        let ts ← loLines n r
        .ok (t :: ts)

/-- `TotalBytes`, `TotalFiles`, `TotalRequests` (34-36). -/
structure LoTot where
  bytes : UInt32 := 0
  files : UInt32 := 0
  reqs : UInt32 := 0
  deriving DecidableEq, Repr

/-- The line of an entry (427-428, 440-441, 449-450). -/
def loRow (e : LoEnv) (x : LoEntry) (bf : Str) : Except UB Str := do
  let d ← loDate e x.date
  .ok (padR 8 (x.type.name.take 8) ++ b!" " ++ padR 17 ((print4D x.node).take 17) ++ b!" " ++ padR 16 (d.take 16) ++ b!" " ++
    padL 7 (bf.take 7) ++ b!"   " ++ x.file ++ b!"\n")

/-- What is to be done with a file (327-330). -/
def LoRef.todo (r : LoRef) : Str :=
  if r.mark = some 35 ∨ r.mark = some 94 then b!"(To be truncated)"
  else if r.mark = some 45 then b!"(To be deleted)" else []

/-- A line of `DisplayFlowContents` (347-355). -/
def loRefRow (r : LoRef) : Str :=
  b!" " ++ padR 39 (r.name.take 39) ++ b!" " ++ padL 10 (match r.size with
    | some s => loUnit s
    | none => b!"Not found") ++ b!"   " ++ r.todo ++ b!"\n"

/-- The references of a flow file (`PrintFlowSize` 246-304 and `DisplayFlowContents` 306-363); `none`: it cannot
be opened. -/
def loRefs (e : LoEnv) (a : LoArgs) (x : LoEntry) : Except UB (Option (List LoRef)) :=
  match e.disk.content (makeFullPath a.dir x.file 200) with
  | none => .ok none
  | some f => do
    let ls ← loLines (f.length + 1) f
    .ok (some (ls.map (loRef e.disk x.dir)))

/-- The lines of a request file (`PrintReqNums` 365-396, `DisplayReqContents` 398-423). -/
def loReqs (e : LoEnv) (a : LoArgs) (x : LoEntry) : Except UB (Option (List Str)) :=
  match e.disk.content (makeFullPath a.dir x.file 200) with
  | none => .ok none
  | some f => do
    let ls ← loLines (f.length + 1) f
    .ok (some ls)

/-- The sizes of the files that exist. -/
def loSizes (rs : List LoRef) : List UInt32 := rs.filterMap (·.size)

/-- The column `B/F` of a flow file (254-255, 288-289, 301). -/
def loFlowBF : Option (List LoRef) → Str
  | none => b!"?/?"
  | some rs => loUnit ((loSizes rs).foldl (· + ·) 0) ++ b!"/" ++ dec ((loSizes rs).foldl (fun n _ => n + 1) (0 : UInt32)).toNat

/-- The totals after a flow file (291-292). -/
def loFlowTot (t : LoTot) : Option (List LoRef) → LoTot
  | none => t
  | some rs => (loSizes rs).foldl (fun t s => { t with files := t.files + 1, bytes := t.bytes + s }) t

/-- What `DisplayFlowContents` prints. -/
def loFlowText : Option (List LoRef) → Str
  | none => b!"Failed to open file\n\n"
  | some rs => rs.flatMap loRefRow ++ b!"\n"

/-- `DisplayFlow` (425-432). -/
def loFlow (e : LoEnv) (a : LoArgs) (t : LoTot) (x : LoEntry) : Except UB (Str × LoTot) := do
  let rs ← loRefs e a x
  let row ← loRow e x (loFlowBF rs)
  .ok (row ++ (if a.verbose then loFlowText rs else []), loFlowTot t rs)

/-- `DisplayPkt` (434-445). -/
def loPkt (e : LoEnv) (a : LoArgs) (t : LoTot) (x : LoEntry) : Except UB (Str × LoTot) := do
  let row ← loRow e x (loUnit x.size ++ b!"/1")
  .ok (row ++ (if a.verbose then b!"\n" else []), t)

/-- The column `B/F` of a request (393). -/
def loReqBF : Option (List Str) → Str
  | none => b!"?/?"
  | some ls => b!"-/" ++ dec (ls.foldl (fun n _ => n + 1) (0 : UInt32)).toNat

/-- The totals after a request (389). -/
def loReqTot (t : LoTot) : Option (List Str) → LoTot
  | none => t
  | some ls => ls.foldl (fun t _ => { t with reqs := t.reqs + 1 }) t

/-- What `DisplayReqContents` prints. -/
def loReqText : Option (List Str) → Str
  | none => b!"Failed to open file\n\n"
  | some ls => (ls.flatMap fun l => b!" " ++ l ++ b!"\n") ++ b!"\n"

/-- `DisplayReq` (447-454). -/
def loReq (e : LoEnv) (a : LoArgs) (t : LoTot) (x : LoEntry) : Except UB (Str × LoTot) := do
  let ls ← loReqs e a x
  let row ← loRow e x (loReqBF ls)
  .ok (row ++ (if a.verbose then loReqText ls else []), loReqTot t ls)

/-- One entry (708-710). -/
def loShow (e : LoEnv) (a : LoArgs) (t : LoTot) (x : LoEntry) : Except UB (Str × LoTot) :=
  if x.type = .request then loReq e a t x else if x.flow then loFlow e a t x else loPkt e a t x

/-- The loop over the entries (706-711): what is printed for each, and the totals. -/
def loShowAll (e : LoEnv) (a : LoArgs) : LoTot → List LoEntry → Except UB (List Str × LoTot)
  | t, [] => .ok ([], t)
  | t, x :: r => do
    let p ← loShow e a t x
    let q ← loShowAll e a p.2 r
    .ok (p.1 :: q.1, q.2)

/-- `sortlist` (466-493) with `sortcompare` (456-464). -/
def loSort (e : LoEnv) (l : List LoEntry) : List LoEntry := if l.length < 2 then l else e.sort l

/-- How CrashListOut ends: the pattern is wrong (669-674), the directory cannot be read (691-697), or a list
is shown. -/
inductive LoEnd where
  | badPattern
  | noDir
  | shown (out : Str)
  deriving DecidableEq

/-- The pattern (662-675). -/
def loPattern : Option Str → Except UB (Option Pat4)
  | none => .ok (some ⟨.pattern, b!"*", b!"*", b!"*", b!"*"⟩)
  | some s => rawParse4DPat .pattern s

/-- The headline (701-702). -/
def loHead : Str :=
  padR 8 b!"Type" ++ b!" " ++ padR 17 b!"Node" ++ b!" " ++ padR 16 b!"Last Change" ++ b!" " ++ padL 7 b!"B/F" ++ b!"   File\n\n"

/-- `main` (609-724). -/
def listOut (e : LoEnv) (a : LoArgs) : Except UB LoEnd := do
  match ← loPattern a.pattern with
  | none => .ok .badPattern
  | some pat =>
    match e.disk.scan a.dir with
    | none => .ok .noDir
    | some names =>
      let l := loSort e (names.flatMap (loTop e.disk a pat))
      if l = [] then .ok (.shown (e.title ++ loHead ++ b!"Outbound directory is empty.\n"))
      else do
        let p ← loShowAll e a {} l
        .ok (.shown (e.title ++ loHead ++ p.1.flatten ++ (if a.verbose then [] else b!"\n") ++ b!"Totally " ++ loUnit p.2.bytes ++
          b!" bytes in " ++ dec p.2.files.toNat ++ b!" files to send, " ++ dec p.2.reqs.toNat ++ b!" requests.\n"))

end CM
