import Verif.Model.Bytes
import Verif.Model.Config
/-! # Model of the statistics (`crashmail/stats.c`, `crashmail/crashmail.c` 165-208)

The layout of the records is that of x86-64 Linux: `time_t` has 8 bytes and 8-byte alignment, so a
`DiskAreaStats` has 136 bytes and a `DiskNodeStats` 56. Padding, the unused `fill_to_make_even` and
the bytes behind the end of the tag are whatever the stack contained: they are taken from an
arbitrary function of the record number and the position. -/

namespace CM

/-- A `time_t` in memory or a file. -/
def le64 (x : UInt64) : List UInt8 :=
  le32 (UInt32.ofNat (x.toNat % 4294967296)) ++ le32 (UInt32.ofNat (x.toNat / 4294967296))

/-- The first eight bytes of a buffer as `time_t`. -/
def rd64L (b : List UInt8) : UInt64 :=
  UInt64.ofNat ((rd32L b).toNat + 4294967296 * (rd32L (b.drop 4)).toNat)

/-- The first two bytes of a buffer as `uint16_t`; 0 for a shorter list (callers pass at least 2). -/
def rd16L : List UInt8 → UInt16
  | a :: b :: _ => rd16 a b
  | _ => 0

/-- `uint16_t Last8Days[8]`. -/
abbrev Days := Vector UInt16 8

/-- The members of `struct Area` (`config.h` 70-103) that the statistics use. `flags` is widened
from `char`; `aka` is the address `area->Aka` points to, `none` for a NULL pointer. -/
structure AreaStat where
  tag : Str
  type : AreaType
  flags : UInt8 := 0
  aka : Option Node4D
  group : UInt8 := 0
  texts : UInt32 := 0
  newTexts : UInt32 := 0
  dupes : UInt32 := 0
  newDupes : UInt32 := 0
  last8 : Days := Vector.replicate 8 0
  firstTime : UInt64 := 0
  lastTime : UInt64 := 0
  deriving DecidableEq

/-- The counters of `struct ConfigNode` (`config.h` 152-195). -/
structure NodeStat where
  node : Node4D
  gotNetmails : UInt32 := 0
  gotNetmailBytes : UInt32 := 0
  sentNetmails : UInt32 := 0
  sentNetmailBytes : UInt32 := 0
  gotEchomails : UInt32 := 0
  gotEchomailBytes : UInt32 := 0
  sentEchomails : UInt32 := 0
  sentEchomailBytes : UInt32 := 0
  dupes : UInt32 := 0
  firstTime : UInt64 := 0
  deriving DecidableEq

/-- The test of `stats.c` 57-59 and 75-77: which areas get a record. -/
def statWritten (a : AreaStat) : Bool :=
  (a.type == .bad || a.type == .echomail || a.type == .netmail) && (a.flags &&& 1 == 0)

/-- `n` bytes of a record nobody has set, from position `off`. -/
def junkBytes (junk : Nat → UInt8) (off n : Nat) : List UInt8 :=
  (List.range n).map (fun i => junk (off + i))

/-- An address as stored by `Copy4D` in a record. -/
def node4DBytes (n : Node4D) : List UInt8 := le16 n.zone ++ le16 n.net ++ le16 n.node ++ le16 n.point

/-- `Last8Days` as stored by `memcpy`. -/
def daysBytes (d : Days) : List UInt8 := d.toList.flatMap le16

/-- One `struct DiskAreaStats` (`stats.c` 5-19) filled by 79-88. A tag that does not fit into its
80 bytes is written out of bounds. -/
def areaRecord (junk : Nat → UInt8) (a : AreaStat) : Except UB (List UInt8) :=
  if 80 ≤ a.tag.length then .error .oobWrite
  else match a.aka with
    | none => .error .nullDeref
    | some aka =>
      .ok (a.tag ++ [0] ++ junkBytes junk (a.tag.length + 1) (79 - a.tag.length) ++ node4DBytes aka ++
        [a.group] ++ junkBytes junk 89 3 ++ le32 a.texts ++ daysBytes a.last8 ++ le32 a.dupes ++
        junkBytes junk 116 4 ++ le64 a.firstTime ++ le64 a.lastTime)

/-- One `struct DiskNodeStats` (`stats.c` 21-34) filled by 97-109. -/
def nodeRecord (junk : Nat → UInt8) (n : NodeStat) : List UInt8 :=
  node4DBytes n.node ++ le32 n.gotNetmails ++ le32 n.gotNetmailBytes ++ le32 n.sentNetmails ++
    le32 n.sentNetmailBytes ++ le32 n.gotEchomails ++ le32 n.gotEchomailBytes ++ le32 n.sentEchomails ++
    le32 n.sentEchomailBytes ++ le32 n.dupes ++ junkBytes junk 44 4 ++ le64 n.firstTime

/-- The loop `stats.c` 73-91 over the rest of the area list; `k` counts the records written. -/
def areaRecords (junk : Nat → Nat → UInt8) (k : Nat) : List AreaStat → Except UB (List UInt8)
  | [] => .ok []
  | a :: r =>
    if statWritten a then do
      let x ← areaRecord (junk k) a
      let y ← areaRecords junk (k + 1) r
      .ok (x ++ y)
    else areaRecords junk k r

/-- The loop `stats.c` 95-110. -/
def nodeRecords (junk : Nat → Nat → UInt8) (k : Nat) : List NodeStat → List UInt8
  | [] => []
  | n :: r => nodeRecord (junk k) n ++ nodeRecords junk (k + 1) r

/-- `time(NULL) / (24*60*60)` stored in a `uint32_t`. -/
def dayOf (t : UInt64) : UInt32 := UInt32.ofNat (t.toNat / 86400)

/-- `WriteStats` (`stats.c` 36-115) on a file that can be created: the value of `DayStatsWritten`
afterwards and the contents of the file. Write errors are not noticed by the C code and are not
modelled. `now` is what `time(NULL)` returns. -/
def writeStats (ja jn : Nat → Nat → UInt8) (now : UInt64) (day : UInt32) (as : List AreaStat)
    (ns : List NodeStat) : Except UB (UInt32 × List UInt8) := do
  let day := if day = 0 then dayOf now else day
  let recs ← areaRecords ja 0 as
  .ok (day, b!"CST3" ++ le32 day ++ le32 (UInt32.ofNat (as.filter statWritten).length) ++ recs ++
    le32 (UInt32.ofNat ns.length) ++ nodeRecords jn 0 ns)

/-- The statistics members of one `struct DiskAreaStats` read from a file. -/
structure DiskArea where
  tag : Str
  texts : UInt32
  dupes : UInt32
  last8 : Days
  firstTime : UInt64
  lastTime : UInt64

/-- A record of 136 bytes taken apart. A tag without terminating NUL is read out of bounds by
`stricmp`. -/
def parseArea (r : List UInt8) : Except UB DiskArea :=
  if (0 : UInt8) ∈ r.take 80 then
    .ok ⟨cstr (r.take 80), rd32L (r.drop 92), rd32L (r.drop 112),
      Vector.ofFn fun i => rd16L (r.drop (96 + 2 * i.val)), rd64L (r.drop 120), rd64L (r.drop 128)⟩
  else .error .oobRead

/-- A record of 56 bytes taken apart. -/
def parseNode (r : List UInt8) : NodeStat :=
  { node := ⟨rd16L r, rd16L (r.drop 2), rd16L (r.drop 4), rd16L (r.drop 6)⟩
    gotNetmails := rd32L (r.drop 8)
    gotNetmailBytes := rd32L (r.drop 12)
    sentNetmails := rd32L (r.drop 16)
    sentNetmailBytes := rd32L (r.drop 20)
    gotEchomails := rd32L (r.drop 24)
    gotEchomailBytes := rd32L (r.drop 28)
    sentEchomails := rd32L (r.drop 32)
    sentEchomailBytes := rd32L (r.drop 36)
    dupes := rd32L (r.drop 40)
    firstTime := rd64L (r.drop 48) }

/-- Find the first member with `p` and change it with `f`. -/
def updFirst {α : Type} (p : α → Bool) (f : α → α) : List α → List α
  | [] => []
  | a :: r => if p a then f a :: r else a :: updFirst p f r

/-- `stats.c` 152-156. -/
def setAreaStat (d : DiskArea) (a : AreaStat) : AreaStat :=
  { a with
    texts := d.texts
    dupes := d.dupes
    firstTime := d.firstTime
    lastTime := d.lastTime
    last8 := d.last8 }

/-- `stats.c` 172-182. -/
def setNodeStat (d : NodeStat) (n : NodeStat) : NodeStat :=
  { n with
    gotEchomails := d.gotEchomails
    gotEchomailBytes := d.gotEchomailBytes
    sentEchomails := d.sentEchomails
    sentEchomailBytes := d.sentEchomailBytes
    gotNetmails := d.gotNetmails
    gotNetmailBytes := d.gotNetmailBytes
    sentNetmails := d.sentNetmails
    sentNetmailBytes := d.sentNetmailBytes
    dupes := d.dupes
    firstTime := d.firstTime }

/-- The loop `stats.c` 145-160: `num` more records; also what is left of the file. -/
def readAreaStats : Nat → List UInt8 → List AreaStat → Except UB (List AreaStat × List UInt8)
  | 0, f, as => .ok (as, f)
  | n + 1, f, as =>
    if f.length < 136 then .ok (as, [])
    else do
      let d ← parseArea (f.take 136)
      readAreaStats n (f.drop 136) (updFirst (fun a => eqi a.tag d.tag) (setAreaStat d) as)

/-- The loop `stats.c` 165-186. -/
def readNodeStats : Nat → List UInt8 → List NodeStat → List NodeStat
  | 0, _, ns => ns
  | n + 1, f, ns =>
    if f.length < 56 then ns
    else
      let d := parseNode (f.take 56)
      readNodeStats n (f.drop 56) (updFirst (fun c => compare4D d.node c.node == 0) (setNodeStat d) ns)

/-- `ReadStats` (`stats.c` 117-191): its result, `DayStatsWritten` and the counters; `file` is `none`
if it cannot be opened. If the file ends within the first 12 bytes the C code uses uninitialised
variables. If it ends before the number of nodes there are no bytes left and no node is read. -/
def readStats (file : Option (List UInt8)) (day : UInt32) (as : List AreaStat) (ns : List NodeStat) :
    Except UB (Bool × UInt32 × List AreaStat × List NodeStat) :=
  match file with
  | none => .ok (true, day, as, ns)
  | some f =>
    if f.length < 4 then .error .uninit
    else if f.take 4 ≠ b!"CST3" then .ok (false, day, as, ns)
    else if f.length < 12 then .error .uninit
    else do
      let (as', r) ← readAreaStats (rd32L (f.drop 8)).toNat (f.drop 12) as
      let ns' := if r.length < 4 then ns else readNodeStats (rd32L r).toNat (r.drop 4) ns
      .ok (true, rd32L (f.drop 4), as', ns')

/-- `crashmail.c` 179-182: `for(e=0;e<7;e++) Last8Days[7-e]=Last8Days[7-e-1]; Last8Days[0]=0`. -/
def shiftDay (d : Days) : Days :=
  let d := (List.range 7).foldl (fun (d : Days) e => d.setIfInBounds (7 - e) (d.getD (7 - e - 1) 0)) d
  d.setIfInBounds 0 0

/-- `crashmail.c` 177-183: `for(d=DayStatsWritten;d<day;d++)`; `n` is what remains to be counted. -/
def shiftDays : Nat → Days → Days
  | 0, d => d
  | n + 1, d => shiftDays n (shiftDay d)

/-- `crashmail.c` 191-202 for one area; `t1` and `t2` are the results of the two calls of `time`. -/
def countArea (t1 t2 : UInt64) (a : AreaStat) : AreaStat :=
  if a.newTexts ≠ 0 ∨ a.newDupes ≠ 0 then
    let a := { a with
      texts := a.texts + a.newTexts
      last8 := a.last8.setIfInBounds 0 (a.last8.getD 0 0 + UInt16.ofNat a.newTexts.toNat)
      dupes := a.dupes + a.newDupes }
    let a := if a.newTexts ≠ 0 then { a with lastTime := t1 } else a
    if a.newTexts ≠ 0 ∧ a.firstTime = 0 then { a with firstTime := t2 } else a
  else a

/-- `crashmail.c` 204-208 for one node. -/
def countNode (t : UInt64) (n : NodeStat) : NodeStat :=
  if n.firstTime = 0 ∧ (n.gotEchomails ≠ 0 ∨ n.gotNetmails ≠ 0 ∨ n.sentEchomails ≠ 0 ∨ n.sentNetmails ≠ 0) then
    { n with firstTime := t }
  else n

/-- The statistics part of `AfterScanToss` up to `WriteStats` (`crashmail.c` 165-208) for a
successful run: `DayStatsWritten`, areas and nodes. `now k` is the time at the call sites, in order
(169, 172, 197, 200, 207); within one loop the clock is taken to stand still. -/
def endOfRun (now : Nat → UInt64) (day : UInt32) (as : List AreaStat) (ns : List NodeStat) :
    UInt32 × List AreaStat × List NodeStat :=
  let dsw := if day = 0 then dayOf (now 0) else day
  let today := dayOf (now 1)
  let as := as.map fun a =>
    if today > dsw then { a with last8 := shiftDays (today - dsw).toNat a.last8 } else a
  (today, as.map (countArea (now 2) (now 3)), ns.map (countNode (now 4)))

end CM
