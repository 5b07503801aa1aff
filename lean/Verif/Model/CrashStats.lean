import Verif.Model.Stats
import Verif.Model.Areafix
/-! # Model of CrashStats (`tools/crashstats.c`)

`localtime`, the order `qsort` chooses among equals, and the first line with the version are parameters.
The arguments are those `parseargs` has found (modelled in `Model/Search.lean`). Memory is not exhausted and
Ctrl-C is not pressed. The padding and the sizes of the records are those of `Model/Stats.lean`. -/

namespace CM

/-- What CrashStats uses of a `struct tm`: the day, the month from 0, and the year without century
(`tm_year%100`, 525-529). -/
structure LocalTm where
  mday : Nat
  mon : Nat
  yy : Nat

/-- `struct StatsNode` (61-71). -/
structure StatLine where
  tag : Str
  average : UInt32
  total : UInt32
  dupes : UInt32
  first : UInt64
  last : UInt64
  last8 : Days

/-- The environment: `localtime` (`none` is NULL), `qsort` of the areas with a comparison function, `qsort` of
the nodes, and the line with the version (394). -/
structure StatEnv where
  localtime : UInt64 → Option LocalTm
  sortAreas : (StatLine → StatLine → Int) → List StatLine → List StatLine
  sortNodes : List NodeStat → List NodeStat
  title : Str

/-- The arguments (91-105). `sort` and `group` are `none` if not given. -/
structure StatArgs where
  file : Str
  sort : Option Str := none
  last7 : Bool := false
  noAreas : Bool := false
  noNodes : Bool := false
  group : Option Str := none

/-- A `time_t` as a number. -/
def timeInt (t : UInt64) : Int := if t.toNat < 9223372036854775808 then (t.toNat : Int) else (t.toNat : Int) - 18446744073709551616

/-- A `uint32_t` as `printf` shows it with `%d`. -/
def sdec (x : UInt32) : Str := if x.toNat < 2147483648 then dec x.toNat else 45 :: dec (4294967296 - x.toNat)

/-- `%02d` of a number that is not negative. -/
def show2 (n : Nat) : Str := if n < 10 then 48 :: dec n else dec n

/-- `monthnames` (349). -/
def csMonths : List Str := [b!"Jan", b!"Feb", b!"Mar", b!"Apr", b!"May", b!"Jun", b!"Jul", b!"Aug", b!"Sep", b!"Oct",
  b!"Nov", b!"Dec", b!"???"]

/-- `localtime` and `sprintf(date,"%02d-%s-%02d",…)` (525-529, 616-617, 626-627). -/
def csDate (e : StatEnv) (t : UInt64) : Except UB Str :=
  match e.localtime t with
  | none => .error .nullDeref
  | some tm =>
    match csMonths[tm.mon]? with
    | none => .error .oobRead
    | some m => .ok (show2 tm.mday ++ b!"-" ++ m ++ b!"-" ++ show2 tm.yy)

/-- The date of a node (664-672): `%0d` does not pad. -/
def csNodeDate (e : StatEnv) (t : UInt64) : Except UB Str :=
  if t = 0 then .ok b!"<Never>"
  else match e.localtime t with
    | none => .error .nullDeref
    | some tm =>
      match csMonths[tm.mon]? with
      | none => .error .oobRead
      | some m => .ok (dec tm.mday ++ b!"-" ++ m ++ b!"-" ++ dec tm.yy)

/-- 610-628: a date, or `<Never>`. -/
def csDateOr (e : StatEnv) (t : UInt64) : Except UB Str := if t = 0 then .ok b!"<Never>" else csDate e t

/-- The comparison of 119-177 for descending values. -/
def cmpDesc {α : Type} (v : α → Int) (a b : α) : Int := if v a < v b then 1 else if v a > v b then -1 else 0

/-- The comparison functions (109-177) of `Sort` (179-229); `none` if there is nothing to sort by. -/
def csCompare (mode : UInt8) : Option (StatLine → StatLine → Int) :=
  if mode = 97 then some fun a b => cmpi a.tag b.tag
  else if mode = 116 then some (cmpDesc fun a => (a.total.toNat : Int))
  else if mode = 109 then some (cmpDesc fun a => (a.average.toNat : Int))
  else if mode = 100 then some (cmpDesc fun a => timeInt a.first)
  else if mode = 108 then some (cmpDesc fun a => timeInt a.last)
  else if mode = 117 then some (cmpDesc fun a => (a.dupes.toNat : Int))
  else none

/-- `Sort` (179-229). -/
def csSort (e : StatEnv) (mode : UInt8) (l : List StatLine) : List StatLine :=
  if l = [] then l
  else match csCompare mode with
    | some c => e.sortAreas c l
    | none => l

/-- `SortNodes` (231-272). -/
def csSortNodes (e : StatEnv) (l : List NodeStat) : List NodeStat := if l = [] then l else e.sortNodes l

/-- `unit` (274-281): `-10000000` and `-10000` are converted to `uint32_t`. -/
def csUnit (i : UInt32) : Str :=
  if i > 10000000 ∨ i < 4284967296 then dec (i.toNat / 1048576) ++ b!" MB"
  else if i > 10000 ∨ i < 4294957296 then dec (i.toNat / 1024) ++ b!" KB"
  else sdec i ++ b!" bytes"

/-- `CheckFlags` (283-294); `toupper` of a byte above 127 is the byte. -/
def csCheckFlags (group : UInt8) (node : Str) : Bool := node.any fun c => upper group == upper c

/-- The sum of 308-311: `for(c=1;c<days+1;c++) sum+=last8array[c]`. -/
def csSum (last8 : Days) (days : Nat) : UInt32 :=
  (List.range days).foldl (fun s c => s + (last8.getD (c + 1) 0).toUInt32) 0

/-- `CalculateAverage` (296-323); `days` is a `uint16_t`. -/
def csAverage (last8 : Days) (total day : UInt32) (firstday : Int) : UInt32 :=
  if day = 0 ∨ firstday = 0 then 0
  else
    let raw := UInt16.ofNat (((day.toNat : Int) - firstday) % 65536).toNat
    let days := if raw > 7 then 7 else raw
    let sum := csSum last8 days.toNat
    let days := if days = 0 then 1 else days
    if sum = 0 ∧ total ≠ 0 then
      let all := if raw = 0 then 1 else raw
      total / all.toUInt32
    else sum / days.toUInt32

/-- 436: whether an area is wanted. -/
def csWanted (a : StatArgs) (group : UInt8) : Bool :=
  match a.group with
  | none => true
  | some g => csCheckFlags group g

/-- 459-461 and 507-509: the earliest time seen. -/
def csFirst (first t : UInt64) : UInt64 :=
  if t ≠ 0 then (if first = 0 ∨ timeInt first > timeInt t then t else first) else first

/-- One record copied into a `StatsNode` (449-456). -/
def csLine (day : UInt32) (d : DiskArea) : StatLine :=
  ⟨d.tag, csAverage d.last8 d.texts day ((timeInt d.firstTime).tdiv 86400), d.texts, d.dupes, d.firstTime, d.lastTime, d.last8⟩

/-- The loop 434-464: the areas, the earliest time, and the rest of the file. The tag is copied only if the area
is wanted. -/
def csReadAreas (a : StatArgs) (day : UInt32) : Nat → Str → UInt64 → Except UB (List StatLine × UInt64 × Str)
  | 0, f, t => .ok ([], t, f)
  | n + 1, f, t =>
    if f.length < 136 then .ok ([], t, [])
    else do
      let r := f.take 136
      let l ← (if csWanted a (r.getD 88 0) then (do let d ← parseArea r; pure [csLine day d]) else .ok [])
      let (ls, t', rest) ← csReadAreas a day n (f.drop 136) (csFirst t (rd64L (r.drop 120)))
      .ok (l ++ ls, t', rest)

/-- The loops 468-469 and 517-518 that only skip records: the rest of the file. -/
def csSkip (size : Nat) : Nat → Str → Str
  | 0, f => f
  | n + 1, f => if f.length < size then [] else csSkip size n (f.drop size)

/-- The loop 477-513: the nodes and the earliest time. `Days` is not used. -/
def csReadNodes : Nat → Str → UInt64 → List NodeStat × UInt64
  | 0, _, t => ([], t)
  | n + 1, f, t =>
    if f.length < 56 then ([], t)
    else
      let d := parseNode (f.take 56)
      let q := csReadNodes n (f.drop 56) (csFirst t d.firstTime)
      (d :: q.1, q.2)

/-- `total8days[c]+=sn->Last8Days[c]` from `c=from` (572-573, 630-631). -/
def addDays (lo : Nat) (t d : Days) : Days := Vector.ofFn fun i => if lo ≤ i.val then t[i] + d[i] else t[i]

/-- The sum of the days 1 to 7 (556-559, 580-583). -/
def weekSum (d : Days) : UInt32 := csSum d 7

/-- The line of an area or of the totals with `LAST7` (561-570, 588-597). -/
def csWeekRow (name : Str) (d : Days) (tot : UInt32) : Str :=
  padR 33 (name.take 33) ++ (List.range 7).flatMap (fun c => b!" " ++ padL 4 (dec (d.getD (c + 1) 0).toNat)) ++ b!" : " ++
    padL 5 (sdec tot) ++ b!"\n"

/-- The row of equality signs (550, 585, 604, 643). -/
def ruler (n : Nat) : Str := List.replicate n 61

/-- The heading of the table of the last seven days (541-550). The time is computed in 32 bits. -/
def csWeekHead (e : StatEnv) (day : UInt32) : Nat → Except UB Str
  | 0 => .ok []
  | n + 1 => do
    let r ← csWeekHead e day n
    match e.localtime ((day - UInt32.ofNat (n + 1)) * 86400).toUInt64 with
    | none => .error .nullDeref
    | some tm => .ok (r ++ b!"   " ++ show2 tm.mday)

/-- The table with `LAST7` (539-600). -/
def csWeekTable (e : StatEnv) (day : UInt32) (l : List StatLine) : Except UB Str := do
  let h ← csWeekHead e day 7
  let t := l.foldl (fun t s => addDays 1 t s.last8) (Vector.replicate 8 0)
  .ok (b!"Area                             " ++ h ++ b!"   Total\n" ++ ruler 76 ++ b!"\n" ++
    l.flatMap (fun s => csWeekRow s.tag s.last8 (weekSum s.last8)) ++ ruler 77 ++ b!"\n" ++
    csWeekRow (b!"Totally in all " ++ dec l.length ++ b!" areas") t (weekSum t))

/-- The line of an area (610-637). -/
def csRow (e : StatEnv) (s : StatLine) : Except UB Str := do
  let d2 ← csDateOr e s.last
  let d1 ← csDateOr e s.first
  .ok (padR 29 (s.tag.take 30) ++ b!" " ++ padR 9 (d1.take 9) ++ b!" " ++ padR 9 (d2.take 9) ++ b!" " ++ padL 7 (sdec s.total) ++
    b!"   " ++ padL 7 (sdec s.average) ++ b!" " ++ padL 7 (sdec s.dupes) ++ b!"\n")

/-- The table without `LAST7` (601-651); `first` is the earliest time in the file. -/
def csTable (e : StatEnv) (day : UInt32) (first : UInt64) (l : List StatLine) : Except UB Str := do
  let rows ← l.mapM (csRow e)
  let t := l.foldl (fun t s => addDays 0 t s.last8) (Vector.replicate 8 0)
  let total := l.foldl (fun t s => t + s.total) 0
  let dupes := l.foldl (fun t s => t + s.dupes) 0
  .ok (b!"Area                           First     Last         Msgs  Msgs/day   Dupes\n" ++ ruler 76 ++ b!"\n" ++ rows.flatten ++
    ruler 76 ++ b!"\n" ++ padR 42 (b!"Totally in all " ++ dec l.length ++ b!" areas") ++ List.replicate 9 32 ++
    padL 7 (sdec total) ++ b!"   " ++ padL 7 (sdec (csAverage t total day ((timeInt first).tdiv 86400))) ++ b!" " ++
    padL 7 (sdec dupes) ++ b!"\n")

/-- A node (664-682). -/
def csNode (e : StatEnv) (n : NodeStat) : Except UB Str := do
  let d ← csNodeDate e n.firstTime
  let addr := dec n.node.zone.toNat ++ b!":" ++ dec n.node.net.toNat ++ b!"/" ++ dec n.node.node.toNat ++ b!"." ++ dec n.node.point.toNat
  .ok (padR 30 (addr.take 40) ++ b!" Statistics since: " ++ d ++ b!"\n\n" ++
    List.replicate 34 32 ++ b!"Sent netmails: " ++ dec n.sentNetmails.toNat ++ b!"/" ++ csUnit n.sentNetmailBytes ++ b!"\n" ++
    List.replicate 30 32 ++ b!"Received netmails: " ++ dec n.gotNetmails.toNat ++ b!"/" ++ csUnit n.gotNetmailBytes ++ b!"\n" ++
    List.replicate 33 32 ++ b!"Sent echomails: " ++ dec n.sentEchomails.toNat ++ b!"/" ++ csUnit n.sentEchomailBytes ++ b!"\n" ++
    List.replicate 29 32 ++ b!"Received echomails: " ++ dec n.gotEchomails.toNat ++ b!"/" ++ csUnit n.gotEchomailBytes ++ b!"\n" ++
    List.replicate 42 32 ++ b!"Dupes: " ++ dec n.dupes.toNat ++ b!"\n\n")

/-- The table of the nodes (654-684). -/
def csNodeTable (e : StatEnv) (l : List NodeStat) : Except UB Str := do
  let rows ← l.mapM (csNode e)
  .ok (b!"\nNodes statistics\n================\n" ++ rows.flatten)

/-- The sort mode (375-378). -/
def csMode (a : StatArgs) : UInt8 :=
  match a.sort with
  | none => 97
  | some s => lower (s.headD 0)

/-- What is printed once the file has been read (523-693). -/
def csPrint (e : StatEnv) (a : StatArgs) (day : UInt32) (first : UInt64) (as : List StatLine) (ns : List NodeStat) : Except UB Str := do
  let d1 ← csDate e first
  let d2 ← csDate e (UInt64.ofNat (day.toNat * 86400))
  let t1 ← (if a.noAreas then .ok [] else (do
    let l := csSort e (csMode a) (csSort e 97 as)
    let t ← (if a.last7 then csWeekTable e day l else csTable e day first l)
    .ok (b!"\n" ++ t)))
  let t2 ← (if a.noNodes then .ok [] else csNodeTable e (csSortNodes e ns))
  .ok (b!"\nStatistics from " ++ d1 ++ b!" to " ++ d2 ++ b!"\n" ++ t1 ++ t2 ++ b!"\n")

/-- `main` (332-701) after the arguments have been read: whether it succeeded, and what it printed. `file` is
`none` if the file cannot be opened, `err` then says why. A file that ends within the first 12 bytes leaves
variables without a value. `strchr("amtdlu",0)` is not NULL. -/
def crashStats (e : StatEnv) (a : StatArgs) (file : Option Str) (err : Str) : Except UB (Bool × Str) :=
  let mode := csMode a
  if mode ∉ b!"amtdlu" ∧ mode ≠ 0 then .ok (false, b!"Unknown sort mode " ++ [mode] ++ b!"\n")
  else if a.noAreas && a.noNodes then .ok (false, b!"Nothing to do\n")
  else match file with
    | none => .ok (false, e.title ++ b!"Error opening " ++ a.file ++ b!"\nError: " ++ err ++ b!"\n")
    | some f =>
      if f.length < 4 then .error .uninit
      else if f.take 4 ≠ b!"CST3" then .ok (false, e.title ++ b!"Unknown format of stats file\n")
      else if f.length < 12 then .error .uninit
      else do
        let day := rd32L (f.drop 4)
        let num := (rd32L (f.drop 8)).toNat
        let (as, t, r) ← (if a.noAreas then .ok ([], 0, csSkip 136 num (f.drop 12)) else csReadAreas a day num (f.drop 12) 0)
        let (ns, t) := if r.length < 4 ∨ a.noNodes then ([], t) else csReadNodes (rd32L r).toNat (r.drop 4) t
        let out ← csPrint e a day t as ns
        .ok (true, e.title ++ out)

end CM
