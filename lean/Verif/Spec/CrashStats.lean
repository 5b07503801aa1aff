import Verif.Model.CrashStats
import Verif.Spec.Stats
/-! # The report of CrashStats: what is expected (C93) -/

namespace CM

/-- The words of a line that are separated by spaces; `w` is the word being read. -/
def columnsFrom (w : Str) : Str → List Str
  | [] => if w = [] then [] else [w]
  | c :: r => if c = 32 then (if w = [] then columnsFrom [] r else w :: columnsFrom [] r) else columnsFrom (w ++ [c]) r

/-- The words of a line that are separated by spaces. -/
def columns (s : Str) : List Str := columnsFrom [] s

/-- One line of text with the words `ws`. -/
def RowOf (ws : List Str) (row : Str) : Prop := ∃ l, row = l ++ [10] ∧ (10 : UInt8) ∉ l ∧ columns l = ws

/-- The names of the months. -/
def months : List Str := [b!"Jan", b!"Feb", b!"Mar", b!"Apr", b!"May", b!"Jun", b!"Jul", b!"Aug", b!"Sep", b!"Oct",
  b!"Nov", b!"Dec"]

/-- A number below 100 with two digits. -/
def twoDigits (n : Nat) : Str := [UInt8.ofNat (48 + n / 10), UInt8.ofNat (48 + n % 10)]

/-- `localtime` knows the dates that can occur. -/
def GoodClock (lt : UInt64 → Option LocalTm) : Prop :=
  ∀ t : UInt64, t.toNat < 2 ^ 55 → ∃ tm, lt t = some tm ∧ tm.mday < 100 ∧ tm.mon < 12 ∧ tm.yy < 100

/-- A date such as `05-Jan-26`. -/
def dateText (lt : UInt64 → Option LocalTm) (t : UInt64) : Str :=
  match lt t with
  | some tm => twoDigits tm.mday ++ b!"-" ++ months.getD tm.mon [] ++ b!"-" ++ twoDigits tm.yy
  | none => []

/-- A date in a table of areas. -/
def dateShown (lt : UInt64 → Option LocalTm) (t : UInt64) : Str := if t = 0 then b!"<Never>" else dateText lt t

/-- A date in the table of nodes, such as `5-Jan-26`. -/
def nodeDateShown (lt : UInt64 → Option LocalTm) (t : UInt64) : Str :=
  if t = 0 then b!"<Never>"
  else match lt t with
    | some tm => dec tm.mday ++ b!"-" ++ months.getD tm.mon [] ++ b!"-" ++ dec tm.yy
    | none => []

/-- The number of messages a day. `first` is the time of the first message, `cnt i` is the number of messages
`i` days before day `day`: the average of the last full days, at most seven, or, if there were no messages, that of all
days. -/
def perDay (day first : Nat) (cnt : Nat → Nat) (total : Nat) : Nat :=
  if first < 86400 then 0
  else
    let age := day - first / 86400
    let recent := ((List.range (min age 7)).map fun i => cnt (i + 1)).sum
    if recent = 0 then total / max age 1 else recent / max (min age 7) 1

/-- The number of messages in an area some days ago. -/
def AreaStat.ago (x : AreaStat) (i : Nat) : Nat := (x.last8.getD i 0).toNat

/-- The average of an area. -/
def AreaStat.average (day : UInt32) (x : AreaStat) : Nat := perDay day.toNat x.firstTime.toNat x.ago x.texts.toNat

/-- The area is one of those in the statistics and in a group asked for. -/
def StatShown (grp : Option Str) (x : AreaStat) : Prop := Kept x ∧ ∀ g, grp = some g → ∃ c ∈ g, upper c = upper x.group

/-- `a` may come before `b`; `mode` is what is asked for with `SORT`. -/
def MayPrecede (mode : UInt8) (day : UInt32) (a b : AreaStat) : Prop :=
  if mode = 116 then b.texts.toNat ≤ a.texts.toNat
  else if mode = 109 then b.average day ≤ a.average day
  else if mode = 100 then b.firstTime.toNat ≤ a.firstTime.toNat
  else if mode = 108 then b.lastTime.toNat ≤ a.lastTime.toNat
  else if mode = 117 then b.dupes.toNat ≤ a.dupes.toNat
  else ¬ b.tag.map lower < a.tag.map lower

/-- `t` is the earliest of the times that have been set, or 0 if there is none. -/
def Earliest (ts : List UInt64) (t : UInt64) : Prop :=
  (t = 0 ∧ ∀ x ∈ ts, x = 0) ∨ (t ≠ 0 ∧ t ∈ ts ∧ ∀ x ∈ ts, x ≠ 0 → t.toNat ≤ x.toNat)

/-- The numbers of messages on each of the last seven days, and their sum. -/
def week (cnt : Nat → Nat) : List Str :=
  (List.range 7).map (fun i => dec (cnt (i + 1))) ++ [b!":", dec ((List.range 7).map fun i => cnt (i + 1)).sum]

/-- The columns of an area. -/
def areaColumns (lt : UInt64 → Option LocalTm) (last7 : Bool) (day : UInt32) (x : AreaStat) : List Str :=
  if last7 then x.tag.take 33 :: week x.ago
  else [x.tag.take 30, dateShown lt x.firstTime, dateShown lt x.lastTime, dec x.texts.toNat, dec (x.average day), dec x.dupes.toNat]

/-- The columns of the totals. -/
def totalColumns (last7 : Bool) (day : UInt32) (first : UInt64) (l : List AreaStat) : List Str :=
  [b!"Totally", b!"in", b!"all", dec l.length, b!"areas"] ++
  if last7 then week fun i => (l.map (·.ago i)).sum
  else [dec (l.map (·.texts.toNat)).sum,
    dec (perDay day.toNat first.toNat (fun i => (l.map (·.ago i)).sum) (l.map (·.texts.toNat)).sum), dec (l.map (·.dupes.toNat)).sum]

/-- The columns of the heading. -/
def headColumns (lt : UInt64 → Option LocalTm) (last7 : Bool) (day : UInt32) : List Str :=
  if last7 then b!"Area" :: (List.range 7).map (fun i => match lt (UInt64.ofNat ((day.toNat - (i + 1)) * 86400)) with
      | some tm => twoDigits tm.mday
      | none => []) ++ [b!"Total"]
  else [b!"Area", b!"First", b!"Last", b!"Msgs", b!"Msgs/day", b!"Dupes"]

/-- The table of the areas: a heading, a line for every area that is to be shown, in order, and the totals. -/
def AreaTable (lt : UInt64 → Option LocalTm) (a : StatArgs) (mode : UInt8) (day : UInt32) (first : UInt64) (as : List AreaStat)
    (text : Str) : Prop :=
  ∃ (p : AreaStat → Bool) (l : List AreaStat) (row : AreaStat → Str) (head tot : Str) (n m : Nat),
    (∀ x, p x = true ↔ StatShown a.group x) ∧ l.Perm (as.filter p) ∧ l.Pairwise (MayPrecede mode day) ∧
    text = b!"\n" ++ head ++ List.replicate n 61 ++ b!"\n" ++ l.flatMap row ++ List.replicate m 61 ++ b!"\n" ++ tot ∧
    RowOf (headColumns lt a.last7 day) head ∧ (∀ x ∈ l, RowOf (areaColumns lt a.last7 day x) (row x)) ∧
    RowOf (totalColumns a.last7 day first l) tot

/-- The columns for a number of messages and their size; `size` shows the size. -/
def countColumns (size : Nat → List Str) (what : Str) (n bytes : UInt32) : List Str :=
  match size bytes.toNat with
  | w :: r => [what, dec n.toNat ++ b!"/" ++ w] ++ r
  | [] => []

/-- What is shown for a node: its address and its counters. -/
def NodeShown (lt : UInt64 → Option LocalTm) (size : Nat → List Str) (n : NodeStat) (text : Str) : Prop :=
  ∃ l0 l1 l2 l3 l4 l5 : Str, text = l0 ++ b!"\n" ++ l1 ++ l2 ++ l3 ++ l4 ++ l5 ++ b!"\n" ∧
    RowOf [dec n.node.zone.toNat ++ b!":" ++ dec n.node.net.toNat ++ b!"/" ++ dec n.node.node.toNat ++ b!"." ++ dec n.node.point.toNat,
      b!"Statistics", b!"since:", nodeDateShown lt n.firstTime] l0 ∧
    RowOf (b!"Sent" :: countColumns size b!"netmails:" n.sentNetmails n.sentNetmailBytes) l1 ∧
    RowOf (b!"Received" :: countColumns size b!"netmails:" n.gotNetmails n.gotNetmailBytes) l2 ∧
    RowOf (b!"Sent" :: countColumns size b!"echomails:" n.sentEchomails n.sentEchomailBytes) l3 ∧
    RowOf (b!"Received" :: countColumns size b!"echomails:" n.gotEchomails n.gotEchomailBytes) l4 ∧
    RowOf [b!"Dupes:", dec n.dupes.toNat] l5

/-- The table of the nodes, in the order of their addresses. -/
def NodeTable (lt : UInt64 → Option LocalTm) (size : Nat → List Str) (ns : List NodeStat) (text : Str) : Prop :=
  ∃ (l : List NodeStat) (show' : NodeStat → Str), l.Perm ns ∧ l.Pairwise (fun a b => compare4D a.node b.node ≤ 0) ∧
    text = b!"\nNodes statistics\n================\n" ++ l.flatMap show' ∧ ∀ n ∈ l, NodeShown lt size n (show' n)

/-- A size as it is meant to be shown: in bytes up to 10000, in KB up to ten millions, else in MB. -/
def sizeMeant (n : Nat) : List Str :=
  if n ≤ 10000 then [dec n, b!"bytes"] else if n ≤ 10000000 then [dec (n / 1024), b!"KB"] else [dec (n / 1048576), b!"MB"]

/-- A size as it is shown: always in MB. -/
def sizeShown (n : Nat) : List Str := [dec (n / 1048576), b!"MB"]

/-- The report: the period, the table of the areas and the table of the nodes. -/
def StatReport (lt : UInt64 → Option LocalTm) (size : Nat → List Str) (title : Str) (a : StatArgs) (mode : UInt8) (day : UInt32)
    (as : List AreaStat) (ns : List NodeStat) (out : Str) : Prop :=
  ∃ (ks : List AreaStat) (first : UInt64) (t1 t2 : Str),
    (∀ x, x ∈ ks ↔ x ∈ as ∧ Kept x) ∧
    Earliest ((if a.noAreas then [] else ks.map (·.firstTime)) ++ (if a.noNodes then [] else ns.map (·.firstTime))) first ∧
    out = title ++ b!"\nStatistics from " ++ dateText lt first ++ b!" to " ++ dateText lt (UInt64.ofNat (day.toNat * 86400)) ++ b!"\n" ++
      t1 ++ t2 ++ b!"\n" ∧
    (if a.noAreas then t1 = [] else AreaTable lt a mode day first as t1) ∧
    (if a.noNodes then t2 = [] else NodeTable lt size ns t2)

/-- A time that CrashMail may have noted by day `day`, or none. -/
def GoodTime (day : UInt32) (t : UInt64) : Prop :=
  t.toNat < 2 ^ 55 ∧ (t.toNat < 86400 ∨ (t.toNat / 86400 ≤ day.toNat ∧ day.toNat - t.toNat / 86400 < 65536))

/-- The numbers are within what CrashStats can show. -/
structure StatLimits (last7 : Bool) (day : UInt32) (as : List AreaStat) (ns : List NodeStat) : Prop where
  tags : ∀ x ∈ as, x.tag ≠ [] ∧ (32 : UInt8) ∉ x.tag ∧ (10 : UInt8) ∉ x.tag ∧ NoNul x.tag
  times : ∀ x ∈ as, GoodTime day x.firstTime ∧ x.lastTime.toNat < 2 ^ 55
  nodes : ∀ n ∈ ns, n.node.zone ≠ 0 ∧ GoodTime day n.firstTime
  texts : (as.map (·.texts.toNat)).sum < 2 ^ 31
  dupes : (as.map (·.dupes.toNat)).sum < 2 ^ 31
  daily : ∀ i, (as.map (·.ago i)).sum < 65536
  today : last7 = true → 7 ≤ day.toNat ∧ day.toNat * 86400 < 2 ^ 32
  areas : as.length < 2 ^ 32
  count : ns.length < 2 ^ 32

/-- `srt` sorts a list, if the comparison is an order on it. -/
def SortsBy {α : Type} (cmp : α → α → Int) (srt : List α → List α) : Prop :=
  ∀ l, (∀ a ∈ l, ∀ b ∈ l, cmp a b ≤ 0 ∨ cmp b a ≤ 0) →
    (∀ a ∈ l, ∀ b ∈ l, ∀ c ∈ l, cmp a b ≤ 0 → cmp b c ≤ 0 → cmp a c ≤ 0) →
    (srt l).Perm l ∧ (srt l).Pairwise fun a b => cmp a b ≤ 0

/-- `qsort` does what it promises. -/
structure GoodSort (e : StatEnv) : Prop where
  areas : ∀ cmp, SortsBy cmp (e.sortAreas cmp)
  nodes : SortsBy (fun a b : NodeStat => compare4D a.node b.node) e.sortNodes

end CM
