import Verif.Model.ListOut
import Verif.Spec.CrashStats
import Verif.Spec.Pattern
/-! # The list of the outbound: what is expected (C96, C97)

In an outbound directory the mail for a node is in files called after the address of the node: net and
node with four hexadecimal digits each. What is for a point is in a directory for its boss, in files
called after the number of the point. The extension says what it is. -/

namespace CM

/-- A hexadecimal digit in upper or lower case. -/
def HexChar (c : UInt8) : Prop := (48 ≤ c.toNat ∧ c.toNat ≤ 57) ∨ (97 ≤ (lower c).toNat ∧ (lower c).toNat ≤ 102)

/-- Its value. -/
def hexCharValue (c : UInt8) : Nat := if c.toNat ≤ 57 then c.toNat - 48 else (lower c).toNat - 87

/-- `s` is the number `v` with eight hexadecimal digits. -/
def Hex8 (s : Str) (v : Nat) : Prop :=
  s.length = 8 ∧ (∀ c ∈ s, HexChar c) ∧ v = s.foldl (fun n c => 16 * n + hexCharValue c) 0

/-- Requests, files that list what to send, and packets. -/
inductive OutKind where
  | request | flow | packet
  deriving DecidableEq, Repr

/-- The extensions, the name of the flavour and the kind. -/
def outboundExts : List (Str × Str × OutKind) :=
  [(b!".req", b!"Request", .request), (b!".clo", b!"Crash", .flow), (b!".dlo", b!"Direct", .flow),
   (b!".flo", b!"Normal", .flow), (b!".hlo", b!"Hold", .flow), (b!".cut", b!"Crash", .packet),
   (b!".dut", b!"Direct", .packet), (b!".out", b!"Normal", .packet), (b!".hut", b!"Hold", .packet)]

/-- The directory for the points of a node. -/
def PointDir (d : Str) (net node : UInt16) : Prop :=
  ∃ num ext, d = num ++ ext ∧ ext.map lower = b!".pnt" ∧ Hex8 num (net.toNat * 65536 + node.toNat)

/-- The file `file`, in the directory of points `sub` or in the outbound itself, is mail for `n`. -/
def MailFor (zone : UInt16) (sub : Option Str) (file : Str) (n : Node4D) (type : Str) (kind : OutKind) : Prop :=
  ∃ num ext, file = num ++ ext ∧ (ext.map lower, type, kind) ∈ outboundExts ∧ n.zone = zone ∧
    match sub with
    | none => Hex8 num (n.net.toNat * 65536 + n.node.toNat) ∧ n.point = 0
    | some d => PointDir d n.net n.node ∧ Hex8 num n.point.toNat

/-- The name of a file as seen from the outbound directory. -/
def relName : Option Str → Str → Str
  | none, f => f
  | some d, f => d ++ 47 :: f

/-- The name of a file with the directory. -/
def pathIn (dir file : Str) : Str :=
  if dir = [] then file else if dir.getLast? = some 47 then dir ++ file else dir ++ 47 :: file

/-- A name with twelve characters and the extension of a directory for points. -/
def pointDirName (f : Str) : Bool := f.length == 12 && (f.drop 8).map lower == b!".pnt"

/-- All files in the outbound directory with the entries `names`, and in the directories for points. -/
def outboundFiles (scan : Str → Option (List Str)) (dir : Str) (names : List Str) : List (Option Str × Str) :=
  names.flatMap fun f =>
    (if pointDirName f then ((scan (pathIn dir f)).getD []).map fun g => (some f, g) else []) ++ [(none, f)]

/-- What is named like mail is mail: the names with eight characters and one of the extensions are hexadecimal
numbers, and the numbers of points are below 65536. -/
structure TidyOutbound (d : LoDisk) (dir : Str) (zone : UInt16) (names : List Str) : Prop where
  dirs : ∀ f ∈ names, pointDirName f = true → ∃ net node, PointDir f net node
  files : ∀ x ∈ outboundFiles d.scan dir names, x.2.length = 12 → (∃ y ∈ outboundExts, (x.2.drop 8).map lower = y.1) →
    ∃ n type kind, MailFor zone x.1 x.2 n type kind
  exist : ∀ x ∈ outboundFiles d.scan dir names, x.2.length = 12 → (d.stat (pathIn dir (relName x.1 x.2))).isSome

/-- A line of the list. -/
structure OutRow where
  node : Node4D
  type : Str
  kind : OutKind
  file : Str

/-- The line tells of one of the files `files`, which is mail for a node that was asked for. -/
def OutRow.Tells (files : List (Option Str × Str)) (zone : UInt16) (asked : Node4D → Prop) (r : OutRow) : Prop :=
  asked r.node ∧ ∃ x ∈ files, r.file = relName x.1 x.2 ∧ MailFor zone x.1 x.2 r.node r.type r.kind

/-- The clock knows the dates of the files. -/
def ClockKnows (lt : UInt64 → Option LoTm) (t : UInt64) (date time : Str) : Prop :=
  ∃ tm, lt t = some tm ∧ tm.mday < 100 ∧ tm.mon < 12 ∧ tm.yy < 100 ∧ tm.hour < 100 ∧ tm.min < 100 ∧
    date = twoDigits tm.mday ++ b!"-" ++ months.getD tm.mon [] ++ b!"-" ++ twoDigits tm.yy ∧
    time = twoDigits tm.hour ++ b!":" ++ twoDigits tm.min

/-- A line of a flow file or request: a text that ends with a printable ASCII character, and blanks. -/
structure MailLine (t ws : Str) : Prop where
  text : NoNul t ∧ (10 : UInt8) ∉ t ∧ ∃ c, t.getLast? = some c ∧ 33 ≤ c ∧ c < 128
  blanks : ∀ c ∈ ws, c < 33 ∧ c ≠ 10 ∧ c ≠ 0
  short : t.length + ws.length ≤ 198

/-- The file consists of lines with the texts `ts`. -/
def HasLines (d : LoDisk) (path : Str) (ts : List Str) : Prop :=
  ∃ ls : List (Str × Str), d.content path = some (ls.flatMap fun l => l.1 ++ l.2 ++ [10]) ∧ ts = ls.map (·.1) ∧
    ∀ l ∈ ls, MailLine l.1 l.2

/-- The name in a line of a flow file: one of the marks `#`, `^` and `-` may precede it. -/
def refName : Str → Str
  | 35 :: r => r
  | 94 :: r => r
  | 45 :: r => r
  | r => r

/-- The file meant: names without a directory are in the directory of the flow file. -/
def refPath (dir t : Str) : Str := if (47 : UInt8) ∈ refName t then refName t else pathIn dir (refName t)

/-- The sizes of the files that are named by the lines and exist. -/
def refSizes (d : LoDisk) (dir : Str) (ts : List Str) : List Nat :=
  ts.filterMap fun t => (d.stat (refPath dir t)).map fun p => p.1.toNat

/-- The directory a flow file is in. -/
def OutRow.place (dir : Str) (r : OutRow) : Str :=
  if (47 : UInt8) ∈ r.file then pathIn dir (r.file.takeWhile (· != 47)) else dir

/-- The number of files a flow file tells to send. -/
def OutRow.files (d : LoDisk) (dir : Str) (lines : Str → List Str) (r : OutRow) : Nat :=
  match r.kind with
  | .flow => (refSizes d (r.place dir) (lines r.file)).length
  | _ => 0

/-- Their size. -/
def OutRow.bytes (d : LoDisk) (dir : Str) (lines : Str → List Str) (r : OutRow) : Nat :=
  match r.kind with
  | .flow => (refSizes d (r.place dir) (lines r.file)).sum
  | _ => 0

/-- The number of requests. -/
def OutRow.reqs (lines : Str → List Str) (r : OutRow) : Nat :=
  match r.kind with
  | .request => (lines r.file).length
  | _ => 0

/-- The column with size and number of files: whole megabytes. `size` is the size of the file itself. -/
def OutRow.sizeText (d : LoDisk) (dir : Str) (lines : Str → List Str) (size : Nat) (r : OutRow) : Str :=
  match r.kind with
  | .request => b!"-/" ++ dec (r.reqs lines)
  | .flow => dec (r.bytes d dir lines / 1048576) ++ b!"M/" ++ dec (r.files d dir lines)
  | .packet => dec (size / 1048576) ++ b!"M/1"

/-- The nodes asked for. -/
def AskedNodes (p : Pat4) (n : Node4D) : Prop :=
  (n.zone = 0 ∨ p.zone = [] ∨ CompMatch p.zone (dec n.zone.toNat)) ∧
  (p.net = [] ∨ CompMatch p.net (dec n.net.toNat)) ∧
  (p.node = [] ∨ CompMatch p.node (dec n.node.toNat)) ∧
  (p.point = [] ∨ CompMatch p.point (dec n.point.toNat))

/-- What the pattern on the command line asks for: without one, or with `*`, all nodes. -/
def PatternAsks (pattern : Option Str) (asked : Node4D → Prop) : Prop :=
  ((pattern = none ∨ pattern = some b!"*") ∧ ∀ n, asked n) ∨
  ∃ t : AddrText, t.PatChars ∧ t.text ≠ b!"*" ∧ pattern = some t.text ∧ ∀ n, asked n ↔ AskedNodes (t.patMeaning .pattern) n

/-- The flow files and requests consist of lines, and the names in flow files are not too long. -/
structure ReadableMail (d : LoDisk) (dir : Str) (files : List (Option Str × Str)) (zone : UInt16) (asked : Node4D → Prop)
    (ls : Str → List Str) : Prop where
  lines : ∀ r : OutRow, r.Tells files zone asked → r.kind ≠ .packet → HasLines d (pathIn dir r.file) (ls r.file)
  names : ∀ r : OutRow, r.Tells files zone asked → r.kind = .flow → ∀ t ∈ ls r.file,
    (47 : UInt8) ∈ refName t ∨ (refName t).length ≤ 90

/-- The sizes and numbers are not too large. -/
def OutRow.Small (d : LoDisk) (dir : Str) (lines : Str → List Str) (size : Nat) (r : OutRow) : Prop :=
  size < 4284967296 ∧ r.bytes d dir lines < 4284967296 ∧ r.files d dir lines < 2 ^ 32 ∧ r.reqs lines < 2 ^ 32

/-- A column with at least `n` characters, filled up on the right. -/
def leftCol (n : Nat) (s : Str) : Str := s ++ List.replicate (n - s.length) 32

/-- A column with at least `n` characters, filled up on the left. -/
def rightCol (n : Nat) (s : Str) : Str := List.replicate (n - s.length) 32 ++ s

/-- What CrashListOut says will happen to a file after it was sent. -/
def refFate : Str → Str
  | 35 :: _ => b!"(To be truncated)"
  | 94 :: _ => b!"(To be truncated)"
  | 45 :: _ => b!"(To be deleted)"
  | _ => []

/-- What is shown for a file named in a flow file. -/
def refLine (d : LoDisk) (dir t : Str) : Str :=
  b!" " ++ leftCol 39 ((refName t).take 39) ++ b!" " ++
    rightCol 10 (match d.stat (refPath dir t) with
      | some p => dec (p.1.toNat / 1048576) ++ b!"M"
      | none => b!"Not found") ++ b!"   " ++ refFate t ++ b!"\n"

/-- What is shown below the line with `VERBOSE`: the files of a flow file, the texts of a request, and an empty line. -/
def OutRow.details (d : LoDisk) (dir : Str) (lines : Str → List Str) (r : OutRow) : Str :=
  match r.kind with
  | .request => ((lines r.file).flatMap fun l => b!" " ++ l ++ b!"\n") ++ b!"\n"
  | .flow => (lines r.file).flatMap (refLine d (r.place dir)) ++ b!"\n"
  | .packet => b!"\n"

/-- What is shown for a file: its line, and the details only if asked for. The last but one column is cut after
seven characters. -/
def RowShown (d : LoDisk) (lt : UInt64 → Option LoTm) (dir : Str) (verbose : Bool) (lines : Str → List Str) (r : OutRow) (text : Str) : Prop :=
  ∃ (size : UInt32) (t : UInt64) (date time bf line more : Str), d.stat (pathIn dir r.file) = some (size, t) ∧ ClockKnows lt t date time ∧
    text = line ++ more ∧ (verbose = false → more = []) ∧ RowOf [r.type, print4D r.node, date, time, bf, r.file] line ∧
    (r.Small d dir lines size.toNat → bf = (r.sizeText d dir lines size.toNat).take 7 ∧
      (verbose = true → more = r.details d dir lines))

/-- The last line. -/
def totalsText (bytes files reqs : Nat) : Str :=
  b!"Totally " ++ dec (bytes / 1048576) ++ b!"M bytes in " ++ dec files ++ b!" files to send, " ++ dec reqs ++ b!" requests.\n"

end CM
