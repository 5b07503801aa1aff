import Verif.Model.Config
import Verif.Model.Strings
import Verif.Model.File
/-!
# The outbound: names, bundle index and flow files (`crashmail/outbound.c`)

Bytes in memory and on disk are those of a little-endian machine. Failing calls of the operating
system are in `Model/Disk.lean` and `Model/Pack.lean`; the functions here compute names and file contents.
-/

namespace CM

/-! ## Hexadecimal numbers -/

/-- Digit of `%x`. -/
def hexDigit (n : Nat) : UInt8 := UInt8.ofNat (if n < 10 then 48 + n else 87 + n)

/-- `printf("%0wx")` for a number below `16 ^ w`. -/
def hexW : Nat → Nat → Str
  | 0, _ => []
  | w + 1, n => hexW w (n / 16) ++ [hexDigit (n % 16)]

/-- `printf("%03x")` for a `uint16_t`. -/
def hex3 (n : UInt16) : Str := if n.toNat < 4096 then hexW 3 n.toNat else hexW 4 n.toNat

/-- Value of a hexadecimal digit (`misc.c` 613-614). -/
def hexVal (c : UInt8) : Option Nat :=
  if isDigit c then some (c.toNat - 48)
  else if 97 ≤ lower c ∧ lower c ≤ 102 then some ((lower c).toNat - 87)
  else none

/-- Loop of `hextodec` with the result so far. -/
def hextodecLoop (r : UInt64) : Str → UInt64
  | [] => r
  | c :: s =>
    match hexVal c with
    | none => r
    | some v => hextodecLoop (r * 16 + UInt64.ofNat v) s

/-- `hextodec` (`misc.c` 605-624). -/
def hextodec (s : Str) : UInt64 := hextodecLoop 0 s

/-! ## Base names -/

/-- The domain of the address a route uses (`tmproute->Aka->Domain`): the pointer is modelled by the
address, so the first of the system's own addresses equal to it is taken. -/
def routeDomain (akas : List Aka) (r : Route) : Str :=
  match akas.find? fun a => a.node == r.aka with
  | some a => a.domain
  | none => []

/-- The domain of the route for an address (`outbound.c` 52-53, 62, 77). -/
def mailDomain (cfg : Config) (n : Node4D) : Option Str := (cfg.findRoute n).map (routeDomain cfg.akas)

/-- `samedomain` (`outbound.c` 57-63). -/
def sameDomain (first : Aka) : Option Str → Bool
  | none => true
  | some d => d == [] || first.domain == [] || eqi d first.domain

/-- The directory (`outbound.c` 65-84). -/
def mailDirOf (first : Aka) (dom : Option Str) (outbound : Str) (zone : UInt16) : Str :=
  let base := if outbound.getLast? = some 47 then outbound.dropLast else outbound
  if !sameDomain first dom then base.take (base.length - (getFilePart base).length) ++ dom.getD []
  else if zone ≠ first.node.zone then base ++ (46 :: hex3 zone)
  else base

/-- `MakeBaseName` (`outbound.c` 41-118). Creating the directories is not modelled. The buffer of the
callers is `char basename[200]`. -/
def makeBaseName (cfg : Config) (outbound : Str) (n : Node4D) : Except UB Str :=
  match cfg.akas with
  | [] => .error .nullDeref
  | first :: _ =>
    let dir := mailDirOf first (mailDomain cfg n) outbound n.zone
    let name := dir ++ [47] ++ hexW 4 n.net.toNat ++ hexW 4 n.node.toNat
    let name := if n.point ≠ 0 then name ++ b!".pnt" ++ [47] ++ hexW 8 n.point.toNat else name
    if name.length < 200 then .ok name else .error .oobWrite

/-- The `.bsy` file of `LockBasename` (`outbound.c` 12-13). -/
def lockName (base : Str) : Str := base ++ b!".bsy"

/-- Letter of a flow file (`outbound.c` 483-495). -/
def flowLetter (type : UInt8) : UInt8 :=
  if type == PKTS_HOLD then 104 else if type == PKTS_DIRECT then 100 else if type == PKTS_CRASH then 99 else 102

/-- Name of a flow file (`outbound.c` 497). -/
def flowFile (base : Str) (type : UInt8) : Str := base ++ [46, flowLetter type, 108, 111]

/-- Letter of an unpacked netmail packet (`outbound.c` 765-777). -/
def outLetter (type : UInt8) : UInt8 :=
  if type == PKTS_NORMAL || type == PKTS_ECHOMAIL then 111
  else if type == PKTS_HOLD then 104 else if type == PKTS_DIRECT then 100 else if type == PKTS_CRASH then 99
  else 102

/-- Name of an unpacked netmail packet (`outbound.c` 779-781). -/
def outFile (base : Str) (type : UInt8) : Str := base ++ [46, outLetter type, 117, 116]

/-! ## Bundle names -/

/-- `daynames` (`outbound.c` 226, 242). -/
def dayNames : List Str := [b!"su", b!"mo", b!"tu", b!"we", b!"th", b!"fr", b!"sa"]

/-- An entry of `ArcList`: name and size. -/
structure FileEntry where
  name : Str
  size : Nat
  date : Int := 0
  deriving DecidableEq, Repr

/-- `ExistsBasenum` (`outbound.c` 205-220); `last` are the `LastArcName`s of the configured nodes. -/
def existsBasenum (arcs : List FileEntry) (last : List Str) (num : UInt32) : Bool :=
  arcs.any (fun fe => isArc fe.name && hextodec fe.name == num.toUInt64) ||
    last.any fun s => s != [] && hextodec s == num.toUInt64

/-- `sprintf("%08x.%s%d",basenum,daynames[num/10],num%10)` (`outbound.c` 228, 330). -/
def bundleName (base num : UInt32) : Except UB Str :=
  match dayNames[(num / 10).toNat]? with
  | none => .error .oobRead
  | some d => .ok (hexW 8 base.toNat ++ [46] ++ d ++ [digit (num % 10).toNat])

/-- `ExistsBundle` (`outbound.c` 222-234). -/
def existsBundle (arcs : List FileEntry) (base num : UInt32) : Except UB Bool := do
  let name ← bundleName base num
  return arcs.any fun fe => eqi fe.name name

/-- The loop `while(ExistsBasenum(basenum)) basenum++` (`outbound.c` 259-260). `none`: it does not end. -/
def freeBasenum (arcs : List FileEntry) (last : List Str) : Nat → UInt32 → Option UInt32
  | 0, _ => none
  | f + 1, n => if existsBasenum arcs last n then freeBasenum arcs last f (n + 1) else some n

/-- `c-'0'` for a `char`, as a `uint32_t`. -/
def charNum (c : UInt8) : UInt32 := (if c < 128 then UInt32.ofNat c.toNat else UInt32.ofNat c.toNat - 256) - 48

/-- Number of a bundle from its extension (`outbound.c` 266-276); -1 if the extension is no weekday. -/
def lastSuffix (s : Str) : Except UB UInt32 :=
  if s.length < 3 then .error .oobRead
  else
    let ext := (s.drop (s.length - 3)).take 2
    .ok ((List.range 7).foldl
      (fun a i => if eqi ext (dayNames.getD i []) then UInt32.ofNat i * 10 + charNum (s.getLast?.getD 0) else a) 0xffffffff)

/-- The tests on the entry of the last bundle (`outbound.c` 301-312): is it there, not empty and not
too large? -/
def sizeOk (max : Nat) : Option FileEntry → Bool
  | none => false
  | some fe => !(fe.size == 0) && !(fe.size > max)

/-- `MakeArcName` (`outbound.c` 236-337): the name for the bundle of a node whose last bundle was
`cur`. `now` and `day` are the time and the day of the week, `weekday` and `max` the configuration.
`last` are the last bundles of all nodes. `.ok none`: every number is in use. -/
def makeArcName (weekday : Bool) (max : Nat) (now : UInt32) (day : UInt32) (arcs : List FileEntry) (last : List Str)
    (cur : Str) : Except UB (Option Str) :=
  if cur = [] then
    match freeBasenum arcs last (2 ^ 32) now with
    | none => .ok none
    | some b => do return some (← bundleName b (if weekday then day * 10 else 0))
  else do
    let base := (hextodec cur).toUInt32
    let suffix ← lastSuffix cur
    if suffix = 0xffffffff then
      return some (← bundleName base (if weekday then day * 10 else 0))
    else
      let found := (arcs.filter fun fe => eqi cur fe.name).getLast?
      let keep := sizeOk max found && !(weekday && suffix / 10 != day)
      if keep then return some (← bundleName base suffix)
      else
        let new := if suffix + 1 = 70 then 0 else suffix + 1
        let new := if weekday && new / 10 != day then day * 10 else new
        let ex ← existsBundle arcs base new
        return some (← bundleName base (if ex then suffix else new))

/-- What `mystrncpy(cnode->LastArcName,dest,13)` does to the node: the array has 12 bytes, so the NUL
goes to the next field, the first byte of `GotNetmails` (`config.h` 178-182, `outbound.c` 172, 334). -/
def storeArcName (name : Str) (gotNetmails : UInt32) : Str × UInt32 :=
  (name.take 12, if 12 ≤ name.length then gotNetmails &&& 0xffffff00 else gotNetmails)

/-- `WriteIndex` (`outbound.c` 121-142): contents of `cmindex`. -/
def writeIndex : List (Node4D × Str) → Str
  | [] => []
  | (n, s) :: r => (if s = [] then [] else print4D n ++ [32] ++ s ++ [10]) ++ writeIndex r

/-- One line of `cmindex` (`outbound.c` 161-173). -/
def readIndexLine (line : Str) (ns : List (Node4D × Str)) : Except UB (List (Node4D × Str)) := do
  let buf ← striptrail line
  let w := jbstrcpy 200 buf
  match parse4D w.1 with
  | none => return ns
  | some a =>
    let name := mystrncpy (jbstrcpy 200 w.2.1).1 13
    return ns.map fun p => if compare4D p.1 a == 0 then (p.1, name) else p

/-- The reading loop of `ReadIndex` (`outbound.c` 159-174). The fuel is the length of the file. -/
def readIndexLoop : Nat → Str → List (Node4D × Str) → Except UB (List (Node4D × Str))
  | 0, _, ns => .ok ns
  | f + 1, s, ns =>
    match osFGets 200 s with
    | none => .ok ns
    | some (line, rest) => if line = [] then .ok ns else do readIndexLoop f rest (← readIndexLine line ns)

/-- The check for bundle names used twice (`outbound.c` 180-202): names are cleared in the later node. -/
def clearDups : List (Node4D × Str) → List (Node4D × Str)
  | [] => []
  | p :: r => p :: clearDups (if p.2 = [] then r else r.map fun q => if hextodec p.2 == hextodec q.2 then (q.1, []) else q)
termination_by l => l.length
decreasing_by split <;> simp

/-- `ReadIndex` (`outbound.c` 144-203) for an existing file. -/
def readIndex (file : Str) (ns : List (Node4D × Str)) : Except UB (List (Node4D × Str)) := do
  return clearDups (← readIndexLoop (file.length + 1) file ns)

/-! ## Flow files -/

/-- A line of a flow file as `doAddFlow` compares it (`outbound.c` 509-514). -/
def flowEntry (line : Str) : Except UB Str := do
  let s ← striptrail line
  let s := if s.head? = some 35 then s.drop 1 else s
  let s := if s.head? = some 126 then s.drop 1 else s
  let s := if s.head? = some 94 then s.drop 1 else s
  return if s.head? = some 45 then s.drop 1 else s

/-- The reading loop of `doAddFlow` (`outbound.c` 507-521): is the file listed? -/
def flowHas (file : Str) : Nat → Str → Except UB Bool
  | 0, _ => .ok false
  | f + 1, s =>
    match osFGets 200 s with
    | none => .ok false
    | some (line, rest) =>
      if line = [] then .ok false
      else do
        if eqi (← flowEntry line) file then return true
        flowHas file f rest

/-- `FLOW_*` (`outbound.h` 1-3). -/
inductive FlowMode where
  | none | trunc | delete
  deriving DecidableEq, Repr

/-- The line `doAddFlow` adds (`outbound.c` 525-534). -/
def flowLine (crlf : Bool) (mode : FlowMode) (file : Str) : Str :=
  (match mode with | .none => ([] : Str) | .trunc => [35] | .delete => [94]) ++ file ++
    (if crlf then [13, 10] else [10])

/-- `doAddFlow` (`outbound.c` 478-539) for a flow file with these contents: the new contents. -/
def addFlow (crlf : Bool) (mode : FlowMode) (file : Str) (content : Str) : Except UB Str := do
  if ← flowHas file (content.length + 1) content then return content
  return content ++ flowLine crlf mode file

end CM
