import Verif.Model.Node4D
import Verif.Model.Pattern
import Verif.Model.Strings
import Verif.Model.Sort
/-! # `crashmail/memmessage.c` and the address and PATH helpers of `misc.c`, `handle.c`

`osAlloc` is assumed to succeed throughout (the out-of-memory returns are not modelled). Linked lists
of fixed-size blocks are lists of lists: one inner list per block (`shared/jblist.c` itself is in
`Model/JbList.lean`). -/

namespace CM

/-! ## Text chunks -/

/-- `PKT_CHUNKLEN` (`memmessage.h` 4). -/
def chunkLen : Nat := 10000

/-- Backward search for a CR in `mmAddBuf` (`memmessage.c` 151-152): the loop variable `d` on exit,
started at `d`. It stops at 0 without looking at `Data[0]`. -/
def lastCR (s : Str) : Nat → Nat
  | 0 => 0
  | d + 1 => if s[d + 1]? = some 13 then d + 1 else lastCR s d

/-- The incomplete last line is moved to the new chunk (`memmessage.c` 149-160): the old chunks after
the move and the initial contents of the new chunk. -/
def carryLine (cs : List Str) : List Str × Str :=
  match cs.getLast? with
  | none => (cs, [])
  | some old =>
    if old.length > 0 ∧ old[old.length - 1]? ≠ some 13 then
      let d := lastCR old (old.length - 1)
      if d ≠ 0 then (cs.dropLast ++ [old.take (d + 1)], old.drop (d + 1)) else (cs, [])
    else (cs, [])

/-- The loop of `mmAddBuf` (`memmessage.c` 134-170); `none` when the fuel runs out. -/
def mmAddLoop : Nat → List Str → Str → Option (List Str)
  | _, cs, [] => some cs
  | 0, _, _ :: _ => none
  | f + 1, cs, b :: buf =>
    let (cs', start) := carryLine cs
    let copylen := min (b :: buf).length (chunkLen - start.length)
    mmAddLoop f (cs' ++ [start ++ (b :: buf).take copylen]) ((b :: buf).drop copylen)

/-- `mmAddBuf` (`memmessage.c` 110-173) on the chunk list, for `len = buf.length`. The sum
`chunk->Length+len` is a `uint32_t`; when it wraps the `memcpy` leaves the chunk. -/
def mmAddBuf (cs : List Str) (buf : Str) : Except UB (Option (List Str)) :=
  if buf.length = 0 then .ok (some cs)
  else match cs.getLast? with
    | some c =>
      if (c.length + buf.length) % 2 ^ 32 ≤ chunkLen then
        if c.length + buf.length ≤ chunkLen then .ok (some (cs.dropLast ++ [c ++ buf])) else .error .oobWrite
      else .ok (mmAddLoop buf.length cs buf)
    | none => .ok (mmAddLoop buf.length cs buf)

/-! ## SEEN-BY blocks -/

/-- A net/node pair of `struct Nodes2D` (`memmessage.h` 15-21). -/
abbrev N2 := UInt16 × UInt16

/-- `PKT_NUM2D` (`memmessage.h` 5). -/
def num2D : Nat := 50

/-- `mmAddNodes2DList` (`memmessage.c` 3-41). -/
def mmAddNodes2D (bs : List (List N2)) (x : N2) : List (List N2) :=
  if bs.any (fun b => b.any (fun e => e.1 == x.1 && e.2 == x.2)) then bs
  else match bs.getLast? with
    | none => bs ++ [[x]]
    | some b => if b.length = num2D then bs ++ [[x]] else bs.dropLast ++ [b ++ [x]]

/-- `mmRemNodes2DList` (`memmessage.c` 43-57), including its comparison of `Node[num]` with the index
`num` instead of the argument. -/
def mmRemNodes2D (bs : List (List N2)) (net _node : UInt16) : List (List N2) :=
  bs.map fun b => b.zipIdx.map fun (e, num) =>
    if e.1 == net && e.2 == UInt16.ofNat num then (0, 0) else e

/-- `struct Node2DPat` (`crashmail/node4dpat.h`). -/
structure Pat2 where
  net : Str
  node : Str
  deriving DecidableEq, Repr

/-- `Compare2DPat` (`crashmail/node4dpat.c` 351-356); `true` is `return(0)` (match). -/
def compare2DPat (p : Pat2) (x : N2) : Bool := nodeCompare p.net x.1 && nodeCompare p.node x.2

/-- `mmRemNodes2DListPat` (`memmessage.c` 59-73). -/
def mmRemNodes2DPat (bs : List (List N2)) (p : Pat2) : List (List N2) :=
  bs.map fun b => b.map fun e => if compare2DPat p e then (0, 0) else e

/-- `FindNodes2D` (`handle.c` 281-291). -/
def findNodes2D (bs : List (List N2)) (n : Node4D) : Bool :=
  bs.any fun b => b.any fun e => e.1 == n.net && e.2 == n.node

/-- `CompareSort` (`memmessage.c` 242-257). -/
def compareSort (a b : N2) : Int :=
  if a.1 > b.1 then 1 else if a.1 < b.1 then -1
  else if a.2 > b.2 then 1 else if a.2 < b.2 then -1 else 0

/-- Writing the sorted entries back into the blocks (`memmessage.c` 290-303): `cur` is the block being
filled, `rest` the following ones, which keep their contents until they are reached. -/
def refill2D (cur : List N2) (rest : List (List N2)) : List N2 → Except UB (List (List N2))
  | [] => .ok (cur :: rest)
  | e :: es =>
    if cur.length = num2D then
      match rest with
      | [] => .error .nullDeref
      | _ :: rest' => (refill2D [e] rest' es).map (cur :: ·)
    else refill2D (cur ++ [e]) rest es

/-- `mmSortNodes2D` (`memmessage.c` 259-308). -/
def mmSortNodes2D (bs : List (List N2)) : Except UB (List (List N2)) :=
  if bs.flatten.length = 0 then .ok bs
  else match bs with
    | [] => .error .nullDeref
    | _ :: rest => refill2D [] rest (isort compareSort bs.flatten)

/-- Decimal accumulation in a `uint16_t` (`memmessage.c` 336-341). -/
def u16Val (ds : Str) : UInt16 := ds.foldl (fun a c => a * 10 + (c - 48).toUInt16) 0

/-- One word of a SEEN-BY line (`memmessage.c` 331-356): the new `lastnet` and the entry to add. -/
def seenWord (lastnet : UInt16) (w : Str) : UInt16 × Option N2 :=
  if w = [] then (lastnet, none)
  else
    let num := u16Val (w.takeWhile isDigit)
    match w.dropWhile isDigit with
    | [] => (lastnet, some (lastnet, num))
    | c :: r => if c = 47 then (num, some (num, atoi16 r)) else (lastnet, none)

/-- Store the entry of a word, if it has one (`memmessage.c` 348, 353). -/
def addEntry (bs : List (List N2)) : Option N2 → List (List N2)
  | none => bs
  | some x => mmAddNodes2D bs x

/-- Not one of the bytes that end a word (`memmessage.c` 325). -/
def seenChar (c : UInt8) : Bool := c != 13 && c != 32

/-- The loop of `AddSeenby` (`memmessage.c` 321-357), `none` when the fuel runs out. -/
def addSeenbyLoop : Nat → UInt16 → List (List N2) → Str → Option (List (List N2))
  | 0, _, _, _ => none
  | f + 1, lastnet, bs, s =>
    match s with
    | [] => some bs
    | c :: r =>
      if c = 13 then some bs
      else
        let w := ((c :: r).takeWhile seenChar).take 59
        let s' := ((c :: r).drop w.length).dropWhile (· == 32)
        let (ln, e) := seenWord lastnet w
        addSeenbyLoop f ln (addEntry bs e) s'

/-- `AddSeenby` (`memmessage.c` 310-360). -/
def addSeenby (s : Str) (bs : List (List N2)) : Option (List (List N2)) :=
  addSeenbyLoop (s.length + 1) 0 bs s

/-- Local state of `mmMakeSeenByBuf`. -/
structure SBW where
  text : Str
  buf : Str
  lastnet : UInt16

/-- `strcat(text,buf); strcat(text,"\x0d")` into a block of `size` bytes (`memmessage.c` 515-516,
534-535). -/
def sbFlush (size : Nat) (text buf : Str) : Except UB Str :=
  if text.length + buf.length + 1 + 1 ≤ size then .ok (text ++ buf ++ [13]) else .error .oobWrite

/-- One entry in the loop of `mmMakeSeenByBuf` (`memmessage.c` 498-528). `buf` is a `char[100]`, it
never grows beyond 77 bytes or one entry. -/
def sbStep (size : Nat) (s : SBW) (e : N2) : Except UB SBW :=
  if e.1 ≠ 0 ∨ e.2 ≠ 0 then
    let buf2 := b!" " ++ (if e.1 ≠ s.lastnet then dec e.1.toNat ++ b!"/" else []) ++ dec e.2.toNat
    if s.buf.length + buf2.length > 77 then
      match sbFlush size s.text s.buf with
      | .error u => .error u
      | .ok t => .ok ⟨t, b!"SEEN-BY:" ++ b!" " ++ dec e.1.toNat ++ b!"/" ++ dec e.2.toNat, e.1⟩
    else .ok ⟨s.text, s.buf ++ buf2, e.1⟩
  else .ok s

/-- The loop of `mmMakeSeenByBuf` over all entries (`memmessage.c` 494-530). -/
def sbRun (size : Nat) : SBW → List N2 → Except UB SBW
  | s, [] => .ok s
  | s, e :: es => match sbStep size s e with
    | .error u => .error u
    | .ok s' => sbRun size s' es

/-- `mmMakeSeenByBuf` (`memmessage.c` 460-539). -/
def mmMakeSeenByBuf (bs : List (List N2)) : Except UB Str :=
  let size := (bs.flatten.length / 5 + 1) * 80
  match sbRun size ⟨[], b!"SEEN-BY:", 0⟩ bs.flatten with
  | .error u => .error u
  | .ok s => if s.buf.length > 8 then sbFlush size s.text s.buf else .ok s.text

/-! ## PATH blocks -/

/-- `PKT_NUMPATH` (`memmessage.h` 6). -/
def numPath : Nat := 10

/-- Append a line to the PATH blocks (`memmessage.c` 85-105, `handle.c` 462-490). -/
def pathPush (ps : List (List Str)) (l : Str) : List (List Str) :=
  match ps.getLast? with
  | none => ps ++ [[l]]
  | some b => if b.length = numPath then ps ++ [[l]] else ps.dropLast ++ [b ++ [l]]

/-- `mmAddPath` (`memmessage.c` 76-108). -/
def mmAddPath (s : Str) (ps : List (List Str)) : Except UB (List (List Str)) :=
  if s = [] then .ok ps
  else match striptrail (mystrncpy s 100) with
    | .error u => .error u
    | .ok l => .ok (pathPush ps l)

/-- The scan of the last PATH line in `AddNodePath` (`handle.c` 406-418): the last word's address if
it parsed, `lastnet` filled in. Outer `none`: fuel ran out. -/
def pathScan : Nat → Str → Option Node4D → UInt16 → Option (Option Node4D)
  | 0, _, _, _ => none
  | f + 1, s, last, lastnet =>
    let t := jbstrcpy 40 s
    if t.2.2 then
      match parse4D t.1 with
      | none => pathScan f t.2.1 none lastnet
      | some n =>
        if n.net = 0 then pathScan f t.2.1 (some { n with net := lastnet }) lastnet
        else pathScan f t.2.1 (some n) n.net
    else some last

/-- `.point`, if any (`handle.c` 437-441). -/
def pointText (n : Node4D) : Str := if n.point ≠ 0 then b!"." ++ dec n.point.toNat else []

/-- `net/node[.point]`. -/
def hopText (n : Node4D) : Str := dec n.net.toNat ++ b!"/" ++ dec n.node.toNat ++ pointText n

/-- The last line of the last block, if there is one (`handle.c` 400-403). -/
def lastLine (ps : List (List Str)) : Option Str := ps.getLast?.bind List.getLast?

/-- "Are we already in the PATH line?" (`handle.c` 423-427). -/
def sameHop (last : Option Node4D) (n : Node4D) : Bool :=
  match last with
  | some p => p.net == n.net && p.node == n.node && p.point == n.point
  | none => false

/-- `lastok && n4d.Net == node->Net` (`handle.c` 431). -/
def sameNet (last : Option Node4D) (n : Node4D) : Bool :=
  match last with
  | some p => p.net == n.net
  | none => false

/-- The text appended to an existing line (`handle.c` 431-441). -/
def pathBuf (last : Option Node4D) (n : Node4D) : Str :=
  (if sameNet last n then dec n.node.toNat else dec n.net.toNat ++ b!"/" ++ dec n.node.toNat)
    ++ pointText n

/-- The address at the end of the PATH (`handle.c` 395-419): inner `none` is `lastok == FALSE`. -/
def lastHop (ps : List (List Str)) : Option (Option Node4D) :=
  match lastLine ps with
  | none => some none
  | some l => pathScan (l.length + 1) l none 0

/-- `AddNodePath` (`handle.c` 386-493); `none` only if `pathScan` ran out of fuel. -/
def addNodePath (ps : List (List Str)) (n : Node4D) : Option (List (List Str)) :=
  match lastHop ps with
  | none => none
  | some last =>
    if sameHop last n then some ps
    else
      match ps.getLast? with
      | none => some (pathPush ps (hopText n))
      | some b => match b.getLast? with
        | none => some (pathPush ps (hopText n))
        | some l =>
          if (pathBuf last n).length + l.length ≤ 70 then
            some (ps.dropLast ++ [b.dropLast ++ [l ++ b!" " ++ pathBuf last n]])
          else some (pathPush ps (hopText n))

/-! ## Messages -/

/-- `struct MemMessage` (`memmessage.h` 38-68). -/
structure MemMsg where
  msgnum : UInt32 := 0
  orig : Node4D := ⟨0, 0, 0, 0⟩
  dest : Node4D := ⟨0, 0, 0, 0⟩
  pktOrig : Node4D := ⟨0, 0, 0, 0⟩
  pktDest : Node4D := ⟨0, 0, 0, 0⟩
  origin4D : Node4D := ⟨0, 0, 0, 0⟩
  area : Str := []
  to : Str := []
  frm : Str := []
  subject : Str := []
  date : Str := []
  msgid : Str := []
  reply : Str := []
  attr : UInt16 := 0
  cost : UInt16 := 0
  type : UInt8 := 0
  flags : UInt16 := 0
  text : List Str := []
  seenBy : List (List N2) := []
  path : List (List Str) := []
  deriving DecidableEq, Repr

/-- `&s[i]` as a C string: defined up to the terminating NUL; beyond it the buffer contents are
stale or uninitialised. -/
def strAt (s : Str) (i : Nat) : Except UB Str :=
  if i ≤ s.length then .ok (s.drop i) else .error .oobRead

/-- `strncmp(s,pre,strlen(pre))==0`. -/
def startsWith (s pre : Str) : Bool := s.take pre.length == pre

/-- `Parse5D` (`misc.c` 555-574) without the domain, which its caller discards. -/
def parse5D (buf : Str) : Option Node4D := parse4D ((mystrncpy buf 100).takeWhile (· != 64))

/-- The text after the last `(` (`misc.c` 582-590). -/
def afterLastParen (ret : Option Str) : Str → Option Str
  | [] => ret
  | c :: r => afterLastParen (if c = 40 then some r else ret) r

/-- `misc.c` 592: skip to a digit or CR. Nothing stops at the NUL. -/
def skipToDigit : Str → Except UB Str
  | [] => .error .oobRead
  | c :: r => if c = 13 ∨ isDigit c then .ok (c :: r) else skipToDigit r

/-- `misc.c` 597-598: copy up to `)`, at most `k` more bytes. Nothing stops at the NUL. -/
def copyAddr : Nat → Str → Except UB Str
  | 0, _ => .ok []
  | 1, [] => .ok [0]
  | _ + 2, [] => .error .oobRead
  | k + 1, c :: r => if c = 41 then .ok [] else (copyAddr k r).map (c :: ·)

/-- `ExtractAddress` (`misc.c` 576-603). -/
def extractAddress (origin : Str) : Except UB (Option Node4D) :=
  match afterLastParen none origin with
  | none => .ok none
  | some r => do
    let r ← skipToDigit r
    let a ← copyAddr 49 r
    .ok (parse5D (cstr a))

/-- First address of an INTL kludge (`memmessage.c` 405). -/
def intlFirst (s : Str) : Str := (s.takeWhile (· != 32)).take 59

/-- Second address of an INTL kludge (`memmessage.c` 419). -/
def intlSecond (s : Str) : Str := (s.takeWhile (fun c => c != 32 && c != 13)).take 59

/-- Zone, net and node from a parsed address (`memmessage.c` 410-415, 424-429). -/
def setZNN (n : Node4D) : Option Node4D → Node4D
  | none => n
  | some a => { n with
      zone := a.zone
      net := a.net
      node := a.node }

/-- `memmessage.c` 368-371: RESCANNED. -/
def kRescanned (m : MemMsg) (k : Str) : MemMsg :=
  if startsWith k (1 :: b!"RESCANNED") then { m with flags := m.flags ||| 1 } else m

/-- `memmessage.c` 373-379: MSGID. -/
def kMsgid (m : MemMsg) (k : Str) : Except UB MemMsg :=
  if startsWith k (1 :: b!"MSGID:") then do
    let v ← strAt k 8
    .ok { m with msgid := (v.takeWhile (· != 13)).take 79 }
  else .ok m

/-- `memmessage.c` 381-387: REPLY. -/
def kReply (m : MemMsg) (k : Str) : Except UB MemMsg :=
  if startsWith k (1 :: b!"REPLY:") then do
    let v ← strAt k 8
    .ok { m with reply := (v.takeWhile (· != 13)).take 79 }
  else .ok m

/-- `memmessage.c` 391-392: FMPT. -/
def kFmpt (m : MemMsg) (k : Str) : Except UB MemMsg :=
  if startsWith k (1 :: b!"FMPT") then do
    let v ← strAt k 6
    .ok { m with orig := { m.orig with point := atoi16 v } }
  else .ok m

/-- `memmessage.c` 394-395: TOPT. -/
def kTopt (m : MemMsg) (k : Str) : Except UB MemMsg :=
  if startsWith k (1 :: b!"TOPT") then do
    let v ← strAt k 6
    .ok { m with dest := { m.dest with point := atoi16 v } }
  else .ok m

/-- `memmessage.c` 397-430: INTL. -/
def kIntl (m : MemMsg) (k : Str) : Except UB MemMsg :=
  if startsWith k (1 :: b!"INTL") then do
    let v ← strAt k (if k[5]? = some 58 then 7 else 6)
    let a := intlFirst v
    let r := v.drop a.length
    let r := if r.head? = some 32 then r.tail else r
    .ok { m with
      dest := setZNN m.dest (parse4D a)
      orig := setZNN m.orig (parse4D (intlSecond r)) }
  else .ok m

/-- `ProcessKludge` (`memmessage.c` 362-432). -/
def processKludge (m : MemMsg) (k : Str) : Except UB MemMsg := do
  let m ← kMsgid (kRescanned m k) k
  let m ← kReply m k
  if m.area = [] then do
    let m ← kFmpt m k
    let m ← kTopt m k
    kIntl m k
  else .ok m

/-- Store the text of a line (`memmessage.c` 457). -/
def addText (m : MemMsg) (buf : Str) : Except UB (Option MemMsg) := do
  let t ← mmAddBuf m.text buf
  .ok (t.map fun t => { m with text := t })

/-- `mmAddLine` (`memmessage.c` 435-458). The inner `none` means a loop ran out of fuel. -/
def mmAddLine (m : MemMsg) (buf : Str) : Except UB (Option MemMsg) :=
  if m.area ≠ [] ∧ startsWith buf b!"SEEN-BY:" then do
    let v ← strAt buf 9
    .ok ((addSeenby v m.seenBy).map fun s => { m with seenBy := s })
  else if m.area ≠ [] ∧ startsWith buf (1 :: b!"PATH:") then do
    let v ← strAt buf 7
    let p ← mmAddPath v m.path
    .ok (some { m with path := p })
  else if m.area ≠ [] ∧ startsWith buf b!" * Origin: " then do
    match ← extractAddress buf with
    | none => addText m buf
    | some a =>
      let a := if a.zone = 0 then { a with zone := m.pktOrig.zone } else a
      addText { m with origin4D := a } buf
  else if buf.head? = some 1 then do
    let m ← processKludge m buf
    addText m buf
  else addText m buf

/-- The kludge lines of `MakeNetmailKludges` (`misc.c` 450-478); `force` is `CFG_FORCEINTL`. -/
def netmailKludgeLines (force : Bool) (orig dest : Node4D) : List Str :=
  (if orig.point ≠ 0 then [1 :: b!"FMPT " ++ dec orig.point.toNat ++ [13]] else []) ++
  (if dest.point ≠ 0 then [1 :: b!"TOPT " ++ dec dest.point.toNat ++ [13]] else []) ++
  (if orig.zone ≠ dest.zone ∨ force then
    [1 :: b!"INTL " ++ dec dest.zone.toNat ++ b!":" ++ dec dest.net.toNat ++ b!"/" ++ dec dest.node.toNat
      ++ b!" " ++ dec orig.zone.toNat ++ b!":" ++ dec orig.net.toNat ++ b!"/" ++ dec orig.node.toNat
      ++ [13]] else [])

/-- `MakeNetmailKludges`: each line goes through `mmAddBuf` (results ignored). -/
def makeNetmailKludges (force : Bool) (m : MemMsg) : Except UB (Option MemMsg) :=
  (netmailKludgeLines force m.orig m.dest).foldlM
    (fun o l => match o with
      | none => .ok none
      | some m => addText m l) (some m)

end CM
