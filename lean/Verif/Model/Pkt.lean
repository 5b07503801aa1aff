import Verif.Model.Types
import Verif.Model.Bytes
import Verif.Model.Strings
/-!
# Packets (`crashmail/pkt.c`)

A file is the list of its bytes; the read position is the rest of that list.

Not modelled: memory exhaustion, I/O errors while writing, BEFORETOSS, log output, statistics.
`no_security` is the command-line switch of the same name; `ctrlc` is sampled once per message.
-/

namespace CM

/-- `getuword(buf,off)` (`pkt.c` 14-17) on a buffer with at least `off+2` bytes. -/
def word (buf : List UInt8) (off : Nat) : UInt16 := rd16 buf[off]! buf[off + 1]!

/-! ## Reading -/

/-- What `ReadNull` leaves behind: the string, the rest of the file, `shortread`, `longread`. -/
structure RN where
  str : Str
  rest : List UInt8
  short : Bool
  long : Bool
  deriving DecidableEq, Repr

/-- `ReadNull` (`pkt.c` 28-48) entered with `shortread` unset. -/
def readNull (maxlen : Nat) (s : List UInt8) : RN :=
  let body := (s.takeWhile (· != 0)).take (maxlen - 1)
  match s.drop body.length with
  | [] => ⟨body, [], true, body.length = maxlen - 1⟩
  | c :: r => ⟨body, r, false, c != 0 && body.length = maxlen - 1⟩

/-- The four header strings (`pkt.c` 353-356) with the accumulated flags. When `shortread` is set,
`ReadNull` returns at once and leaves the (cleared) field alone. -/
structure HdrStrings where
  date : Str := []
  to : Str := []
  frm : Str := []
  subject : Str := []
  rest : List UInt8
  short : Bool
  long : Bool
  deriving DecidableEq, Repr

/-- `pkt.c` 353-356. -/
def readHdrStrings (s : List UInt8) : HdrStrings :=
  let a := readNull 20 s
  if a.short then { date := a.str, rest := a.rest, short := true, long := a.long } else
  let b := readNull 36 a.rest
  if b.short then { date := a.str, to := b.str, rest := b.rest, short := true, long := a.long || b.long } else
  let c := readNull 36 b.rest
  if c.short then { date := a.str, to := b.str, frm := c.str, rest := c.rest, short := true
                    long := a.long || b.long || c.long } else
  let d := readNull 72 c.rest
  { date := a.str, to := b.str, frm := c.str, subject := d.str, rest := d.rest, short := d.short
    long := a.long || b.long || c.long || d.long }

/-- The bytes at which `ReadCR` stops. -/
def lineStop (c : UInt8) : Bool := c == 0 || c == 10 || c == 13

/-- What `ReadCR` leaves behind: the line, the rest of the file, `messageend`, `shortread`. -/
structure RC where
  line : Str
  rest : List UInt8
  ended : Bool
  short : Bool
  deriving DecidableEq, Repr

/-- `ReadCR(buf,200,fh)` (`pkt.c` 50-74). After 198 bytes no further byte is read and `ch` still
holds the last stored one. -/
def readCR (s : List UInt8) : RC :=
  let body := (s.takeWhile (fun c => !lineStop c)).take 198
  if body.length = 198 then ⟨body, s.drop 198, false, false⟩ else
  match s.drop body.length with
  | [] => ⟨body, [], false, true⟩
  | c :: r => if c = 0 then ⟨body, r, true, false⟩ else ⟨body ++ [c], r, false, false⟩

/-- The configuration `ReadPkt` looks at. -/
structure PktCfg where
  akas : List Aka := []
  nodes : List ConfigNode := []
  defaultZone : UInt16 := 0
  checkDest : Bool := false
  noSecurity : Bool := false
  deriving DecidableEq, Repr

/-- The packet addresses as stored in the header (`pkt.c` 151-204): origin and destination. -/
def pktAddresses (h : List UInt8) : Node4D × Node4D :=
  if word h 16 = 2 then
    (⟨word h 46, word h 20, word h 0, word h 50⟩, ⟨word h 48, word h 22, word h 2, word h 52⟩)
  else
    let oz := if word h 46 ≠ 0 then word h 46 else if word h 34 ≠ 0 then word h 34 else 0
    let dz := if word h 46 ≠ 0 then word h 48 else if word h 34 ≠ 0 then word h 36 else 0
    if h[40]! = h[45]! ∧ h[41]! = h[44]! then
      (⟨oz, if word h 50 ≠ 0 ∧ word h 20 = 0xffff then word h 38 else word h 20, word h 0, word h 50⟩,
        ⟨dz, word h 22, word h 2, word h 52⟩)
    else (⟨oz, word h 20, word h 0, 0⟩, ⟨dz, word h 22, word h 2, 0⟩)

/-- Missing zones filled in (`pkt.c` 226-247); `table` is the list of configured nodes for the
origin and of own addresses for the destination. -/
def fixZone (table : List Node4D) (dz : UInt16) (a : Node4D) : Node4D :=
  if a.zone ≠ 0 then a else
  let z := match table.find? (fun n => compare4D a n == 0) with
    | some n => n.zone
    | none => 0
  { a with zone := if z ≠ 0 then z else dz }

/-- The password field (`pkt.c` 406-407). -/
def pktPassword (h : List UInt8) : Str := cstr ((h.drop 26).take 8)

/-- The password test of `pkt.c` 404-409; `true` means the packet is rejected. -/
def wrongPassword (cfg : PktCfg) (cn : Option ConfigNode) (pw area : Str) : Bool :=
  match cn with
  | none => false
  | some n => (area ≠ [] || !n.has NODE_NONETMAILPASSWORD) && n.packetPW ≠ [] && !eqi pw n.packetPW
      && !cfg.noSecurity

/-- Why `ReadPkt` calls `BadFile`. -/
inductive PktBad where
  | headerShort | notType2 | notToMe | msgHeaderShort | stringsShort | stringsLong | password
  | textShort | unknownType
  deriving DecidableEq, Repr

/-- The end of `ReadPkt`: the packet is done, moved to the bad packets, or abandoned because the
handler failed (`return FALSE`). -/
inductive PktEnd where
  | done | bad (r : PktBad) | abort
  deriving DecidableEq, Repr

/-- `pkt.c` 435-443: an empty line is not added. -/
def addNonEmpty (m : MemMsg) (l : Str) : Except UB (Option MemMsg) :=
  if l = [] then .ok (some m) else mmAddLine m l

/-- The rest of the text (`pkt.c` 421-444), entered with `messageend` unset. `none` inside `ok`:
`shortread`. Outer `none`: a list loop ran out of fuel. -/
def readText : Nat → MemMsg → List UInt8 → Except UB (Option (Option (MemMsg × List UInt8)))
  | 0, _, _ => .ok none
  | f + 1, m, s =>
    let c := readCR s
    if c.short then .ok (some none) else
    match addNonEmpty m c.line with
    | .error e => .error e
    | .ok none => .ok none
    | .ok (some m) => if c.ended then .ok (some (some (m, c.rest))) else readText f m c.rest

/-- The text after the first line `l` (`pkt.c` 421-444). -/
def readRest (m : MemMsg) (l : RC) : Except UB (Option (Option (MemMsg × List UInt8))) :=
  if l.ended then .ok (some (some (m, l.rest))) else readText (l.rest.length + 1) m l.rest

/-- The fresh message of `pkt.c` 331-349 and 353-356. `DestNode.Zone` is assigned twice and
`OrigNode.Zone` never. -/
def pktMessage (cfg : PktCfg) (po pd : Node4D) (hdr : List UInt8) (hs : HdrStrings) : MemMsg :=
  { orig := ⟨0, word hdr 6, word hdr 2, 0⟩
    dest := ⟨po.zone, word hdr 8, word hdr 4, 0⟩
    attr := word hdr 10
    cost := word hdr 12
    pktOrig := po
    pktDest := pd
    flags := if cfg.noSecurity then 8 else 0
    date := hs.date
    to := hs.to
    frm := hs.frm
    subject := hs.subject }

/-- The first line (`pkt.c` 384-401): an area name or text. -/
def firstLine (m : MemMsg) (l : Str) : Except UB (Option MemMsg) :=
  if startsWith l b!"AREA:" then
    match stripleadtrail (mystrncpy (l.drop 5) 80) with
    | .error e => .error e
    | .ok a => .ok (some { m with area := a })
  else mmAddLine m l

/-- The next message header (`pkt.c` 485-499): `none` when the packet is bad. A short read leaves
the old bytes of the buffer in place. -/
def nextHdr (old s : List UInt8) : Option (List UInt8) :=
  let r := s.take 14
  if r.length < 2 then
    if (r ++ old)[0]! ≠ 0 then none else some (List.replicate 14 0)
  else some (r ++ old.drop r.length)

/-- The message loop (`pkt.c` 322-510). `acc` holds the messages already passed to the handler,
`handler` decides from them and the new message whether it succeeds. Outer `none`: fuel. -/
def readMsgs (cfg : PktCfg) (po pd : Node4D) (pw : Str) (handler : List MemMsg → MemMsg → Bool)
    (ctrlc : Nat → Bool) : Nat → List UInt8 → List UInt8 → List MemMsg →
    Except UB (Option (PktEnd × List MemMsg))
  | 0, _, _, _ => .ok none
  | f + 1, hdr, s, acc =>
    if word hdr 0 = 2 ∧ ctrlc acc.length = false then
      let hs := readHdrStrings s
      if hs.short then .ok (some (.bad .stringsShort, acc)) else
      if hs.long then .ok (some (.bad .stringsLong, acc)) else
      let l := readCR hs.rest
      match firstLine (pktMessage cfg po pd hdr hs) l.line with
      | .error e => .error e
      | .ok none => .ok none
      | .ok (some m) =>
        if wrongPassword cfg (findNode cfg.nodes po) pw m.area then .ok (some (.bad .password, acc)) else
        match readRest m l with
        | .error e => .error e
        | .ok none => .ok none
        | .ok (some none) => .ok (some (.bad .textShort, acc))
        | .ok (some (some (m, s))) =>
          let m := { m with flags := m.flags ||| 4 }
          if handler acc m = false then .ok (some (.abort, acc ++ [m])) else
          match nextHdr hdr s with
          | none => .ok (some (.bad .msgHeaderShort, acc ++ [m]))
          | some h => readMsgs cfg po pd pw handler ctrlc f h (s.drop 14) (acc ++ [m])
    else if word hdr 0 ≠ 0 then .ok (some (.bad .unknownType, acc))
    else .ok (some (.done, acc))

/-- `ReadPkt` (`pkt.c` 76-518) on the bytes of an open packet: how it ends and the messages passed
to the handler, in order. `junk` is the initial contents of the message header buffer. -/
def readPkt (cfg : PktCfg) (handler : List MemMsg → MemMsg → Bool) (ctrlc : Nat → Bool)
    (junk : List UInt8) (file : List UInt8) : Except UB (Option (PktEnd × List MemMsg)) :=
  let h := file.take 58
  let s := file.drop 58
  if h.length ≠ 58 then .ok (some (.bad .headerShort, [])) else
  if word h 18 ≠ 2 then .ok (some (.bad .notType2, [])) else
  let (o, d) := pktAddresses h
  if cfg.checkDest && !cfg.noSecurity && !cfg.akas.any (fun a => compare4D a.node d == 0) then
    .ok (some (.bad .notToMe, []))
  else
    let po := fixZone (cfg.nodes.map (·.node)) cfg.defaultZone o
    let pd := fixZone (cfg.akas.map (·.node)) cfg.defaultZone d
    let r := s.take 14
    if r.length < 2 then .ok (some (.bad .msgHeaderShort, [])) else
    readMsgs cfg po pd (pktPassword h) handler ctrlc (file.length + 1) (r ++ junk.drop r.length) (s.drop 14) []

/-! ## Writing -/

/-- The date fields of a packet header (`pkt.c` 609-617). -/
structure PktDate where
  year : UInt16
  month : UInt16
  day : UInt16
  hour : UInt16
  min : UInt16
  sec : UInt16
  deriving DecidableEq, Repr

/-- `strncpy(dst,s,8)` into a zeroed 8-byte field (`pkt.c` 641-644). -/
def pwField (s : Str) : List UInt8 := (s ++ List.replicate 8 0).take 8

/-- Bytes 0-23 of the packet header of `CreatePkt` (`pkt.c` 606-622): nodes, date, baud rate, packet
type, nets. -/
def pktHeaderA (orig dest : Node4D) (t : PktDate) : List UInt8 :=
  le16 orig.node ++ (le16 dest.node ++ (le16 t.year ++ (le16 t.month ++ (le16 t.day ++ (le16 t.hour ++
  (le16 t.min ++ (le16 t.sec ++ (le16 0 ++ (le16 2 ++ (le16 orig.net ++ le16 dest.net))))))))))

/-- Bytes 24-33 (`pkt.c` 623-624, 641-644): product code, revision, password. -/
def pktHeaderB (pw : Str) : List UInt8 := 0xfe :: 1 :: pwField pw

/-- Bytes 34-57 (`pkt.c` 625-639): zones, auxiliary net, capability words, zones, points, data. -/
def pktHeaderC (orig dest : Node4D) : List UInt8 :=
  le16 orig.zone ++ (le16 dest.zone ++ (le16 0 ++ (le16 0x0100 ++ (0 :: 5 :: (le16 1 ++
  (le16 orig.zone ++ (le16 dest.zone ++ (le16 orig.point ++ (le16 dest.point ++ [0, 0, 0, 0])))))))))

/-- The packet header of `CreatePkt` (`pkt.c` 606-644). -/
def pktHeader (orig dest : Node4D) (pw : Str) (t : PktDate) : List UInt8 :=
  pktHeaderA orig dest t ++ (pktHeaderB pw ++ pktHeaderC orig dest)

/-- The password `CreatePkt` writes (`pkt.c` 643-644). -/
def createPassword (node : Option ConfigNode) (type : UInt8) : Str :=
  match node with
  | none => []
  | some n => if type = PKTS_ECHOMAIL || !n.has NODE_NONETMAILPASSWORD then n.packetPW else []

/-- The fixed part of a message header (`pkt.c` 724-734). -/
def msgHeaderFixed (m : MemMsg) : List UInt8 :=
  le16 2 ++ (le16 m.orig.node ++ (le16 m.dest.node ++ (le16 m.orig.net ++ (le16 m.dest.net ++
  (le16 m.attr ++ le16 m.cost)))))

/-- `WriteMsgHeader` (`pkt.c` 722-745). -/
def msgHeader (m : MemMsg) : List UInt8 :=
  msgHeaderFixed m ++ (m.date ++ 0 :: (m.to ++ 0 :: (m.frm ++ 0 :: (m.subject ++ [0]))))

/-- `WritePath` (`pkt.c` 747-765). -/
def pathBytes (ps : List (List Str)) : List UInt8 :=
  (ps.flatten.filter (· ≠ [])).flatMap fun l => 1 :: b!"PATH: " ++ l ++ [13]

/-- The SEEN-BY list `WriteEchoMail` writes (`pkt.c` 841-893). -/
def echoSeenBy (m : MemMsg) (node : ConfigNode) (aka : Node4D) : Except UB Str :=
  if node.node.zone ≠ aka.zone ∨ node.has NODE_TINYSEENBY then do
    let l : List (List N2) := [[]]
    let l := if node.node.point = 0 then mmAddNodes2D l (node.node.net, node.node.node) else l
    let l := if aka.point = 0 then mmAddNodes2D l (aka.net, aka.node) else l
    let l ← mmSortNodes2D l
    mmMakeSeenByBuf l
  else if node.has NODE_NOSEENBY then .ok []
  else do
    let l ← mmSortNodes2D m.seenBy
    mmMakeSeenByBuf l

/-- The origin address of packets for a node (`pkt.c` 789-792, 913, 933-934). -/
def fromAddr (node : Option ConfigNode) (aka : Node4D) : Node4D :=
  match node with
  | none => aka
  | some n => if n.has NODE_PKTFROM then n.pktFrom else aka

/-- `struct Pkt` (`pkt.c` 526-535): an open packet and the bytes written so far. -/
structure Pkt where
  dest : Node4D
  orig : Node4D
  type : UInt8
  data : List UInt8
  deriving DecidableEq, Repr

/-- The open packets (`PktList`) and, in order, the finished ones. -/
structure PktState where
  opened : List Pkt := []
  finished : List Pkt := []
  deriving DecidableEq, Repr

/-- `FindPkt` (`pkt.c` 550-559). -/
def Pkt.isFor (dest orig : Node4D) (type : UInt8) (p : Pkt) : Bool :=
  compare4D dest p.dest == 0 && compare4D orig p.orig == 0 && type == p.type

/-- `FinishPacket` (`pkt.c` 658-706): two zero bytes end the packet; renaming it is the only other
effect. -/
def Pkt.finish (p : Pkt) : Pkt := { p with data := p.data ++ [0, 0] }

/-- Append to the first packet satisfying `q`. -/
def appendFirst (q : Pkt → Bool) (bytes : List UInt8) : List Pkt → List Pkt
  | [] => []
  | p :: r => if q p then { p with data := p.data ++ bytes } :: r else p :: appendFirst q bytes r

/-- Find or create the packet and write a message to it (`pkt.c` 806-818 with 820-898, 937-949 with
951-962). `maxSize` is `MAXPKTSIZE`, `hdr` the header a new packet gets. `Len` is the number of
bytes written (packets below 4 GB). -/
def writeMsg (maxSize : Nat) (dest orig : Node4D) (type : UInt8) (hdr bytes : List UInt8)
    (st : PktState) : PktState :=
  let q := Pkt.isFor dest orig type
  match st.opened.find? q with
  | none => { st with opened := st.opened ++ [⟨dest, orig, type, hdr ++ bytes⟩] }
  | some p =>
    if maxSize ≠ 0 ∧ p.data.length > maxSize then
      { opened := st.opened.eraseP q ++ [⟨dest, orig, type, hdr ++ bytes⟩]
        finished := st.finished ++ [p.finish] }
    else { st with opened := appendFirst q bytes st.opened }

/-- `WriteEchoMail` (`pkt.c` 781-901). -/
def writeEchoMail (maxSize : Nat) (t : PktDate) (m : MemMsg) (node : ConfigNode) (aka : Node4D)
    (st : PktState) : Except UB PktState := do
  let orig := fromAddr (some node) aka
  let sb ← echoSeenBy m node aka
  let m := { m with
    dest := node.node
    orig := orig }
  let bytes := msgHeader m ++ b!"AREA:" ++ m.area ++ [13] ++ m.text.flatten ++ sb ++ pathBytes m.path ++ [0]
  .ok (writeMsg maxSize node.node orig PKTS_ECHOMAIL
    (pktHeader orig node.node (createPassword (some node) PKTS_ECHOMAIL) t) bytes st)

/-- The packet class of a netmail (`pkt.c` 930-931). -/
def netmailClass (node : Option ConfigNode) (type : UInt8) : UInt8 :=
  match node with
  | none => type
  | some n => if n.has NODE_PACKNETMAIL && type == PKTS_NORMAL then PKTS_ECHOMAIL else type

/-- `WriteNetMail` (`pkt.c` 903-965). -/
def writeNetMail (maxSize : Nat) (t : PktDate) (nodes : List ConfigNode) (m : MemMsg)
    (dest aka : Node4D) (st : PktState) : PktState :=
  let cn := findNode nodes dest
  let type := netmailClass cn m.type
  let orig := fromAddr cn aka
  writeMsg maxSize dest orig type (pktHeader orig dest (createPassword cn type) t)
    (msgHeader m ++ m.text.flatten ++ [0]) st

/-- `ClosePackets` (`pkt.c` 708-720). -/
def closePackets (st : PktState) : PktState :=
  { opened := []
    finished := st.finished ++ st.opened.map Pkt.finish }

end CM
