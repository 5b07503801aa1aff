import Verif.Model.Bytes
import Verif.Model.Disk
import Verif.Model.Filter
/-! # Message areas in the *.msg format (`crashmail/mb_msg.c`)

Directories are not modelled: an area whose directory does not exist is an empty one, and that it could
not be created is a failed listing. -/

namespace CM

/-- The settings used below: `CFG_MSG_HIGHWATER` and `CFG_MSG_WRITEBACK` of `config.cfg_msg_Flags`, and
`CFG_ADDTID`, `CFG_FORCEINTL`, `CFG_ALLOWKILLSENT` and `CFG_IMPORTSEENBY` of `config.cfg_Flags`. -/
structure MsgOpt where
  highwater : Bool := false
  writeback : Bool := false
  addTID : Bool := false
  forceIntl : Bool := false
  killSent : Bool := false
  importSeenBy : Bool := false

/-- `struct msg_Area` (`mb_msg.c` 3-11). -/
structure MsgRec where
  low : UInt32 := 0
  high : UInt32 := 0
  oldHW : UInt32 := 0
  hw : UInt32 := 0
  deriving DecidableEq, Repr

/-- `msg_AreaList`: the record of each area (areas by their position in the configuration). -/
abbrev MsgSt := Nat → Option MsgRec

def MsgSt.set (st : MsgSt) (i : Nat) (r : MsgRec) : MsgSt := fun j => if j = i then some r else st j

/-- The name of a message (`mb_msg.c` 79-80 and others); `%u` prints the 32-bit number. -/
def msgPath (dir : Str) (n : UInt32) : Str := makeFullPath dir (dec n.toNat ++ b!".msg") 200

/-! ## Which messages there are -/

/-- The files that are looked at (`mb_msg.c` 348-350). -/
def isMsgName (f : Str) : Bool := 4 < f.length && eqi (f.drop (f.length - 4)) b!".msg"

/-- `msg_scandirfunc` (`mb_msg.c` 346-359): `msg_templowmsg` and `msg_temphighmsg`. -/
def scanName (r : UInt32 × UInt32) (f : Str) : UInt32 × UInt32 :=
  let v := atol f
  (if (v < (r.1.toNat : Int) ∨ r.1 = 0 ∨ r.1 = 1) ∧ 2 ≤ v then UInt32.ofInt v else r.1,
    if (r.2.toNat : Int) < v then UInt32.ofInt v else r.2)

/-- The record made from the names (`mb_msg.c` 376-397). -/
def scanRec (names : List Str) : MsgRec :=
  let r := names.foldl scanName (0, 0)
  { low := if r.1 = 0 ∨ r.1 = 1 then 2 else r.1, high := if r.2 = 0 then 1 else r.2 }

/-- `msg_getarea` and `msg_GetHighLowMsg` (`mb_msg.c` 24-48, 361-399). The record is in the list before
the directory is read, and stays there when that fails. Names are cut to 99 characters. -/
def msgGetArea (st : MsgSt) (i : Nat) (dir : Str) : Prog (Bool × MsgSt) :=
  match st i with
  | some _ => .ret (true, st)
  | none => do
    match ← osReadDir dir isMsgName with
    | none => return (false, st.set i {})
    | some es => return (true, st.set i (scanRec (es.map (·.name))))

/-! ## Writing a message -/

/-- `strcpy` of `s` into a field of `n` bytes at `off`; the rest of the field is not initialised
(`junk`). -/
def cField (junk : Nat → UInt8) (off n : Nat) (s : Str) : Except UB Data :=
  if s.length < n then .ok (s ++ 0 :: (List.range (n - s.length - 1)).map fun i => junk (off + s.length + 1 + i))
  else .error .oobWrite

/-- `struct StoredMsg` (`storedmsg.h`). -/
structure StoredMsg where
  frm : Str
  to : Str
  subject : Str
  date : Str
  timesRead : UInt16 := 0
  destNode : UInt16 := 0
  origNode : UInt16 := 0
  cost : UInt16 := 0
  origNet : UInt16 := 0
  destNet : UInt16 := 0
  destZone : UInt16 := 0
  origZone : UInt16 := 0
  destPoint : UInt16 := 0
  origPoint : UInt16 := 0
  replyTo : UInt16 := 0
  attr : UInt16 := 0
  nextReply : UInt16 := 0

/-- The structure as it is written on a little-endian machine. -/
def StoredMsg.bytes (junk : Nat → UInt8) (m : StoredMsg) : Except UB Data := do
  return (← cField junk 0 36 m.frm) ++ (← cField junk 36 36 m.to) ++ (← cField junk 72 72 m.subject) ++ (← cField junk 144 20 m.date) ++
    (le16 m.timesRead ++ le16 m.destNode ++ le16 m.origNode ++ le16 m.cost ++ le16 m.origNet ++ le16 m.destNet ++
      le16 m.destZone ++ le16 m.origZone ++ le16 m.destPoint ++ le16 m.origPoint ++ le16 m.replyTo ++ le16 m.attr ++
      le16 m.nextReply)

/-- The header of a message (`mb_msg.c` 467-503). -/
def storedOf (m : MemMsg) : StoredMsg :=
  if m.area = [] then
    { frm := m.frm, to := m.to, subject := m.subject, date := m.date, cost := m.cost, attr := m.attr
      destZone := m.dest.zone, destNet := m.dest.net, destNode := m.dest.node, destPoint := m.dest.point
      origZone := m.orig.zone, origNet := m.orig.net, origNode := m.orig.node, origPoint := m.orig.point }
  else { frm := m.frm, to := m.to, subject := m.subject, date := m.date, cost := m.cost, attr := m.attr }

/-- The PATH lines (`mb_msg.c` 547-560). -/
def msgPathLines (ps : List (List Str)) : Str := ps.flatten.flatMap fun l => if l = [] then [] else 1 :: b!"PATH: " ++ l ++ [13]

/-- The file of a message (`mb_msg.c` 467-562). -/
def msgData (o : MsgOpt) (junk : Nat → UInt8) (m : MemMsg) : Except UB Data := do
  let h ← (storedOf m).bytes junk
  let sb ← if o.importSeenBy && m.area ≠ [] then mmMakeSeenByBuf m.seenBy else pure []
  return h ++ m.text.flatten ++ sb ++ msgPathLines m.path ++ [0]

/-- `msg_WriteMSG` (`mb_msg.c` 459-568). `io` is the global variable `ioerror`, which is never reset. -/
def msgWrite (o : MsgOpt) (junk : Nat → UInt8) (io : Bool) (m : MemMsg) (file : Str) : Prog (Bool × Bool) := do
  let d ← liftUB (msgData o junk m)
  match ← writeFile file .new d with
  | none => return (false, io)
  | some ok => return (ok && !io, io || !ok)

/-- The loop of `msg_importfunc` (`mb_msg.c` 77-87): the first number from `n` on that is free. -/
def msgFree (dir : Str) : Nat → UInt32 → Prog UInt32
  | 0, _ => .stuck
  | fuel + 1, n => do
    if ← osExists (msgPath dir n) then msgFree dir fuel (n + 1) else return n

/-- Set the highest number of an area. -/
def MsgSt.setHigh (st : MsgSt) (i : Nat) (n : UInt32) : MsgSt := st.set i { (st i).getD {} with high := n }

/-- `msg_importfunc` (`mb_msg.c` 69-90): result, `ioerror` and records. -/
def msgImport (o : MsgOpt) (junk : Nat → UInt8) (fuel : Nat) (io : Bool) (st : MsgSt) (i : Nat) (dir : Str) (m : MemMsg) :
    Prog (Bool × Bool × MsgSt) := do
  let (found, st) ← msgGetArea st i dir
  if !found then return (false, io, st)
  let n ← msgFree dir fuel (((st i).getD {}).high + 1)
  let (ok, io) ← msgWrite o junk io m (msgPath dir n)
  return (ok, io, st.setHigh i n)

/-! ## Reading a message -/

/-- `msg_ReadCR` (`mb_msg.c` 570-593) with `maxlen` 200: the line, the rest of the file, and whether
`msg_messageend` or `msg_shortread` was set. -/
def msgReadCR (d : Data) : Str × Data × Bool :=
  let s := (d.takeWhile fun c => c != 0 && c != 10 && c != 13).take 198
  if s.length = 198 then (s, d.drop 198, false)
  else match d.drop s.length with
    | [] => (s, [], true)
    | c :: r => if c = 0 then (s, r, true) else (s ++ [c], r, false)

/-- A number of the header. -/
def wordAt (d : Data) (off : Nat) : UInt16 := rd16 (d.getD off 0) (d.getD (off + 1) 0)

/-- A string of the header, read with `mystrncpy`. -/
def strField (d : Data) (off n : Nat) : Str := cstr ((d.drop off).take (n - 1))

/-- The flags that are kept (`mb_msg.c` 229). -/
def exportedFlags : UInt16 := 1 ||| 2 ||| 16 ||| 2048 ||| 4096 ||| 8192 ||| 16384 ||| 512

/-- The message before its text is read (`mb_msg.c` 210-230). -/
def storedHeader (a : Area) (d : Data) : MemMsg where
  orig := { zone := 0, net := wordAt d 172, node := wordAt d 168, point := 0 }
  dest := { zone := 0, net := wordAt d 174, node := wordAt d 166, point := 0 }
  area := if a.type = .netmail then [] else a.tag
  to := strField d 36 36
  frm := strField d 0 36
  subject := strField d 72 72
  date := strField d 144 20
  attr := wordAt d 186 &&& exportedFlags
  cost := wordAt d 170

/-- What the reading loop knows: the message, `kludgeadd`, and whether the zones of the stored header
were replaced. -/
structure MsgReading where
  mm : MemMsg
  kludges : Bool := false
  zones : Bool := false

/-- `mmAddLine`; out of fuel does not happen and is an error here. -/
def addLineP (m : MemMsg) (l : Str) : Prog MemMsg :=
  match mmAddLine m l with
  | .error u => .ub u
  | .ok none => .stuck
  | .ok (some m) => .ret m

/-- `mmAddLine` if `b`. -/
def addIf (b : Bool) (m : MemMsg) (l : Str) : Prog MemMsg := if b then addLineP m l else .ret m

/-- The INTL line for addresses without zone (`mb_msg.c` 266-281): the header's nets and nodes with the
zone of the area. -/
def addZones (o : MsgOpt) (aka : Node4D) (d : Data) (m : MemMsg) : Prog MemMsg :=
  addIf o.forceIntl { m with dest := { m.dest with zone := aka.zone }, orig := { m.orig with zone := aka.zone } }
    (1 :: b!"INTL " ++ dec aka.zone.toNat ++ b!":" ++ dec (wordAt d 174).toNat ++ b!"/" ++ dec (wordAt d 166).toNat ++ b!" " ++
      dec aka.zone.toNat ++ b!":" ++ dec (wordAt d 172).toNat ++ b!"/" ++ dec (wordAt d 168).toNat ++ [13])

/-- The lines added before the first line that is not a kludge (`mb_msg.c` 243-282). -/
def addKludges (o : MsgOpt) (aka : Node4D) (rescan : Bool) (d : Data) (m : MemMsg) : Prog (MemMsg × Bool) := do
  let m ← addIf (o.addTID && !rescan) m tidLine
  let m ← addIf rescan m (1 :: b!"RESCANNED " ++ dec aka.zone.toNat ++ b!":" ++ dec aka.net.toNat ++ b!"/" ++ dec aka.node.toNat ++
    b!"." ++ dec aka.point.toNat ++ [13])
  if m.area = [] ∧ (m.dest.zone = 0 ∨ m.orig.zone = 0) then
    let m ← addZones o aka d m
    return (m, true)
  else return (m, false)

/-- The kludges, if it is their turn (`mb_msg.c` 241-283). -/
def kludgeTurn (o : MsgOpt) (aka : Node4D) (rescan : Bool) (d : Data) (l : Str) (r : MsgReading) : Prog MsgReading :=
  if l.head? ≠ some 1 ∧ l.head? ≠ some 10 ∧ r.kludges = false then do
    let (m, z) ← addKludges o aka rescan d r.mm
    return { mm := m, kludges := true, zones := z }
  else .ret r

/-- The reading loop (`mb_msg.c` 237-295); `d` is the header, `t` the rest of the file. -/
def msgReadLoop (o : MsgOpt) (aka : Node4D) (rescan : Bool) (d : Data) : Nat → MsgReading → Data → Prog MsgReading
  | 0, _, _ => .stuck
  | fuel + 1, r, t => do
    let x := msgReadCR t
    let r ← kludgeTurn o aka rescan d x.1 r
    let m ← addIf (x.1 ≠ []) r.mm x.1
    if x.2.2 then return { r with mm := m } else msgReadLoop o aka rescan d fuel { r with mm := m } x.2.1

/-! ## Export -/

/-- `handlefunc`: its result, the message afterwards and the records of the areas afterwards. -/
abbrev MsgHandler := MemMsg → MsgSt → Prog (Bool × MemMsg × MsgSt)

/-- Replace two bytes. -/
def setWord (d : Data) (off : Nat) (v : UInt16) : Data := overlay d off (le16 v)

/-- The header that is written back (`mb_msg.c` 268-269, 320, 332): `Msg` with the zones and the flag. -/
def sentHeader (aka : Node4D) (zones : Bool) (d : Data) : Data :=
  let h := if zones then setWord (setWord d 176 aka.zone) 178 aka.zone else d
  setWord h 186 (wordAt d 186 ||| FLAG_SENT)

/-- The message is marked as sent (`mb_msg.c` 318-336). -/
def msgMark (o : MsgOpt) (junk : Nat → UInt8) (io : Bool) (aka : Node4D) (d : Data) (zones : Bool) (m : MemMsg) (file : Str) : Prog Bool := do
  if o.writeback then
    let r ← msgWrite o junk io { m with attr := wordAt d 186 ||| FLAG_SENT } file
    return r.2
  else
    let _ ← writeFile file .start (sentHeader aka zones d)
    return io

/-- What an export has done: the result, `ioerror`, the records, and the messages for which
`handlefunc` returned `TRUE`, with their numbers (this list is not in the program). -/
structure MsgOut where
  ok : Bool
  io : Bool
  st : MsgSt
  sent : List (UInt32 × MemMsg)

/-- `FLAG_KILLSENT`. -/
def FLAG_KILLSENT : UInt16 := 128

/-- After the message was handled (`mb_msg.c` 308-339). -/
def msgAfter (o : MsgOpt) (junk : Nat → UInt8) (io : Bool) (st : MsgSt) (i : Nat) (a : Area) (aka : Node4D) (num : UInt32)
    (d : Data) (r : MsgReading) (m : MemMsg) : Prog (Bool × MsgSt) :=
  if o.killSent && (wordAt d 186 &&& FLAG_KILLSENT != 0) && (a.type = .netmail) then do
    let _ ← osDelete (msgPath a.path num)
    return (io, st)
  else do
    let io ← msgMark o junk io aka d r.zones m (msgPath a.path num)
    return (io, st.set i { (st i).getD {} with hw := num })

/-- The message as it is given to `handlefunc` (`mb_msg.c` 299-302). -/
def handed (rescan : Bool) (num : UInt32) (m : MemMsg) : MemMsg :=
  { m with msgnum := num, flags := m.flags ||| if rescan then MMFLAG_RESCANNED else MMFLAG_EXPORTED }

/-- The end of `msg_ExportMSGNum` (`mb_msg.c` 304-341). -/
def msgHand (o : MsgOpt) (junk : Nat → UInt8) (handle : MsgHandler) (io : Bool) (st : MsgSt) (i : Nat) (a : Area) (aka : Node4D)
    (rescan : Bool) (num : UInt32) (d : Data) (r : MsgReading) : Prog MsgOut := do
  let mm := handed rescan num r.mm
  let (ok, m, st) ← handle mm st
  if !ok then return ⟨false, io, st, []⟩
  if rescan then return ⟨true, io, st, [(num, mm)]⟩
  let (io, st) ← msgAfter o junk io st i a aka num d r m
  return ⟨true, io, st, [(num, mm)]⟩

/-- `msg_ExportMSGNum` (`mb_msg.c` 168-341). The size of the header is 190. -/
def msgExportNum (o : MsgOpt) (junk : Nat → UInt8) (handle : MsgHandler) (io : Bool) (st : MsgSt) (i : Nat) (a : Area) (aka : Node4D)
    (rescan : Bool) (num : UInt32) : Prog MsgOut := do
  let (found, st) ← msgGetArea st i a.path
  if !found then return ⟨false, io, st, []⟩
  match ← readFile (msgPath a.path num) with
  | none => return ⟨true, io, st, []⟩
  | some f =>
    if f.length < 190 then return ⟨true, io, st, []⟩
    else
      let d := f.take 190
      if !rescan && (wordAt d 186 &&& FLAG_SENT != 0 || wordAt d 186 &&& FLAG_LOCAL == 0) then return ⟨true, io, st, []⟩
      else
        let r ← msgReadLoop o aka rescan d (f.length + 1) { mm := storedHeader a d } (f.drop 190)
        msgHand o junk handle io st i a aka rescan num d r

/-- Has Ctrl-C been pressed? (`ctrlc`, set by a signal.) -/
def pollCtrlC : Prog Bool := .sleep .ret

/-- The loops of `msg_exportfunc` and `msg_rescanfunc` (`mb_msg.c` 154-165, 105-116). -/
def msgLoop (o : MsgOpt) (junk : Nat → UInt8) (handle : MsgHandler) (i : Nat) (a : Area) (aka : Node4D) (rescan : Bool) :
    Nat → Bool → MsgSt → UInt32 → List (UInt32 × MemMsg) → Prog MsgOut
  | 0, _, _, _, _ => .stuck
  | fuel + 1, io, st, start, done => do
    if start ≤ ((st i).getD {}).high then
      if ← pollCtrlC then return ⟨false, io, st, done⟩
      let x ← msgExportNum o junk handle io st i a aka rescan start
      if !x.ok then return { x with sent := done ++ x.sent }
      msgLoop o junk handle i a aka rescan fuel x.io x.st (start + 1) (done ++ x.sent)
    else return ⟨!(← pollCtrlC), io, st, done⟩

/-- The high water mark read from `1.msg` (`mb_msg.c` 130-146). -/
def readHW (o : MsgOpt) (dir : Str) (r : MsgRec) : Prog MsgRec :=
  if o.highwater && r.hw == 0 then do
    match ← readFile (makeFullPath dir b!"1.msg" 200) with
    | none => return r
    | some f =>
      if f.length < 190 then return r
      else return { r with hw := (wordAt f 184).toUInt32, oldHW := (wordAt f 184).toUInt32 }
  else .ret r

/-- Where an export begins (`mb_msg.c` 148-152). -/
def exportStart (r : MsgRec) : UInt32 :=
  let start := if r.hw ≠ 0 then r.hw + 1 else r.low
  if start < r.low then r.low else start

/-- `msg_exportfunc` (`mb_msg.c` 119-166). -/
def msgExport (o : MsgOpt) (junk : Nat → UInt8) (handle : MsgHandler) (fuel : Nat) (io : Bool) (st : MsgSt) (i : Nat) (a : Area)
    (aka : Node4D) : Prog MsgOut := do
  let (found, st) ← msgGetArea st i a.path
  if !found then return ⟨false, io, st, []⟩
  let r ← readHW o a.path ((st i).getD {})
  msgLoop o junk handle i a aka false fuel io (st.set i r) (exportStart r) []

/-- `msg_rescanfunc` (`mb_msg.c` 92-117). -/
def msgRescan (o : MsgOpt) (junk : Nat → UInt8) (handle : MsgHandler) (fuel : Nat) (io : Bool) (st : MsgSt) (i : Nat) (a : Area)
    (aka : Node4D) (max : UInt32) : Prog MsgOut := do
  let (found, st) ← msgGetArea st i a.path
  if !found then return ⟨false, io, st, []⟩
  let r := (st i).getD {}
  msgLoop o junk handle i a aka true fuel io st (if max ≠ 0 ∧ r.high - r.low + 1 > max then r.high - max + 1 else r.low) []

/-- `msg_WriteHighWater` (`mb_msg.c` 401-457). `date` is the result of `MakeFidoDate`. -/
def msgWriteHW (junk : Nat → UInt8) (date : Str) (io : Bool) (dir : Str) (hw : UInt32) : Prog (Bool × Bool) :=
  if 65535 < hw then .ret (true, io)
  else do
    let h ← liftUB (StoredMsg.bytes junk
      { frm := b!"CrashMail II", to := b!"All", subject := b!"HighWater mark", date := date, replyTo := hw.toUInt16
        attr := FLAG_SENT ||| FLAG_PVT })
    match ← writeFile (makeFullPath dir b!"1.msg" 200) .new (h ++ [0]) with
    | none => return (false, io)
    | some ok => return (ok && !io, io || !ok)

/-- `msg_afterfunc` (`mb_msg.c` 57-67) for one area; `success` is the result of the run. -/
def msgAfterRun (o : MsgOpt) (junk : Nat → UInt8) (date : Str) (io success : Bool) (dir : Str) (r : MsgRec) : Prog Bool :=
  if success && o.highwater && r.hw != r.oldHW then do
    let x ← msgWriteHW junk date io dir r.hw
    return x.2
  else .ret io

end CM
