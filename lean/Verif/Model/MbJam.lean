import Verif.Model.JamMaint
import Verif.Model.Date
import Verif.Model.Filter
/-! # Message areas in the JAM format (`crashmail/mb_jam.c`): messages

Memory allocation succeeds (`jam_nomem` stays `FALSE`). -/

namespace CM

/-- The settings used below: `CFG_JAM_HIGHWATER`, `CFG_JAM_LINK` and `CFG_JAM_QUICKLINK` of `config.cfg_jam_Flags`, and
`CFG_ADDTID`, `CFG_FORCEINTL`, `CFG_ALLOWKILLSENT` and `CFG_IMPORTSEENBY` of `config.cfg_Flags`. -/
structure JamOpt where
  highwater : Bool := false
  link : Bool := false
  quick : Bool := false
  addTID : Bool := false
  forceIntl : Bool := false
  killSent : Bool := false
  importSeenBy : Bool := false

/-- What is outside of the program: the platform, `jam_utcoffset` (`mb_jam.c` 205-209), the functions of the C library for times,
and what is found at the times a step is made: the clock, whether a base can be locked, whether Ctrl-C has been
pressed, and whether a base that does not exist can be created. -/
structure JamRun where
  e : JamEnv
  utcOffset : Int
  mktime : Tm → Option Int
  localtime : Int → Tm
  now : Nat → Int
  lock : Nat → Bool
  ctrlc : Nat → Bool
  create : Nat → Bool

/-- Undefined behaviour, or a loop that does not end. -/
inductive JErr where
  | ub (u : UB)
  | stuck
  deriving DecidableEq, Repr

def liftJ {α : Type} : Except UB α → Except JErr α
  | .ok a => .ok a
  | .error u => .error (.ub u)

/-! ## Attributes -/

/-- `jam_flagarray` (`mb_jam.c` 266-286) with the values of `jam.h` 92-120 and `fidonet.h` 77-92. -/
def jamFlagTable : List (Str × UInt32 × UInt16) := [
  (b!"PVT", 0x4, 1), (b!"HLD", 0x80, 512), (b!"CRA", 0x100, 2), (b!"K/S", 0x20, 128), (b!"SNT", 0x10, 8),
  (b!"RCV", 0x8, 4), (b!"A/S", 0x40, 0), (b!"DIR", 0x400, 0), (b!"FIL", 0x2000, 16), (b!"FRQ", 0x1000, 2048),
  (b!"IMM", 0x200, 0), (b!"KFS", 0x8000, 0), (b!"TFS", 0x4000, 0), (b!"LOK", 0x1, 256), (b!"RRQ", 0x10000, 4096),
  (b!"CFM", 0x20000, 0), (b!"FPU", 0x400000, 0), ([], 0x2, 32), ([], 0x40000, 64)]

/-- `jam_findflag` (`mb_jam.c` 288-296). -/
def jamFindFlag (name : Str) : UInt32 := ((jamFlagTable.find? fun f => eqi f.1 name).map (·.2.1)).getD 0

/-- The attributes of a stored message (`mb_jam.c` 390-396, 415-417, 436-442). -/
def jamAttrOf (m : MemMsg) : UInt32 :=
  let a := jamFlagTable.foldl (fun a f => if m.attr &&& f.2.2 ≠ 0 then a ||| f.2.1 else a) 0
  let a := if m.attr &&& 16 ≠ 0 then a ||| 0x2000 else a
  let a := if m.attr &&& 2048 ≠ 0 then a ||| 0x1000 else a
  a ||| if m.area = [] then 0x02000000 else 0x01000000

/-! ## Storing a message -/

/-- `jam_addfield` (`mb_jam.c` 246-257). -/
def jamField (id : UInt16) (s : Str) : JamSub := { loId := id, hiId := 0, data := s }

/-- The files named in a subject (`mb_jam.c` 398-412, 419-433): words between blanks and commas; a word is cut after 80
characters, and what follows is the next word. Every round takes a character of the subject. -/
def subjFiles : Nat → Str → List Str
  | 0, _ => []
  | _, [] => []
  | fuel + 1, s =>
    let w := (s.takeWhile fun c => c != 32 && c != 44).take 80
    let r := subjFiles fuel ((s.drop w.length).dropWhile fun c => c == 32 || c == 44)
    if w = [] then r else w :: r

/-- The subfields made from the header (`mb_jam.c` 359-434). -/
def jamHeadFields (m : MemMsg) : List JamSub :=
  (if m.frm ≠ [] then [jamField 2 m.frm] else []) ++
  (if m.to ≠ [] then [jamField 3 m.to] else []) ++
  (if m.subject ≠ [] then [jamField 6 m.subject] else []) ++
  (if m.area = [] then [jamField 0 (print4D m.orig), jamField 1 (print4D m.dest)] else [jamField 0 (print4D m.origin4D)]) ++
  (if m.attr &&& 16 ≠ 0 then (subjFiles m.subject.length m.subject).map (jamField 9) else []) ++
  (if m.attr &&& 2048 ≠ 0 then (subjFiles m.subject.length m.subject).map (jamField 11) else [])

/-- What the loop over the text builds: attributes, subfields and `msgtext`. -/
structure JamIn where
  attr : UInt32
  subs : List JamSub
  body : Str
  deriving DecidableEq, Repr

def JamIn.add (x : JamIn) (id : UInt16) (s : Str) : JamIn := { x with subs := x.subs ++ [jamField id s] }

/-- A line of a chunk ends behind CR (`mb_jam.c` 449-462). -/
def crLines : Str → List Str
  | [] => []
  | c :: r =>
    if c = 13 then [13] :: crLines r
    else match crLines r with
      | [] => [[c]]
      | l :: ls => (c :: l) :: ls

/-- The argument of a kludge line (`mb_jam.c` 468-469 and others):
`mystrncpy(buf,&msgtext[linebegin+k],MIN(100,linelen-k)); stripleadtrail(buf)`. For the length 0, `mystrncpy` writes without end. -/
def kludgeArg (l : Str) (k : Nat) : Except UB Str :=
  let len := min 100 (l.length - k)
  if len = 0 then .error .oobWrite else stripleadtrail (cstr ((l.drop k).take (len - 1)))

/-- The words of a FLAGS line (`mb_jam.c` 495): `jbstrcpy` with `char flag[10]`. -/
def flagWords : Nat → Str → List Str
  | 0, _ => []
  | fuel + 1, s =>
    let t := jbstrcpy 10 s
    if t.2.2 then t.1 :: flagWords fuel t.2.1 else []

/-- A word of a FLAGS line (`mb_jam.c` 497-508): it sets an attribute, or goes to `char newflags[100]`. -/
def jamFlagWord (x : UInt32 × Str) (w : Str) : Except UB (UInt32 × Str) :=
  if jamFindFlag w ≠ 0 then .ok (x.1 ||| jamFindFlag w, x.2)
  else if x.2.length + w.length + 1 < 100 then .ok (x.1, x.2 ++ w ++ [32])
  else .error .oobWrite

/-- A FLAGS line (`mb_jam.c` 487-516). -/
def jamFlagsLine (x : JamIn) (l : Str) : Except UB JamIn := do
  let buf ← kludgeArg l 7
  let r ← (flagWords (buf.length + 1) buf).foldlM jamFlagWord (x.attr, [])
  let new ← stripleadtrail r.2
  return if new ≠ [] then { x with attr := r.1 }.add 2003 new else { x with attr := r.1 }

/-- A line of the text, without LF (`mb_jam.c` 464-539). -/
def jamLine (x : JamIn) (l : Str) : Except UB JamIn :=
  if l = [] then .ok x
  else if startsWith l (1 :: b!"PID:") then return x.add 7 (← kludgeArg l 5)
  else if startsWith l (1 :: b!"MSGID:") then return x.add 4 (← kludgeArg l 7)
  else if startsWith l (1 :: b!"REPLY:") then return x.add 5 (← kludgeArg l 7)
  else if startsWith l (1 :: b!"FLAGS:") then jamFlagsLine x l
  else if startsWith l (1 :: b!"INTL") then .ok x
  else if startsWith l (1 :: b!"TOPT") then .ok x
  else if startsWith l (1 :: b!"FMPT") then .ok x
  else if l.head? = some 1 then return x.add 2000 (← kludgeArg l 1)
  else .ok { x with body := x.body ++ l }

/-- A chunk of the text (`mb_jam.c` 446-540). When a line has no end, the loop looks at `Data[Length]`, which is
not there if the chunk is full. -/
def jamChunk (x : JamIn) (ch : Str) : Except UB JamIn :=
  if ch.length = chunkLen ∧ ch.getLast? ≠ some 13 then .error .oobRead
  else (crLines ch).foldlM (fun x l => jamLine x (l.filter (· != 10))) x

/-- The SEEN-BY lines (`mb_jam.c` 544-571), which all begin with `SEEN-BY: ` and end in CR (`mmMakeSeenByBuf`). -/
def jamSeenFields (o : JamOpt) (m : MemMsg) : Except UB (List JamSub) :=
  if o.importSeenBy then do
    let buf ← mmMakeSeenByBuf m.seenBy
    return (((crLines buf).filter fun l => l.getLast? = some 13).map fun l => jamField 2001 (l.dropLast.drop 9))
  else .ok []

/-- The fields of the header that are set (`mb_jam.c` 320, 348-357); `tick` is the time of the call of `time`. -/
def jamHdrOf (r : JamRun) (tick : Nat) (m : MemMsg) (attr : UInt32) : Except UB JamHdr := do
  let written ← fidoToTime r.mktime (r.now tick) m.date
  let id ← jamCrc32 r.e.signedChar m.msgid
  let reply ← jamCrc32 r.e.signedChar m.reply
  return { sig := jamSig, revision := 1, reserved := 0, subLen := 0, timesRead := 0, msgIdCrc := id, replyCrc := reply,
           replyTo := 0, reply1st := 0, replyNext := 0, dateWritten := UInt32.ofInt (written - r.utcOffset), dateReceived := 0,
           dateProcessed := UInt32.ofInt (r.now tick - r.utcOffset), msgNum := 0, attr, attr2 := 0, txtOffset := 0, txtLen := 0,
           pwCrc := 0xffffffff, cost := m.cost.toUInt32 }

/-- The message that is added to the base (`mb_jam.c` 320-577, 597-601). A message without text gets the text NUL. -/
def jamStored (o : JamOpt) (r : JamRun) (tick : Nat) (m : MemMsg) : Except UB (JamHdr × List JamSub × Data) := do
  let h ← jamHdrOf r tick m 0
  let x ← m.text.foldlM jamChunk { attr := jamAttrOf m, subs := jamHeadFields m, body := [] }
  let sb ← jamSeenFields o m
  return ({ h with attr := x.attr }, x.subs ++ sb ++ m.path.flatten.map (jamField 2002), if m.text.flatten = [] then [0] else x.body)

/-! ## Reading a message -/

/-- The variables of `jam_ExportJAMNum` while the subfields are read. `buf` is not initialised. -/
structure JamReading where
  mm : MemMsg
  buf : Option Str := none
  flags : Str := []
  file : Str := []
  hasAddr : Bool := false

/-- `mystrncpy(dest,Field_PS->Buffer,Field_PS->DatLen+1)` into the last `n` bytes of an array. -/
def fieldStr (n : Nat) (d : Data) : Except JErr Str := if d.length + 1 ≤ n then .ok (cstr d) else .error (.ub .oobWrite)

/-- `mmAddLine`. -/
def addLineJ (m : MemMsg) (l : Str) : Except JErr MemMsg :=
  match mmAddLine m l with
  | .error u => .error (.ub u)
  | .ok none => .error .stuck
  | .ok (some m) => .ok m

/-- `jam_makekludge` (`mb_jam.c` 618-631). -/
def jamKludge (x : JamReading) (pre : Str) (d : Data) : Except JErr JamReading := do
  return { x with mm := ← addLineJ x.mm (pre ++ cstr d ++ [13]) }

/-- A subfield (`mb_jam.c` 741-841). -/
def jamSubfield (x : JamReading) (f : JamSub) : Except JErr JamReading :=
  if f.loId = 0 then do
    let s ← fieldStr 200 f.data
    return { x with buf := some s, mm := { x.mm with orig := (parse5D s).getD x.mm.orig } }
  else if f.loId = 1 then do
    let s ← fieldStr 200 f.data
    if x.hasAddr then return { x with buf := some s }
    else return { x with buf := some s, hasAddr := true, mm := { x.mm with dest := (parse5D s).getD x.mm.dest } }
  else if f.loId = 2 then do
    let s ← fieldStr 200 f.data
    return { x with buf := some s, mm := { x.mm with frm := mystrncpy s 36 } }
  else if f.loId = 3 then do
    let s ← fieldStr 200 f.data
    return { x with buf := some s, mm := { x.mm with to := mystrncpy s 36 } }
  else if f.loId = 4 then jamKludge x (1 :: b!"MSGID: ") f.data
  else if f.loId = 5 then jamKludge x (1 :: b!"REPLY: ") f.data
  else if f.loId = 6 then do
    let s ← fieldStr 200 f.data
    return { x with buf := some s, mm := { x.mm with subject := mystrncpy s 72 } }
  else if f.loId = 7 then jamKludge x (1 :: b!"PID: ") f.data
  else if f.loId = 9 then do
    if x.file ≠ [] then return x
    else return { x with file := ← fieldStr 200 f.data }
  else if f.loId = 2000 then jamKludge x [1] f.data
  else if f.loId = 2001 then jamKludge x b!"SEEN-BY: " f.data
  else if f.loId = 2002 then jamKludge x (1 :: b!"PATH: ") f.data
  else if f.loId = 2003 then do
    let s ← fieldStr 192 f.data
    return { x with flags := 1 :: b!"FLAGS: " ++ s }
  else .ok x

/-- An entry of the table (`mb_jam.c` 855-869): attribute and `flagsbuf`. -/
def jamFlagOut (attr : UInt32) (x : UInt16 × Str) (f : Str × UInt32 × UInt16) : UInt16 × Str :=
  if attr &&& f.2.1 ≠ 0 then
    if f.2.2 ≠ 0 then (x.1 ||| f.2.2, x.2)
    else if f.1 ≠ [] ∧ x.2.length < 90 then (x.1, (if x.2 = [] then 1 :: b!"FLAGS: " else x.2 ++ [32]) ++ f.1)
    else x
  else x

/-- The attributes that are kept (`mb_jam.c` 879). -/
def jamKeptFlags : UInt16 := 1 ||| 2 ||| 16 ||| 2048 ||| 4096 ||| 8192 ||| 16384 ||| 512

/-- The file of the subject, the date, the attributes and `flagsbuf` (`mb_jam.c` 844-879): the message and `oldattr`. When there are flags,
the line that is added is not `flagsbuf` but `buf`. -/
def jamHeadOut (r : JamRun) (h : JamHdr) (x : JamReading) : Except JErr (MemMsg × UInt16) := do
  let m := if x.file ≠ [] then { x.mm with attr := x.mm.attr ||| 16, subject := mystrncpy x.file 72 } else x.mm
  let m := { m with date := makeFidoDate (r.localtime ((h.dateWritten.toNat : Int) + r.utcOffset)), cost := h.cost.toUInt16 }
  let af := jamFlagTable.foldl (jamFlagOut h.attr) (m.attr, x.flags)
  let m ← (if af.2 ≠ [] then
      match x.buf with
      | none => .error (.ub .uninit)
      | some s => addLineJ { m with attr := af.1 } s
    else .ok { m with attr := af.1 } : Except JErr MemMsg)
  return ({ m with attr := m.attr &&& jamKeptFlags }, m.attr)

/-- The lines added for the addresses (`mb_jam.c` 883-909), TID and RESCANNED (`mb_jam.c` 911-921). -/
def jamOwnLines (o : JamOpt) (a : Area) (aka : Node4D) (rescan : Bool) (m : MemMsg) : List Str :=
  (if a.type = .netmail then
    (if m.orig.zone ≠ m.dest.zone ∨ o.forceIntl then
      [1 :: b!"INTL " ++ dec m.dest.zone.toNat ++ b!":" ++ dec m.dest.net.toNat ++ b!"/" ++ dec m.dest.node.toNat ++ b!" " ++
        dec m.orig.zone.toNat ++ b!":" ++ dec m.orig.net.toNat ++ b!"/" ++ dec m.orig.node.toNat ++ [13]] else []) ++
    (if m.orig.point ≠ 0 then [1 :: b!"FMPT " ++ dec m.orig.point.toNat ++ [13]] else []) ++
    (if m.dest.point ≠ 0 then [1 :: b!"TOPT " ++ dec m.dest.point.toNat ++ [13]] else []) else []) ++
  (if o.addTID && !rescan then [tidLine] else []) ++
  (if rescan then [1 :: b!"RESCANNED " ++ dec aka.zone.toNat ++ b!":" ++ dec aka.net.toNat ++ b!"/" ++ dec aka.node.toNat ++
    b!"." ++ dec aka.point.toNat ++ [13]] else [])

/-- The address of the origin line (`mb_jam.c` 929-957); the last line with an address counts. -/
def jamOrigin (n : Node4D) (l : Str) : Except JErr Node4D :=
  if 11 < l.length ∧ startsWith l b!" * Origin: " then do
    match ← liftJ (extractAddress (mystrncpy l (min l.length 200))) with
    | none => return n
    | some a => return a
  else .ok n

/-- The text (`mb_jam.c` 925-966). -/
def jamTextOut (m : MemMsg) (text : Data) : Except JErr MemMsg :=
  if text = [] then .ok m
  else do
    let origin ← (if m.area ≠ [] then (crLines (cstr text)).foldlM jamOrigin m.origin4D else .ok m.origin4D : Except JErr Node4D)
    match ← liftJ (mmAddBuf m.text text) with
    | none => .error .stuck
    | some t => return { m with origin4D := origin, text := t }

/-- The message that is handed over (`mb_jam.c` 717-976), and `oldattr`. -/
def jamLoaded (o : JamOpt) (r : JamRun) (a : Area) (aka : Node4D) (rescan : Bool) (num : UInt32) (h : JamHdr) (subs : List JamSub) (text : Data) :
    Except JErr (MemMsg × UInt16) := do
  let x ← subs.foldlM jamSubfield { mm := { msgnum := num, area := if a.type = .netmail then [] else a.tag } }
  let (m, old) ← jamHeadOut r h x
  let m ← (jamOwnLines o a aka rescan m).foldlM addLineJ m
  let m ← jamTextOut m text
  return ({ m with flags := m.flags ||| if rescan then MMFLAG_RESCANNED else MMFLAG_EXPORTED }, old)

/-! ## Areas -/

/-- `struct jam_Area` (`mb_jam.c` 14-24). -/
structure JamRec where
  baseNum : UInt32 := 0
  oldNum : UInt32 := 0
  oldHW : UInt32 := 0
  hw : UInt32 := 0
  newmsg : Bool := false
  deriving DecidableEq, Repr

/-- The message bases and high water marks on disk, `jam_AreaList` (in the order of `order`), and the time. Areas are given by their position in
the configuration; different areas have different paths. That bases are kept open (`jam_openbase`, `mb_jam.c` 34-93)
is in `Model/JamOpen.lean`: the contents of a base do not depend on it. -/
structure JamW where
  base : Nat → Option JamBase
  hwFile : Nat → Option Data
  recs : Nat → Option JamRec := fun _ => none
  order : List Nat := []
  tick : Nat := 0

def JamW.setBase (w : JamW) (i : Nat) (b : JamBase) : JamW := { w with base := fun j => if j = i then some b else w.base j }

def JamW.setRec (w : JamW) (i : Nat) (r : JamRec) : JamW := { w with recs := fun j => if j = i then some r else w.recs j }

def JamW.recOf (w : JamW) (i : Nat) : JamRec := (w.recs i).getD {}

def JamW.step (w : JamW) : JamW := { w with tick := w.tick + 1 }

/-- Opening the base (`mb_jam.c` 71-92): it is created if that fails. -/
def jamOpenArea (r : JamRun) (w : JamW) (i : Nat) : Bool × JamW :=
  match w.base i with
  | some _ => (true, w)
  | none =>
    if r.create w.tick then
      match jamCreate r.e (UInt32.ofInt (r.now w.tick)) 1 with
      | .ok b => (true, (w.setBase i b).step)
      | .error _ => (false, w.step)
    else (false, w.step)

/-- `jam_getarea` (`mb_jam.c` 95-146). The record is in the list before the base is opened, and stays there when that fails. -/
def jamGetArea (r : JamRun) (w : JamW) (i : Nat) : Bool × JamW :=
  match w.recs i with
  | some _ => jamOpenArea r w i
  | none =>
    let (ok, w) := jamOpenArea r { w.setRec i {} with order := w.order ++ [i] } i
    if !ok then (false, w)
    else match w.base i with
      | none => (false, w)
      | some b =>
        match jamReadBase b with
        | .error _ => (false, w.setRec i { oldNum := jamSize b })
        | .ok H => (true, w.setRec i { oldNum := jamSize b, baseNum := H.baseNum })

/-- `JAM_LockMB` (`mbase.c` 290-326): without a lock, the second result is `false`. -/
def jamLockW (r : JamRun) (w : JamW) (i : Nat) : Bool × JamW :=
  match w.base i with
  | none => (false, w)
  | some b => if b.locked then (true, w) else if r.lock w.tick then (true, (w.setBase i { b with locked := true }).step) else (false, w.step)

/-- `JAM_UnlockMB` (`mbase.c` 333-341). -/
def jamUnlockW (w : JamW) (i : Nat) : JamW :=
  match w.base i with
  | none => w
  | some b => w.setBase i { b with locked := false }

/-- `jam_importfunc` (`mb_jam.c` 298-616). -/
def jamImport (o : JamOpt) (r : JamRun) (i : Nat) (m : MemMsg) (w : JamW) : Except JErr (Bool × JamW) := do
  let (ok, w) := jamGetArea r w i
  if !ok then return (false, w)
  let w := w.setRec i { w.recOf i with newmsg := true }
  let (h, subs, text) ← liftJ (jamStored o r w.tick m)
  let (ok, w) := jamLockW r w.step i
  if !ok then return (false, w)
  match w.base i with
  | none => return (false, w)
  | some b =>
    match ← liftJ (jamAdd r.e b h subs text) with
    | .error _ => return (false, jamUnlockW w i)
    | .ok (b, _) => return (true, jamUnlockW (w.setBase i b) i)

/-- `handlefunc`: its result, and the state afterwards. -/
abbrev JamHandler := MemMsg → JamW → Except JErr (Bool × JamW)

/-- What an export has done: the result, the state, and the messages for which `handlefunc` returned `TRUE`, with their numbers (this list is not
in the program). -/
structure JamDone where
  ok : Bool
  w : JamW
  sent : List (UInt32 × MemMsg)

/-- The header that is written back (`mb_jam.c` 988-1004). -/
def jamSentHdr (o : JamOpt) (r : JamRun) (a : Area) (tick : Nat) (old : UInt16) (h : JamHdr) : JamHdr :=
  { h with
    attr := (if o.killSent && (old &&& 128 != 0) && (a.type = .netmail) then h.attr ||| 0x80000000 else h.attr) ||| 0x10
    dateProcessed := UInt32.ofInt (r.now tick - r.utcOffset) }

/-- The message is marked (`mb_jam.c` 984-1024); a header that cannot be written is only logged. -/
def jamMarkSent (o : JamOpt) (r : JamRun) (i : Nat) (a : Area) (num : UInt32) (h : JamHdr) (old : UInt16) (w : JamW) : Bool × JamW :=
  let h := jamSentHdr o r a w.tick old h
  let (ok, w) := jamGetArea r w.step i
  if !ok then (false, w)
  else
    let (ok, w) := jamLockW r w i
    if !ok then (false, w)
    else match w.base i with
      | none => (false, w)
      | some b =>
        match jamChange r.e b (num - (w.recOf i).baseNum) h with
        | .error _ => (true, jamUnlockW w i)
        | .ok b => (true, jamUnlockW (w.setBase i b) i)

/-- `jam_ExportJAMNum` (`mb_jam.c` 633-1029). -/
def jamExportNum (o : JamOpt) (r : JamRun) (handle : JamHandler) (i : Nat) (a : Area) (aka : Node4D) (rescan : Bool) (num : UInt32) (w : JamW) :
    Except JErr JamDone := do
  let (ok, w) := jamGetArea r w i
  if !ok then return ⟨false, w, []⟩
  match w.base i with
  | none => return ⟨false, w, []⟩
  | some b =>
    match ← liftJ (jamReadHdr b (num - (w.recOf i).baseNum)) with
    | .error _ => return ⟨true, w, []⟩
    | .ok (h, subs) =>
      if jamDeleted h.attr then return ⟨true, w, []⟩
      else if !rescan && (h.attr &&& 0x10 != 0 || h.attr &&& 0x1 == 0) then return ⟨true, w, []⟩
      else match jamReadText b h.txtOffset h.txtLen with
        | .error _ => return ⟨false, w, []⟩
        | .ok text =>
          let (m, old) ← jamLoaded o r a aka rescan num h subs text
          let (ok, w) ← handle m w
          if !ok then return ⟨false, w, []⟩
          if rescan then return ⟨true, w, [(num, m)]⟩
          let (ok, w) := jamMarkSent o r i a num h old w
          return ⟨ok, w, [(num, m)]⟩

/-- The loops of `jam_exportfunc` and `jam_rescanfunc` (`mb_jam.c` 1057-1066, 1088-1097). -/
def jamLoop (o : JamOpt) (r : JamRun) (handle : JamHandler) (i : Nat) (a : Area) (aka : Node4D) (rescan : Bool) (stop : UInt32) :
    Nat → UInt32 → JamW → List (UInt32 × MemMsg) → Except JErr JamDone
  | 0, _, _, _ => .error .stuck
  | fuel + 1, start, w, done =>
    if r.ctrlc w.tick then .ok ⟨false, w.step, done⟩
    else if start < stop then do
      let x ← jamExportNum o r handle i a aka rescan start w.step
      if !x.ok then return { x with sent := done ++ x.sent }
      jamLoop o r handle i a aka rescan stop fuel (start + 1) x.w (done ++ x.sent)
    else .ok ⟨true, w.step, done⟩

/-- `jam_gethighwater` (`mb_jam.c` 148-167): the number is not initialised if the file has less than four bytes, but some. -/
def jamGetHW (f : Option Data) (r : JamRec) : Except JErr JamRec :=
  match f with
  | none => .ok r
  | some d =>
    if d = [] then .ok r
    else if d.length < 4 then .error (.ub .uninit)
    else .ok { r with hw := get32 d 0, oldHW := get32 d 0 }

/-- Where an export begins (`mb_jam.c` 1049-1053). -/
def jamStart (r : JamRec) : UInt32 :=
  let s := if r.hw ≠ 0 then r.hw + 1 else r.baseNum
  if s < r.baseNum then r.baseNum else s

/-- `jam_exportfunc` (`mb_jam.c` 1031-1071). -/
def jamExport (o : JamOpt) (r : JamRun) (handle : JamHandler) (i : Nat) (a : Area) (aka : Node4D) (w : JamW) : Except JErr JamDone := do
  let (ok, w) := jamGetArea r w i
  if !ok then return ⟨true, w, []⟩
  let x ← (if o.highwater then jamGetHW (w.hwFile i) (w.recOf i) else .ok (w.recOf i) : Except JErr JamRec)
  let w := w.setRec i x
  let y ← jamLoop o r handle i a aka false (x.baseNum + x.oldNum) (x.oldNum.toNat + 1) (jamStart x) w []
  if !y.ok then return y
  return { y with w := y.w.setRec i { y.w.recOf i with hw := x.baseNum + x.oldNum - 1 } }

/-- `jam_rescanfunc` (`mb_jam.c` 1073-1100). -/
def jamRescan (o : JamOpt) (r : JamRun) (handle : JamHandler) (i : Nat) (a : Area) (aka : Node4D) (max : UInt32) (w : JamW) : Except JErr JamDone := do
  let (ok, w) := jamGetArea r w i
  if !ok then return ⟨false, w, []⟩
  let x := w.recOf i
  jamLoop o r handle i a aka true (x.baseNum + x.oldNum) (x.oldNum.toNat + 1)
    (if max ≠ 0 ∧ max < x.oldNum then x.baseNum + x.oldNum - max else x.baseNum) w []

/-! ## Links between replies -/

/-- `struct Msg` (`mb_jam.c` 1104-1114), where `unsigned long` has 64 bits. -/
structure JamLink where
  msgId : UInt64
  reply : UInt64
  to : UInt64
  first : UInt64
  next : UInt64
  deriving DecidableEq, Repr

/-- The information on message `n` (`mb_jam.c` 1264-1285); for a message that cannot be read, the checksums are `-1`. -/
def jamLinkOf (b : JamBase) (n : Nat) : JamLink :=
  match jamHead b (UInt32.ofNat n) with
  | .error _ => { msgId := 0xffffffffffffffff, reply := 0xffffffffffffffff, to := 0, first := 0, next := 0 }
  | .ok h => { msgId := h.msgIdCrc.toUInt64, reply := h.replyCrc.toUInt64, to := h.replyTo.toUInt64, first := h.reply1st.toUInt64,
               next := h.replyNext.toUInt64 }

/-- The checksum is there (`mb_jam.c` 1290, 1299: `!= -1`). -/
def jamHasCrc (x : UInt64) : Bool := x != 0xffffffffffffffff

/-- `jam_CompareMsgIdReply` (`mb_jam.c` 1116-1176): is message `j` a reply to message `i`? -/
def jamIsReply (quick : Bool) (b : JamBase) (msgs : List JamLink) (i j : Nat) : Except UB Bool :=
  match msgs[i]?, msgs[j]? with
  | some x, some y =>
    if x.msgId ≠ y.reply then .ok false
    else if quick then .ok true
    else do
      match ← jamReadHdr b (UInt32.ofNat i) with
      | .error _ => return false
      | .ok (_, s) =>
        match ← jamReadHdr b (UInt32.ofNat j) with
        | .error _ => return false
        | .ok (_, t) =>
          match t.find? (·.loId == 5), s.find? (·.loId == 4) with
          | some f, some g => return decide (f.data.length = g.data.length ∧ cstr f.data = cstr g.data)
          | _, _ => return false
  | _, _ => .error .oobRead

/-- The end of the chain of replies that goes on at message `n` (`mb_jam.c` 1197-1224): `none` if `dest` is in it, it is too long, or
it leaves the base. `int n` is given by its bits. -/
def jamChainEnd (msgs : List JamLink) (base : UInt32) (dest : Nat) : Nat → UInt64 → Option Nat
  | times, link =>
    let n := (link - base.toUInt64).toUInt32
    if n = UInt32.ofNat dest then none
    else if 0x80000000 ≤ n ∨ msgs.length ≤ n.toNat then none
    else match msgs[n.toNat]? with
      | none => none
      | some x =>
        if x.next = 0 then some n.toNat
        else match times with
          | 0 => none
          | times + 1 => jamChainEnd msgs base dest times x.next

/-- `jam_setreply` (`mb_jam.c` 1179-1229): `dest` is a reply to `num`. -/
def jamSetReply (msgs : List JamLink) (base : UInt32) (num dest : Nat) : List JamLink :=
  match msgs[dest]? with
  | none => msgs
  | some y =>
    if y.to ≠ 0 then msgs
    else
      let msgs := msgs.set dest { y with to := (UInt32.ofNat num + base).toUInt64 }
      match msgs[num]? with
      | none => msgs
      | some x =>
        if x.first = 0 then msgs.set num { x with first := (UInt32.ofNat dest + base).toUInt64 }
        else match jamChainEnd msgs base dest 1000 x.first with
          | none => msgs
          | some n => match msgs[n]? with
            | none => msgs
            | some z => msgs.set n { z with next := (UInt32.ofNat dest + base).toUInt64 }

/-- One pair of messages (`mb_jam.c` 1295-1296, 1304-1305). -/
def jamTry (quick : Bool) (b : JamBase) (base : UInt32) (msgs : List JamLink) (num dest : Nat) : Except UB (List JamLink) := do
  if ← jamIsReply quick b msgs num dest then return jamSetReply msgs base num dest else return msgs

/-- Message `c` and all others (`mb_jam.c` 1290-1306). -/
def jamLinkOne (quick : Bool) (b : JamBase) (base : UInt32) (n : Nat) (msgs : List JamLink) (c : Nat) : Except UB (List JamLink) := do
  let msgs ← (if (msgs[c]?.any fun x => jamHasCrc x.reply) then (List.range n).foldlM (fun ms d => jamTry quick b base ms d c) msgs else .ok msgs :
    Except UB (List JamLink))
  if (msgs[c]?.any fun x => jamHasCrc x.msgId) then (List.range n).foldlM (fun ms d => jamTry quick b base ms c d) msgs else return msgs

/-- The links are written (`mb_jam.c` 1311-1334): whether it went on to the end, and the state. The base stays locked when a header
cannot be read. -/
def jamLinkWrite (r : JamRun) (i : Nat) (old new : List JamLink) : List Nat → JamW → Bool × JamW
  | [], w => (true, w)
  | c :: cs, w =>
    match old[c]?, new[c]? with
    | some x, some y =>
      if x.to ≠ y.to ∨ x.first ≠ y.first ∨ x.next ≠ y.next then
        let (ok, w) := jamLockW r w i
        if !ok then (false, w)
        else match w.base i with
          | none => (false, w)
          | some b =>
            match jamHead b (UInt32.ofNat c) with
            | .error _ => jamLinkWrite r i old new cs w
            | .ok h =>
              match jamChange r.e b (UInt32.ofNat c) { h with replyTo := y.to.toUInt32, reply1st := y.first.toUInt32, replyNext := y.next.toUInt32 } with
              | .error _ => jamLinkWrite r i old new cs (jamUnlockW w i)
              | .ok b => jamLinkWrite r i old new cs (jamUnlockW (w.setBase i b) i)
      else jamLinkWrite r i old new cs w
    | _, _ => jamLinkWrite r i old new cs w

/-- The links of a base (`mb_jam.c` 1260-1307): before and after. -/
def jamLinks (quick : Bool) (b : JamBase) (base : UInt32) (oldnum n : Nat) : Except UB (List JamLink × List JamLink) := do
  let msgs := (List.range n).map (jamLinkOf b)
  return (msgs, ← ((List.range n).drop oldnum).foldlM (jamLinkOne quick b base n) msgs)

/-- `jam_linkmb` (`mb_jam.c` 1231-1339), for less than 2^26 messages (the size of the array is passed to `osAlloc` in 32 bits). -/
def jamLinkMb (o : JamOpt) (r : JamRun) (i : Nat) (oldnum : UInt32) (w : JamW) : Except JErr (Bool × JamW) := do
  let (ok, w) := jamGetArea r w i
  if !ok then return (false, w)
  match w.base i with
  | none => return (false, w)
  | some b =>
    let n := (jamSize b).toNat
    if n = 0 then return (true, w)
    let (old, new) ← liftJ (jamLinks o.quick b (w.recOf i).baseNum oldnum.toNat n)
    return jamLinkWrite r i old new (List.range n) w

/-- `jam_writehighwater` (`mb_jam.c` 169-185). -/
def jamWriteHW (w : JamW) (i : Nat) : JamW := { w with hwFile := fun j => if j = i then some (le32 (w.recOf i).hw) else w.hwFile j }

/-- `jam_afterfunc` (`mb_jam.c` 216-242): marks and links. -/
def jamAfter (o : JamOpt) (r : JamRun) (success : Bool) (w : JamW) : Except JErr JamW := do
  let w := if success && o.highwater then w.order.foldl (fun w i => if (w.recOf i).hw ≠ (w.recOf i).oldHW then jamWriteHW w i else w) w else w
  if success && o.link then
    w.order.foldlM (fun w i => if (w.recOf i).newmsg then do return (← jamLinkMb o r i (w.recOf i).oldNum w).2 else return w) w
  else return w

end CM
