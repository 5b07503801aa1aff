import Verif.Model.Config
import Verif.Model.Expr
import Verif.Model.Search
import Verif.Model.Pkt
/-!
# Filters, bounces, receipts, auto-add and the bad area

`crashmail/filter.c` 46-1073, `crashmail/misc.c` 34-129 and `crashmail/handle.c` 75-384, 845-1113.
Functions that hand a generated message back to `HandleMessage` take it as the argument `self`.
Message texts contain no NUL byte.
-/

namespace CM

/-! ## Evaluation of a statement -/

/-- `isalpha` in the C locale. -/
def isAlpha (c : UInt8) : Bool := (65 ≤ c && c ≤ 90) || (97 ≤ c && c ≤ 122)

/-- The variable, operator and value of a statement (`filter.c` 250-281). The operator is empty or one
byte. -/
def splitStmt (s : Str) : Str × Str × Str :=
  let var := (s.takeWhile fun c => isAlpha c || c == 95).take 99
  let r := s.drop var.length
  let op := r.take 1
  let r := r.drop 1
  let r := if r.head? = some 34 then r.tail else r
  let data := mystrncpy r 100
  let data := if data.getLast? = some 34 then data.dropLast else data
  (var, op, data)

/-- The sender of a message (`filter.c` 285-286, `handle.c` 860-861). -/
def MemMsg.sender (m : MemMsg) : Node4D := if m.area = [] then m.orig else m.origin4D

/-- The same address without the point number. -/
def Node4D.boss (n : Node4D) : Node4D := { n with point := 0 }

/-- `filter_nllookup` (`filter.c` 48-57); `none` is -1. -/
def nlLookup (cfg : Config) (n : Node4D) : Option Bool :=
  if !cfg.nlConfigured then none else if !cfg.nl.isOpen then some true else some (cfg.nlCheck n)

/-- `filter_comparenode` (`filter.c` 59-100). The error texts go to a `char[100]`. -/
def compareNode (cfg : Config) (n : Node4D) (op data : Str) : Except UB (Option Bool) :=
  if op ≠ b!"=" then .ok none
  else match parse4DPat data with
    | .error u => .error u
    | .ok none => if data.length + 23 < 100 then .ok none else .error .oobWrite
    | .ok (some p) =>
      if !cfg.nlConfigured && (p.type == .hub || p.type == .region) then
        if data.length + 30 < 100 then .ok none else .error .oobWrite
      else .ok (some (compare4DPat cfg.nl p n))

/-- A search result as a truth value. `bmfind` always ends for patterns of at most 99 bytes
(`bmfind_ends`). -/
def foundBool : Found → Except UB Bool
  | .at _ => .ok true
  | .no => .ok false
  | .ub u => .error u
  | .loop => .ok false

/-- `filter_comparestring` (`filter.c` 102-145); `osCheckPattern` accepts everything
(`oslib_linux/ospattern.c`). -/
def compareString (s op data : Str) : Except UB (Option Bool) :=
  if op = b!"|" then (foundBool (bmfind data s 0)).map some
  else if op = b!"=" then .ok (some (osMatchPattern data s))
  else .ok none

/-- `filter_comparebool` (`filter.c` 147-189). -/
def compareBool (b : Bool) (op data : Str) : Option Bool :=
  if op = [] then some b
  else if op = b!"=" then
    if eqi data b!"TRUE" then some b else if eqi data b!"FALSE" then some (!b) else none
  else none

/-- The backward scan to the start of the line (`filter.c` 225): the byte it stops at. -/
def scanBack (text : Str) : Nat → Option UInt8
  | 0 => text[0]?
  | c + 1 => if text[c + 1]? = some 1 ∨ text[c + 1]? = some 13 then text[c + 1]? else scanBack text c

/-- The search of one chunk (`filter.c` 219-229), `f` is the fuel. With an empty pattern the search
also "finds" the position behind the text and reads there. -/
def searchChunk (kludge : Bool) (data text : Str) : Nat → Nat → Except UB Bool
  | 0, _ => .ok false
  | f + 1, start =>
    match bmfind data text start with
    | .ub u => .error u
    | .no => .ok false
    | .loop => .ok false
    | .at pos =>
      if text.length ≤ pos then .error .uninit
      else if (scanBack text pos == some 1) == kludge then .ok true
      else searchChunk kludge data text f (pos + 1)

/-- `filter_comparetext` (`filter.c` 191-233). -/
def compareText (kludge : Bool) (op data : Str) (chunks : List Str) : Except UB (Option Bool) :=
  if op ≠ b!"|" then .ok none
  else
    let rec go : List Str → Except UB (Option Bool)
      | [] => .ok (some false)
      | c :: cs => match searchChunk kludge data c (c.length + 2) 0 with
        | .error u => .error u
        | .ok true => .ok (some true)
        | .ok false => go cs
    go chunks

/-- Where a message comes from (`filter.c` 338-347). -/
def MemMsg.source (m : MemMsg) : Str :=
  if m.has MMFLAG_TOSSED then b!"TOSSED"
  else if m.has MMFLAG_AUTOGEN then b!"CRASHMAIL"
  else if m.has MMFLAG_EXPORTED then b!"EXPORTED"
  else b!"OTHER"

/-- Local points (`filter.c` 313-317). -/
def Config.isLocalPoint (c : Config) (n : Node4D) : Bool :=
  n.point != 0 && c.akas.any fun a => compare4D a.node n.boss == 0 && a.node.point == 0

/-- A configured node (`filter.c` 320-327). -/
def Config.isNode (c : Config) (n : Node4D) : Bool := c.nodes.any fun k => compare4D k.node n == 0

/-- `filter_evalfunc` (`filter.c` 235-486). The text of the error for an unknown variable goes to a
`char[100]`. -/
def evalFunc (cfg : Config) (m : MemMsg) (s : Str) : Except UB (Option Bool) :=
  let (var, op, data) := splitStmt s
  let frm := m.sender
  if eqi var b!"FROMADDR" then compareNode cfg frm op data
  else if eqi var b!"TOADDR" then compareNode cfg m.dest op data
  else if eqi var b!"FROMNAME" then compareString m.frm op data
  else if eqi var b!"TONAME" then compareString m.to op data
  else if eqi var b!"SUBJECT" then compareString m.subject op data
  else if eqi var b!"AREA" then compareString m.area op data
  else if eqi var b!"TYPE" then
    compareString (if m.area = [] then b!"NETMAIL" else b!"ECHOMAIL") op data
  else if eqi var b!"SOURCE" then compareString m.source op data
  else if eqi var b!"FILEATTACH" then .ok (compareBool (m.attrHas FLAG_FILEATTACH) op data)
  else if eqi var b!"TOLOCALAKA" then .ok (compareBool (cfg.isAka m.dest) op data)
  else if eqi var b!"FROMLOCALAKA" then .ok (compareBool (cfg.isAka frm) op data)
  else if eqi var b!"TOLOCALPOINT" then .ok (compareBool (cfg.isLocalPoint m.dest) op data)
  else if eqi var b!"FROMLOCALPOINT" then .ok (compareBool (cfg.isLocalPoint frm) op data)
  else if eqi var b!"EXISTSCFG_FROMADDR" then .ok (compareBool (cfg.isNode frm) op data)
  else if eqi var b!"EXISTSCFG_FROMBOSS" then .ok (compareBool (cfg.isNode frm.boss) op data)
  else if eqi var b!"EXISTSCFG_TOADDR" then .ok (compareBool (cfg.isNode m.dest) op data)
  else if eqi var b!"EXISTSCFG_TOBOSS" then .ok (compareBool (cfg.isNode m.dest.boss) op data)
  else if eqi var b!"EXISTSNL_FROMADDR" then .ok (nlLookup cfg frm)
  else if eqi var b!"EXISTSNL_FROMBOSS" then .ok (nlLookup cfg frm.boss)
  else if eqi var b!"EXISTSNL_TOADDR" then .ok (nlLookup cfg m.dest)
  else if eqi var b!"EXISTSNL_TOBOSS" then .ok (nlLookup cfg m.dest.boss)
  else if eqi var b!"TEXT" then compareText false op data m.text
  else if eqi var b!"KLUDGES" then compareText true op data m.text
  else if var.length + 17 < 100 then .ok none else .error .oobWrite

/-! ## Strings with placeholders -/

/-- The arguments of `ExpandFilter`. -/
structure XArgs where
  rfc1 : Str := []
  rfc2 : Str := []
  msg : Str := []
  area : Str
  subj : Str
  date : Str
  frm : Str
  to : Str
  orig : Str
  dest : Str

/-- The replacement for the letter after `%`, if there is one (`misc.c` 51-120). -/
def XArgs.sub (a : XArgs) (c : UInt8) : Option Str :=
  if c = 97 then some a.area
  else if c = 114 then some a.rfc1
  else if c = 82 then some a.rfc2
  else if c ||| 32 = 109 then some a.msg
  else if c ||| 32 = 115 then some a.subj
  else if c ||| 32 = 120 then some a.date
  else if c ||| 32 = 102 then some a.frm
  else if c ||| 32 = 116 then some a.to
  else if c ||| 32 = 111 then some a.orig
  else if c ||| 32 = 100 then some a.dest
  else none

/-- `ExpandFilter` (`misc.c` 34-129) into a buffer of `size` bytes; `acc` is what has been written.
Replacements are cut, but single characters are stored without a check. -/
def expandLoop (size : Nat) (a : XArgs) : Str → Str → Except UB Str
  | acc, [] => if acc.length < size then .ok acc else .error .oobWrite
  | acc, 37 :: c :: r =>
    match a.sub c with
    | some t => if acc.length < size then expandLoop size a (acc ++ t.take (size - 1 - acc.length)) r else .error .oobWrite
    | none => if acc.length < size then expandLoop size a (acc ++ [c]) r else .error .oobWrite
  | acc, c :: r => if acc.length < size then expandLoop size a (acc ++ [c]) r else .error .oobWrite

def expandFilter (cmd : Str) (a : XArgs) : Except UB Str := expandLoop 400 a [] cmd

/-- The arguments taken from a message (`filter.c` 591-609, 640-658, 695-713). -/
def MemMsg.xargs (m : MemMsg) (rfc1 rfc2 msg : Str) : XArgs where
  rfc1 := rfc1
  rfc2 := rfc2
  msg := msg
  area := m.area
  subj := m.subject
  date := m.date
  frm := m.frm
  to := m.to
  orig := print4D m.sender
  dest := print4D m.dest

/-! ## The bad area -/

/-- `%u:%u/%u.%u`. -/
def addr4 (n : Node4D) : Str :=
  dec n.zone.toNat ++ b!":" ++ dec n.net.toNat ++ b!"/" ++ dec n.node.toNat ++ b!"." ++ dec n.point.toNat

/-- The chunk `WriteBad` puts in front of the text (`handle.c` 319-364). -/
def badHeader (m : MemMsg) (reason : Str) : Str :=
  if m.area = [] then
    b!"DEST:" ++ addr4 m.dest ++ [13] ++ b!"ORIG:" ++ addr4 m.orig ++ [13] ++ b!"PKTORIG:" ++
      addr4 m.pktOrig ++ [13] ++ b!"PKTDEST:" ++ addr4 m.pktDest ++ [13] ++ b!"ERROR:" ++ reason ++ [13]
  else
    b!"AREA:" ++ m.area ++ [13] ++ b!"PKTORIG:" ++ addr4 m.pktOrig ++ [13] ++ b!"PKTDEST:" ++
      addr4 m.pktDest ++ [13] ++ b!"ERROR:" ++ reason ++ [13]

/-- `WriteBad` (`handle.c` 293-384). The chunk holds 10000 bytes, reasons are at most one
configuration line long. Without a BAD area the message is lost. -/
def writeBad (env : Env) (m : MemMsg) (reason : Str) : M Unit := do
  let s ← M.get
  match s.cfg.areas.findIdx? (·.type == .bad) with
  | none => pure ()
  | some i =>
    if (s.cfg.areas[i]?.bind (·.base)).isSome then
      importMsg env i { m with text := badHeader m reason :: m.text }
    else pure ()

/-! ## Generated messages -/

/-- `AddTID` (`misc.c` 330-337); on Linux. -/
def tidLine : Str := 1 :: b!"TID: CrashMail II/Linux 1.5.1" ++ [13]

/-- A generated netmail with its kludges (`handle.c` 873-892, 1001-1020, 1058-1077). -/
def newNetmail (env : Env) (dest aka : Node4D) (to subject : Str) (attr flags : UInt16) : M MemMsg := do
  let s ← M.get
  let m : MemMsg :=
    { dest := dest
      orig := aka
      to := to
      frm := s.cfg.sysop
      subject := subject
      attr := attr
      date := env.fidoDate s.log
      flags := flags }
  let m ← M.liftO (makeNetmailKludges (s.cfg.has CFG_FORCEINTL) m)
  if s.cfg.has CFG_ADDTID then M.liftO (mmAddLine m tidLine) else pure m

/-- Add lines one after the other. -/
def mmAddLines (m : MemMsg) : List Str → M MemMsg
  | [] => pure m
  | l :: ls => do
    let m ← M.liftO (mmAddLine m l)
    mmAddLines m ls

/-- Add buffers to a list of chunks (`mmAddBuf`). -/
def addBufs (cs : List Str) : List Str → M (List Str)
  | [] => pure cs
  | l :: ls => do
    let cs ← M.liftO (mmAddBuf cs l)
    addBufs cs ls

/-- The header lines of a bounced message (`handle.c` 899-944). -/
def bounceHead (m : MemMsg) (headerOnly : Bool) : List Str :=
  [if headerOnly then b!"This is the header of the message that was bounced:" ++ [13, 13]
    else b!"This is the message that was bounced:" ++ [13, 13]] ++
  (if m.area ≠ [] then
    [b!"Area: " ++ m.area.take 80 ++ [13],
     b!"From: " ++ m.frm.take 40 ++ b!" (" ++ addr4 m.sender ++ b!")" ++ [13],
     b!"  To: " ++ m.to.take 40 ++ [13]]
  else
    [b!"From: " ++ m.frm.take 40 ++ b!" (" ++ addr4 m.sender ++ b!")" ++ [13],
     b!"  To: " ++ m.to.take 40 ++ b!" (" ++ addr4 m.dest ++ b!")" ++ [13]]) ++
  [b!"Subj: " ++ m.subject ++ [13], b!"Date: " ++ m.date ++ [13, 13]]

/-- `Bounce` (`handle.c` 845-981). `strncpy(buf,reason,390)` leaves `buf` unterminated for long
reasons. -/
def bounce (env : Env) (self : MemMsg → M Unit) (m : MemMsg) (reason : Str) (headerOnly : Bool) :
    M Unit := do
  if m.has MMFLAG_AUTOGEN then pure ()
  else
    let s ← M.get
    match s.cfg.findRoute m.sender with
    | none => pure ()
    | some r =>
      let t ← newNetmail env m.sender r.aka m.frm b!"Bounced message" FLAG_PVT MMFLAG_AUTOGEN
      if 390 ≤ reason.length then M.ub .uninit
      else
        let t ← mmAddLines t ((reason ++ [13, 13]) :: bounceHead m headerOnly)
        if headerOnly then self t
        else
          let cs ← addBufs t.text (m.text.map fun c => c.map fun b => if b = 1 then 64 else b)
          self { t with text := cs }

/-- `AnswerReceipt` (`handle.c` 983-1037). Line 1015 sets the AUTOGEN flag of the *answered* message;
nothing looks at it afterwards (`handle.c` 1304-1309 is the end of `HandleNetmail`). -/
def answerReceipt (env : Env) (self : MemMsg → M Unit) (m : MemMsg) : M Unit := do
  let s ← M.get
  match s.cfg.findRoute m.orig with
  | none => pure ()
  | some r =>
    let t ← newNetmail env m.orig r.aka m.frm b!"Receipt" (FLAG_PVT ||| FLAG_IRRR) 0
    let t ← mmAddLines t [b!"Your message to " ++ m.to ++ b!" dated " ++ m.date ++
      b!" with the subject \"" ++ m.subject ++ b!"\" has reached its final destination. This message doesn't mean that the message has been read, it just tells you that it has arrived at this system." ++ [13, 13]]
    self t

/-- `AnswerAudit` (`handle.c` 1039-1113). -/
def answerAudit (env : Env) (self : MemMsg → M Unit) (m : MemMsg) : M Unit := do
  let s ← M.get
  match s.cfg.findRoute m.orig with
  | none => pure ()
  | some r =>
    let t ← newNetmail env m.orig r.aka m.frm b!"Audit" FLAG_PVT MMFLAG_AUTOGEN
    let line := match s.cfg.findRoute m.dest with
      | some d => b!"Your message to " ++ m.to ++ b!" dated " ++ m.date ++ b!" with the subject \"" ++
          m.subject ++ b!"\" has just been routed to " ++ addr4 (expandNodePat s.cfg.nl d.destPat m.dest) ++
          b!" by this system." ++ [13, 13]
      | none => b!"Your message to " ++ m.to ++ b!" dated " ++ m.date ++ b!" with the subject \"" ++
          m.subject ++ b!"\" could not be routed since no routing for " ++ addr4 m.dest ++
          b!" was configured at this system. Message lost! " ++ [13, 13]
    let t ← mmAddLines t [line]
    self t

/-! ## Commands of filters -/

/-- The lines of a chunk: up to and including each CR (`filter.c` 786-787, 901-902, `handle.c`
787-788). The byte behind an unterminated last line is read: uninitialised memory. -/
def chunkLines : Nat → Str → Except UB (List Str)
  | 0, _ => .ok []
  | f + 1, s =>
    if s = [] then .ok []
    else
      let l := s.takeWhile (· != 13)
      if l.length = s.length then .error .uninit
      else (chunkLines f (s.drop (l.length + 1))).map ((l ++ [13]) :: ·)

/-- The lines of all chunks. -/
def allLines (cs : List Str) : Except UB (List (List Str)) := cs.mapM fun c => chunkLines (c.length + 1) c

/-- The import of `Filter_Copy` (`filter.c` 566-576) with the text `cs`. -/
def copyInto (env : Env) (i : Nat) (m : MemMsg) (cs : List Str) : M MemMsg := fun s =>
  match importMsg env i { m with text := cs } s with
  | .ok _ s => .ok m s
  | .fail s => .ok { m with text := cs } s
  | .ub u => .ub u
  | .stuck => .stuck

/-- `Filter_Copy` (`filter.c` 537-577), with the result of `importfunc` ignored by its caller
(1020-1022): a failed import leaves the copied text in place. -/
def filterCopy (env : Env) (m : MemMsg) (tag : Str) : M MemMsg := do
  let s ← M.get
  match s.cfg.findArea tag with
  | none => pure m
  | some i =>
    let cs ← addBufs [] ((if m.area = [] then [] else [b!"AREA:" ++ m.area ++ [13]]) ++ m.text)
    if (s.cfg.areas[i]?.bind (·.base)).isSome then
      copyInto env i m cs
    else M.ub .nullDeref

/-- `strstr(cmd,"%x")`. -/
def hasPct (x : UInt8) : Str → Bool
  | a :: b :: r => (a = 37 && b = x) || hasPct x (b :: r)
  | _ => false

/-- `Filter_Execute` (`filter.c` 616-688). The files written for the command are not modelled. -/
def filterExecute (env : Env) (m : MemMsg) (cmd : Str) : M MemMsg := do
  let s ← M.get
  let x := m.xargs (if hasPct 114 cmd then env.tmpnam s.log 0 else [])
    (if hasPct 82 cmd then env.tmpnam s.log 1 else []) (if hasPct 109 cmd then env.tmpnam s.log 2 else [])
  let line ← M.lift (expandFilter cmd x)
  let rc := env.exec s.log line
  M.emit (.execute line)
  if rc = 0 then pure { m with flags := m.flags ||| MMFLAG_KILL }
  else if 20 ≤ rc then M.fail
  else pure m

/-- `Filter_WriteLog` (`filter.c` 586-614). -/
def filterWriteLog (m : MemMsg) (cmd : Str) : M MemMsg := do
  let line ← M.lift (expandFilter cmd (m.xargs [] [] []))
  M.emit (.log line)
  pure m

/-- `Filter_Bounce` (`filter.c` 690-718). -/
def filterBounce (env : Env) (self : MemMsg → M Unit) (m : MemMsg) (reason : Str) (headerOnly : Bool) :
    M MemMsg := do
  let line ← M.lift (expandFilter reason (m.xargs [] [] []))
  bounce env self m line headerOnly
  pure m

/-- The kludges REMAPMSG and MASQUERADE replace (`filter.c` 791-796, 936-942). -/
def isAddrKludge (l : Str) : Bool :=
  l.length > 5 && (startsWith l (1 :: b!"INTL") || startsWith l (1 :: b!"FMPT") || startsWith l (1 :: b!"TOPT"))

/-- A name of at most 35 bytes is copied to a `char[36]` (`filter.c` 742-743, 849-850). -/
def newName (old pat : Str) : Except UB Str :=
  if pat = b!"*" then .ok old else if pat.length < 36 then .ok pat else .error .oobWrite

/-- `Filter_Remap` (`filter.c` 720-833). The line written at 805 goes to a `char[100]`; the line at
818 ends with the letter `d` instead of a CR. -/
def filterRemap (m : MemMsg) (name : Str) (dest : Pat4) : M MemMsg := do
  if m.area ≠ [] then pure m
  else
    let s ← M.get
    let d := expandNodePat s.cfg.nl dest m.dest
    let to ← M.lift (newName m.to name)
    let my := match s.cfg.findRoute d with
      | some r => r.aka
      | none => ⟨0, 0, 0, 0⟩
    let n := { m with
      text := []
      dest := d
      to := to }
    let n ← M.liftO (makeNetmailKludges (s.cfg.has CFG_FORCEINTL) n)
    let ls ← M.lift (allLines m.text)
    let cs ← addBufs n.text (ls.flatten.filter fun l => !isAddrKludge l)
    let line := 1 :: b!"Remapped to " ++ to ++ b!" at " ++ addr4 d ++ b!" by " ++ addr4 my ++ [13]
    if 100 ≤ line.length then M.ub .oobWrite
    else mmAddLines { n with text := cs } [line, 1 :: b!"Message originally to " ++ m.to ++ b!" at " ++ addr4 m.dest ++ b!"d"]

/-- MSGID and REPLY with a new address (`filter.c` 863-887): the new field and the kludge line, cut to
79 bytes. -/
def newSerial (kludge : Str) (o : Node4D) (old : Str) : Str × List Str :=
  if old.contains 32 then
    let v := (addr4 o ++ b!" " ++ (old.dropWhile (· != 32)).drop 1).take 79
    (v, [(1 :: kludge ++ b!": " ++ v ++ [13]).take 79])
  else (old, [])

/-- What MASQUERADE writes for one line (`filter.c` 904-950); `next` is the first byte of the following
line in the chunk, which `memchr` at 916 also looks at. -/
def masqLine (netmail : Bool) (o : Node4D) (l : Str) (next : Option UInt8) : Except UB (List Str) :=
  let skip2 := (l.length > 5 && isAddrKludge l) || (l.length > 4 && startsWith l (1 :: b!"Via"))
  let plain (skip : Bool) : List Str := if skip then [] else [l]
  if l[1]? = some 42 ∧ l.length > 9 then
    if startsWith l b!" * Origin" ∧ (l.drop 9).contains 40 then
      let pre := l.take 9 ++ (l.drop 9).takeWhile (· != 40) ++ [40]
      let rest := l.drop pre.length
      if rest.contains 41 then .ok ([pre, addr4 o, rest.dropWhile (· != 41)])
      else match next with
        | none => .error .uninit
        | some c => if c = 41 then .ok [pre, addr4 o] else .ok (plain skip2)
    else .ok (plain skip2)
  else
    let skip1 := l.length > 6 && (startsWith l (1 :: b!"MSGID") || (netmail && startsWith l (1 :: b!"REPLY")))
    .ok (plain (skip1 || skip2))

/-- All lines of a chunk. -/
def masqLines (netmail : Bool) (o : Node4D) : List Str → Except UB (List Str)
  | [] => .ok []
  | l :: ls => do
    let a ← masqLine netmail o l (ls.head?.bind List.head?)
    let b ← masqLines netmail o ls
    .ok (a ++ b)

/-- `Filter_Masquerade` (`filter.c` 835-974). -/
def filterMasquerade (m : MemMsg) (name : Str) (dest : Pat4) : M MemMsg := do
  let s ← M.get
  let o := expandNodePat s.cfg.nl dest m.orig
  let frm ← M.lift (newName m.frm name)
  let (msgid, l1) := newSerial b!"MSGID" o m.msgid
  let (reply, l2) := if m.area = [] then newSerial b!"REPLY" o m.reply else (m.reply, [])
  let cs ← addBufs [] (l1 ++ l2)
  let n := { m with
    frm := frm
    msgid := msgid
    reply := reply
    orig := o
    text := cs }
  let n ← (if m.area = [] then M.liftO (makeNetmailKludges (s.cfg.has CFG_FORCEINTL) n)
    else pure { n with origin4D := o })
  let ls ← M.lift (allLines m.text)
  let out ← M.lift (ls.mapM (masqLines (m.area == []) o))
  let cs ← addBufs n.text out.flatten
  let path ← M.liftO (.ok (addNodePath [] o.boss))
  pure { n with
    text := cs
    seenBy := mmAddNodes2D [] (o.net, o.node)
    path := path }

/-- One command (`filter.c` 1010-1064). -/
def runCommand (env : Env) (self : MemMsg → M Unit) (m : MemMsg) : Command → M MemMsg
  | .kill => pure { m with flags := m.flags ||| MMFLAG_KILL }
  | .twit => pure { m with flags := m.flags ||| MMFLAG_TWIT }
  | .copy tag => filterCopy env m tag
  | .execute cmd => filterExecute env m cmd
  | .writeLog s => filterWriteLog m s
  | .writeBad s => do
    writeBad env m s
    pure m
  | .bounce h s => filterBounce env self m s h
  | .remap name dest => filterRemap m name dest
  | .masquerade name dest => filterMasquerade m name dest

/-- The commands of a matching filter (`filter.c` 1008-1068); `true` if the message was killed. -/
def runCommands (env : Env) (self : MemMsg → M Unit) : MemMsg → List Command → M (MemMsg × Bool)
  | m, [] => pure (m, false)
  | m, c :: cs => do
    let m ← runCommand env self m c
    if m.has MMFLAG_KILL then pure (m, true) else runCommands env self m cs

/-- The loop of `Filter` (`filter.c` 984-1070). A filter that cannot be evaluated ends the loop. -/
def runFilters (env : Env) (self : MemMsg → M Unit) : MemMsg → List Filter → M MemMsg
  | m, [] => pure m
  | m, f :: fs => do
    let s ← M.get
    let v ← M.lift (evalExpr (evalFunc s.cfg m) f.text)
    match v with
    | none => pure m
    | some false => runFilters env self m fs
    | some true => do
      let (m, killed) ← runCommands env self m f.commands
      if killed then pure m else runFilters env self m fs

/-- `Filter` (`filter.c` 976-1073). -/
def filterMsg (env : Env) (self : MemMsg → M Unit) (m : MemMsg) : M MemMsg := do
  let s ← M.get
  runFilters env self m s.cfg.filters

/-- `CheckFilter` (`filter.c` 1075-1124): the check of a filter when the configuration is read, with an
empty message. The error text is not modelled. -/
def checkFilter (cfg : Config) (text : Str) : Except UB Bool :=
  (evalExpr (evalFunc cfg {}) text).map fun r => r.isSome || decide (200 < text.length)

/-! ## Auto-add -/

/-- `AddTossNode` (`handle.c` 75-95). -/
def addTossNode (ts : List TossNode) (node : Nat) (flags : UInt16) : List TossNode :=
  if ts.any (·.node == node) then ts else ts ++ [⟨node, flags⟩]

/-- Characters replaced in file names (`handle.c` 205, 210-212); `char` is signed. -/
def pathChar (c : UInt8) : UInt8 :=
  if c < 33 || c > 126 || (b!"\"#'`()*,./:;<>|").contains c then 95 else c

/-- `MakeDirectory` (`handle.c` 99-145); `serial` is the eight digit number. -/
def makeDirLoop (size : Nat) (name serial : Str) : Str → Str → Str
  | acc, [] => acc
  | acc, c :: r =>
    if acc.length = size - 1 then acc
    else if c = 37 ∧ r.head?.map (· ||| 32) = some 97 then
      match r with
      | [] => acc
      | _ :: r => makeDirLoop size name serial (acc ++ name.take (size - 1 - acc.length)) r
    else if c = 37 ∧ r.head?.map (· ||| 32) = some 108 then
      match r with
      | [] => acc
      | _ :: r => makeDirLoop size name serial (acc ++ (name.map lower).take (size - 1 - acc.length)) r
    else if c = 37 ∧ r.head?.map (· ||| 32) = some 56 then
      match r with
      | [] => acc
      | _ :: r => makeDirLoop size name serial (acc ++ serial.take (size - 1 - acc.length)) r
    else makeDirLoop size name serial (acc ++ [c]) r

/-- `MatchFlags` (`misc.c` 317-328); the same loop as `CheckFlags`. -/
def matchFlags (group : UInt8) (s : Str) : M Bool := M.liftO (.ok (checkFlags group s))

/-- The first default area of a group (`handle.c` 183-190). -/
def findGroupDefault (group : UInt8) : List Area → M (Option Area)
  | [] => pure none
  | a :: as => do
    if eqin a.tag b!"DEFAULT_" 8 then
      if ← matchFlags group (mystrncpy (a.tag.drop 8) 50) then pure (some a) else findGroupDefault group as
    else findGroupDefault group as

/-- The default area for a node (`handle.c` 173-199). -/
def findDefault (areas : List Area) (cn : Option ConfigNode) : M (Option Area) := do
  let d ← (match cn with
    | some n => if n.defaultGroup ≠ 0 then findGroupDefault n.defaultGroup areas else pure none
    | none => pure none)
  match d with
  | some a => pure (some a)
  | none => pure (areas.find? fun a => eqi a.tag b!"DEFAULT")

/-- Links added for the group (`handle.c` 259-270). -/
def addGroupLinks (group : UInt8) (defRO : Bool) : List TossNode → Nat → List ConfigNode → M (List TossNode)
  | ts, _, [] => pure ts
  | ts, i, n :: ns => do
    if ← matchFlags group n.addGroups then
      let ro ← (if defRO then pure true else matchFlags group n.readOnlyGroups)
      addGroupLinks group defRO (addTossNode ts i (if ro then TOSSNODE_READONLY else 0)) (i + 1) ns
    else addGroupLinks group defRO ts (i + 1) ns

def AREALIST_DESC : UInt16 := 1

/-- The bytes of a line. -/
def notEol (c : UInt8) : Bool := c != 13 && c != 10

/-- The tag in a line of a list of areas (`areafix.c` 1010, 1633; `handle.c` 40). -/
def fileTag (l : Str) : Str := l.takeWhile fun c => !below33 c

/-- The description in a line of a list of areas (`areafix.c` 1012-1025, `handle.c` 48-57). -/
def fileDesc (l : Str) : Str :=
  ((((l.drop (fileTag l).length).drop 1).dropWhile below33).takeWhile notEol).take 77

/-- `GetDescription` (`handle.c` 25-73): the first description for a tag in the lists of a node. If there is something behind
the blanks, the description is not empty. A file that cannot be opened is left out. -/
def getDescription (env : Env) (log : List Effect) (tag : Str) : Option Nat → List Arealist → Option Str
  | none, _ => none
  | some _, [] => none
  | some ci, al :: als =>
    match (if al.node = ci ∧ al.flags &&& AREALIST_DESC ≠ 0 then
        ((env.areaFile log al.file).getD []).find? fun l => eqi (fileTag l) tag && fileDesc l != []
      else none) with
    | some l => some (fileDesc l)
    | none => getDescription env log tag (some ci) als

/-- The new area before links are added (`handle.c` 153-252), given the default area found, its AKA
and the index of the node it is created for. -/
def newArea (env : Env) (s : HSt) (name : Str) (aka ci : Option Nat) (active passthru : Bool)
    (d : Option Area) : Area :=
  let a : Area := match d with
    | none => {}
    | some d =>
      { path := makeDirLoop 80 (name.map pathChar) (env.serial s.log) [] d.path
        base := if passthru then none else d.base
        description := d.description
        flags := d.flags &&& (AREA_MANDATORY ||| AREA_DEFREADONLY ||| AREA_IGNOREDUPES ||| AREA_IGNORESEENBY)
        keepDays := d.keepDays
        keepNum := d.keepNum
        tossNodes := d.tossNodes.foldl (fun ts t => addTossNode ts t.node t.flags) [] }
  { a with
    description := (getDescription env s.log name ci s.cfg.arealists).getD a.description
    flags := if active then a.flags else AREA_UNCONFIRMED
    tag := name
    aka := aka
    type := .echomail
    changed := true }

/-- The links of a new area (`handle.c` 254-271). -/
def linkArea (cfg : Config) (a : Area) : Option Nat → M Area
  | some i => match cfg.nodes[i]? with
    | some n => do
      let ts ← addGroupLinks n.defaultGroup (a.has AREA_DEFREADONLY)
        (addTossNode a.tossNodes i TOSSNODE_FEED) 0 cfg.nodes
      pure { a with
        group := n.defaultGroup
        tossNodes := ts }
    | none => pure a
  | none => pure a

/-- The AKA of a new area (`handle.c` 164-168): the one addressed, else the first one. -/
def areaAka (cfg : Config) (mynode : Node4D) : Option Nat :=
  match cfg.akas.findIdx? fun a => compare4D a.node mynode == 0 with
  | some i => some i
  | none => if cfg.akas = [] then none else some 0

/-- `AddArea` (`handle.c` 147-277); the new area is the last one. `area.Tagname` holds 79 bytes, as
does `mm->Area`. -/
def addArea (env : Env) (name : Str) (node mynode : Node4D) (active passthru : Bool) : M Nat := do
  let s ← M.get
  let ci := s.cfg.nodes.findIdx? fun n => compare4D n.node node == 0
  let d ← findDefault s.cfg.areas (ci.bind (s.cfg.nodes[·]?))
  let a ← linkArea s.cfg (newArea env s name (areaAka s.cfg mynode) ci active passthru d) ci
  M.set { s with cfg := { s.cfg with
    areas := s.cfg.areas ++ [a]
    changed := true } }
  pure s.cfg.areas.length

end CM
