import Verif.Model.ConfigFile
import Verif.Model.Areafix
/-! # Reading the configuration file (`ReadConfig`, `crashmail/config.c` 22-1831; `Parse2DPat`,
`crashmail/node4dpat.c` 315-349)

The lines are taken apart with `jbstrcpy` by their first word. The `else if` chain of the program is given
here by groups of words; the words of different groups are different, so the order of the groups does not
matter. `LastAka`, `LastCNode`, `LastArea` and `LastFilter` are always the last elements of their lists,
which are empty at the beginning (`InitConfig`). Memory is available. The text of the error messages is not
modelled; `errorbuf` has 500 bytes (`crashmail.c` 547) and no message is longer than 240. -/

namespace CM

/-- What ends reading: undefined behaviour, or `return(FALSE)` with a message. -/
inductive RdErr where
  | ub (u : UB)
  | invalid
  deriving DecidableEq, Repr

/-- The settings message handling does not use (`config.h` 302-367). -/
structure Settings where
  outbound : Str := []
  tempDir : Str := []
  packetCreate : Str := []
  logFile : Str := []
  statsFile : Str := []
  dupeFile : Str := []
  beforeToss : Str := []
  beforePack : Str := []
  areafixHelp : Str := []
  nodelist : Str := []
  nodelistType : Option Nat := none
  logLevel : UInt32 := 3
  maxPktSize : UInt32 := 0
  maxBundleSize : UInt32 := 0
  defaultZone : UInt32 := 2
  msgFlags : UInt32 := 0
  jamFlags : UInt32 := 0
  jamMaxOpen : UInt32 := 0
  deriving DecidableEq, Repr

/-- What has been read. -/
structure RdSt where
  cfg : Config
  set : Settings := {}

/-! ## Words -/

/-- An argument that must be there (`if(!(jbstrcpy(buf2,cfgbuf,n,&jbcpos)))`): the word and the rest. -/
def rdArg (n : Nat) (s : Str) : Except RdErr (Str × Str) :=
  let t := jbstrcpy n s
  if t.2.2 then .ok (t.1, t.2.1) else .error .invalid

/-- The words `while(jbstrcpy(buf2,cfgbuf,n,&jbcpos))` goes through. Every word takes at least one byte of
the line, so its length is enough for the counter. -/
def wordsLoop (n : Nat) : Nat → Str → List Str
  | 0, _ => []
  | f + 1, s =>
    let t := jbstrcpy n s
    if t.2.2 then t.1 :: wordsLoop n f t.2.1 else []

def rdWords (n : Nat) (s : Str) : List Str := wordsLoop n (s.length + 1) s

/-- `Parse4D` and the message "Invalid node number". -/
def rdNode (s : Str) : Except RdErr Node4D :=
  match parse4D s with
  | some n => .ok n
  | none => .error .invalid

/-- A parser of patterns and the message "Invalid node pattern". -/
def rdPat {α : Type} : Except UB (Option α) → Except RdErr α
  | .error u => .error (.ub u)
  | .ok none => .error .invalid
  | .ok (some p) => .ok p

/-- A word stored in an array of `size` bytes that is smaller than the limit `n` given to `jbstrcpy`. -/
def rdFit (size : Nat) (s : Str) : Except RdErr Str := if s.length < size then .ok s else .error (.ub .oobWrite)

/-- `atoi`: glibc converts the result of `strtol` to `int`. -/
def atoiC (s : Str) : Int := (UInt32.ofInt (atol s)).toInt32.toInt

/-! ## `Parse2DPat` -/

/-- Variables of `Parse2DPat` (`node4dpat.c` 317-319); see `RP` for `temp`. -/
structure P2 where
  pat : Pat2
  temp : Option Str := none
  tempc : Nat := 0
  gotNet : Bool := false

/-- The loop (`node4dpat.c` 327-344). -/
def p2Loop (s : P2) : Str → Except UB (Option P2)
  | [] => .ok (some s)
  | c :: r =>
    if c = 47 then
      if s.gotNet then .ok none
      else match s.temp with
        | none => .error .uninit
        | some t => p2Loop { s with pat := { s.pat with net := t }, gotNet := true, tempc := 0 } r
    else if isPatChar c then
      if s.tempc < 9 then
        p2Loop { s with temp := some ((s.temp.getD []).take s.tempc ++ [c]), tempc := s.tempc + 1 } r
      else p2Loop s r
    else .ok none

/-- `Parse2DPat` (`node4dpat.c` 315-349). -/
def parse2DPat (buf : Str) : Except UB (Option Pat2) :=
  if buf = b!"*" then .ok (some ⟨b!"*", b!"*"⟩)
  else
    match p2Loop { pat := ⟨b!"*", b!"*"⟩ } buf with
    | .error e => .error e
    | .ok none => .ok none
    | .ok (some s) =>
      match s.temp with
      | none => .error .uninit
      | some t => .ok (some { s.pat with node := t })

/-! ## Areas -/

/-- The message base with this name (`config.c` 454-465, `mb.c` 11-42). -/
def baseOf (s : Str) : Option Nat := if eqi s b!"MSG" then some 0 else if eqi s b!"JAM" then some 1 else none

/-- The type of an area (`config.c` 473-512). -/
def rdAreaType (w : Str) (tag path : Str) (base : Option Nat) : Except RdErr AreaType :=
  if eqi w b!"NETMAIL" then if base.isNone then .error .invalid else .ok .netmail
  else if eqi w b!"LOCALAREA" then if base.isNone then .error .invalid else .ok .local
  else if eqi tag b!"BAD" then if path = [] then .error .invalid else .ok .bad
  else if eqi tag b!"DEFAULT" || eqin tag b!"DEFAULT_" 8 then .ok .default
  else .ok .echomail

/-- Message base and path (`config.c` 450-471). -/
def rdBase (s : Str) : Except RdErr (Option Nat × Str) :=
  let t := jbstrcpy 200 s
  if t.2.2 then
    match baseOf t.1 with
    | none => .error .invalid
    | some b => do
      let p ← rdArg 80 t.2.1
      return (some b, p.1)
  else .ok (none, [])

/-- AREA, NETMAIL, LOCALAREA (`config.c` 399-513). -/
def rdArea (akas : List Aka) (w rest : Str) : Except RdErr Area := do
  let tag ← rdArg 80 rest
  let adr ← rdArg 200 tag.2
  let n ← rdNode adr.1
  match akas.findIdx? fun k => compare4D n k.node == 0 with
  | none => .error .invalid
  | some i =>
    let b ← rdBase adr.2
    let ty ← rdAreaType w tag.1 b.2 b.1
    return { tag := tag.1, aka := some i, base := b.1, path := b.2, type := ty }

/-- The marks before an address in an EXPORT line (`config.c` 596-614). -/
def exportMark (s : Str) : UInt16 × Str :=
  let a := if s.head? = some 33 then (TOSSNODE_READONLY, s.tail) else (0, s)
  let b := if a.2.head? = some 64 then (TOSSNODE_WRITEONLY, a.2.tail) else a
  if b.2.head? = some 37 then (TOSSNODE_FEED, b.2.tail) else b

/-- The configured node with this address (`config.c` 626-634 and others). -/
def rdKnown (nodes : List ConfigNode) (n : Node4D) : Except RdErr Nat :=
  match nodes.findIdx? fun c => compare4D n c.node == 0 with
  | none => .error .invalid
  | some i => .ok i

/-- EXPORT (`config.c` 589-645): `tpl` is the previous address without its point. -/
def rdExport (nodes : List ConfigNode) : Node4D → List Str → Except RdErr (List TossNode)
  | _, [] => .ok []
  | tpl, w :: ws =>
    let m := exportMark w
    match parse4DTemplate m.2 tpl with
    | none => .error .invalid
    | some n => do
      let i ← rdKnown nodes n
      let r ← rdExport nodes { n with point := 0 } ws
      return ⟨i, m.1⟩ :: r

/-- BANNED (`config.c` 691-719). -/
def rdBanned (nodes : List ConfigNode) : List Str → Except RdErr (List Nat)
  | [] => .ok []
  | w :: ws => do
    let n ← rdNode w
    let i ← rdKnown nodes n
    let r ← rdBanned nodes ws
    return i :: r

/-- A group letter (`config.c` 754-761 and others): the first byte of a word `CorrectFlags` accepts; the
terminating NUL when the word is empty. -/
def rdGroup (s : Str) : Except RdErr UInt8 :=
  let f := correctFlags s
  if f.2 then .ok (f.1.headD 0) else .error .invalid

/-- The words that describe an area (`config.c` 515-798). -/
def areaCmdWords : List Str :=
  [b!"UNCONFIRMED", b!"MANDATORY", b!"DEFREADONLY", b!"IGNOREDUPES", b!"IGNORESEENBY", b!"EXPORT", b!"IMPORT",
    b!"BANNED", b!"DESCRIPTION", b!"GROUP", b!"KEEPNUM", b!"KEEPDAYS"]

/-- One of these lines, for the area before it. -/
def rdAreaCmd (nodes : List ConfigNode) (w rest : Str) (a : Area) : Except RdErr Area :=
  if eqi w b!"UNCONFIRMED" then .ok { a with flags := a.flags ||| AREA_UNCONFIRMED }
  else if eqi w b!"MANDATORY" then .ok { a with flags := a.flags ||| AREA_MANDATORY }
  else if eqi w b!"DEFREADONLY" then .ok { a with flags := a.flags ||| AREA_DEFREADONLY }
  else if eqi w b!"IGNOREDUPES" then .ok { a with flags := a.flags ||| AREA_IGNOREDUPES }
  else if eqi w b!"IGNORESEENBY" then .ok { a with flags := a.flags ||| AREA_IGNORESEENBY }
  else if eqi w b!"EXPORT" then
    if a.type ≠ .echomail ∧ a.type ≠ .default then .error .invalid
    else do
      let t ← rdExport nodes ⟨0, 0, 0, 0⟩ (rdWords 100 rest)
      return { a with tossNodes := a.tossNodes ++ t }
  else if eqi w b!"IMPORT" then
    if a.type ≠ .netmail then .error .invalid
    else do
      let t ← (rdWords 100 rest).mapM rdNode
      return { a with importNodes := a.importNodes ++ t }
  else if eqi w b!"BANNED" then do
    let t ← rdBanned nodes (rdWords 100 rest)
    return { a with banned := a.banned ++ t }
  else if eqi w b!"DESCRIPTION" then do
    let t ← rdArg 80 rest
    return { a with description := t.1 }
  else if eqi w b!"GROUP" then do
    let t ← rdArg 30 rest
    let g ← rdGroup t.1
    return { a with group := g }
  else if eqi w b!"KEEPNUM" then do
    let t ← rdArg 30 rest
    return { a with keepNum := UInt32.ofInt (atol t.1) }
  else do
    let t ← rdArg 30 rest
    return { a with keepDays := UInt32.ofInt (atol t.1) }

/-! ## Nodes -/

/-- A switch of a NODE line (`config.c` 255-301). -/
def rdSwitch (n : ConfigNode) (w : Str) : Except RdErr ConfigNode :=
  if eqi w b!"NOTIFY" then .ok { n with flags := n.flags ||| NODE_NOTIFY }
  else if eqi w b!"PASSIVE" then .ok { n with flags := n.flags ||| NODE_PASSIVE }
  else if eqi w b!"NOSEENBY" then .ok { n with flags := n.flags ||| NODE_NOSEENBY }
  else if eqi w b!"TINYSEENBY" then .ok { n with flags := n.flags ||| NODE_TINYSEENBY }
  else if eqi w b!"FORWARDREQ" then .ok { n with flags := n.flags ||| NODE_FORWARDREQ }
  else if eqi w b!"PACKNETMAIL" then .ok { n with flags := n.flags ||| NODE_PACKNETMAIL }
  else if eqi w b!"SENDAREAFIX" then .ok { n with flags := n.flags ||| NODE_SENDAREAFIX }
  else if eqi w b!"SENDTEXT" then .ok { n with flags := n.flags ||| NODE_SENDTEXT }
  else if eqi w b!"AUTOADD" then .ok { n with flags := n.flags ||| NODE_AUTOADD }
  else if eqi w b!"NONETMAILPASSWORD" then .ok { n with flags := n.flags ||| NODE_NONETMAILPASSWORD }
  else if eqi w b!"CRASH" then .ok { n with echomailPri := PKTS_CRASH }
  else if eqi w b!"DIRECT" then .ok { n with echomailPri := PKTS_DIRECT }
  else if eqi w b!"HOLD" then .ok { n with echomailPri := PKTS_HOLD }
  else .error .invalid

/-- The packer of a node (`config.c` 228-243). -/
def rdPacker (packers : List Packer) (s : Str) : Except RdErr (Option Nat) :=
  if s = [] then .ok none
  else match packers.findIdx? fun p => eqi s p.name with
    | none => .error .invalid
    | some i => .ok (some i)

/-- NODE (`config.c` 194-302). -/
def rdNodeLine (packers : List Packer) (rest : Str) : Except RdErr ConfigNode := do
  let adr ← rdArg 200 rest
  let n ← rdNode adr.1
  let pk ← rdArg 10 adr.2
  let p ← rdPacker packers pk.1
  let pw ← rdArg 9 pk.2
  (rdWords 200 pw.2).foldlM rdSwitch { node := n, packer := p, packetPW := pw.1 }

/-- A list of groups in an AREAFIXINFO line (`config.c` 344-372). The limit is 70, the arrays have 30
bytes. When there is no word the list is empty. -/
def rdGroups (s : Str) : Except RdErr (Str × Str) :=
  let t := jbstrcpy 70 s
  if t.2.2 then do
    let g ← rdFit 30 t.1
    let f := correctFlags g
    if f.2 then return (f.1, t.2.1) else .error .invalid
  else .ok (t.1, t.2.1)

/-- The words that describe a node (`config.c` 303-398, 1583-1635). -/
def nodeCmdWords : List Str := [b!"PKTFROM", b!"AREAFIXINFO", b!"DEFAULTGROUP", b!"REMOTEAF", b!"REMOTESYSOP"]

/-- The switches of a REMOTEAF line (`config.c` 1606-1617). -/
def rdPlus (n : ConfigNode) (w : Str) : Except RdErr ConfigNode :=
  if eqi w b!"NEEDSPLUS" then .ok { n with flags := n.flags ||| NODE_AFNEEDSPLUS } else .error .invalid

/-- One of these lines, for the node before it. -/
def rdNodeCmd (w rest : Str) (n : ConfigNode) : Except RdErr ConfigNode :=
  if eqi w b!"PKTFROM" then do
    let t ← rdArg 200 rest
    let a ← rdNode t.1
    return { n with flags := n.flags ||| NODE_PKTFROM, pktFrom := a }
  else if eqi w b!"AREAFIXINFO" then do
    let t ← rdArg 40 rest
    let g ← rdGroups t.2
    let r ← rdGroups g.2
    let a ← rdGroups r.2
    return { n with areafixPW := t.1, groups := g.1, readOnlyGroups := r.1, addGroups := a.1 }
  else if eqi w b!"DEFAULTGROUP" then do
    let t ← rdArg 2 rest
    let g ← rdGroup t.1
    return { n with defaultGroup := g }
  else if eqi w b!"REMOTEAF" then do
    let t ← rdArg 36 rest
    let p ← rdArg 72 t.2
    (rdWords 200 p.2).foldlM rdPlus { n with remoteAFName := t.1, remoteAFPw := p.1 }
  else do
    let t ← rdArg 36 rest
    return { n with sysopName := t.1 }

/-! ## Own addresses -/

/-- The words that describe an own address (`config.c` 98-169). -/
def akaCmdWords : List Str := [b!"ADDNODE", b!"REMNODE", b!"DOMAIN"]

/-- One of these lines, for the address before it. `Domain` has 20 bytes, the limit is 200. -/
def rdAkaCmd (w rest : Str) (k : Aka) : Except RdErr Aka :=
  if eqi w b!"ADDNODE" then do
    let t ← (rdWords 100 rest).mapM rdNode
    return { k with addList := k.addList ++ t }
  else if eqi w b!"REMNODE" then do
    let t ← (rdWords 100 rest).mapM fun w => rdPat (parse2DPat w)
    return { k with remList := k.remList ++ t }
  else do
    let t ← rdArg 200 rest
    let d ← rdFit 20 t.1
    return { k with domain := d }

/-- AKA (`config.c` 69-97). -/
def rdAka (rest : Str) : Except RdErr Aka := do
  let t ← rdArg 200 rest
  let n ← rdNode t.1
  return { node := n }

/-! ## Filters -/

/-- The words of filter commands (`config.c` 1406-1582). -/
def filterCmdWords : List Str :=
  [b!"KILL", b!"TWIT", b!"COPY", b!"EXECUTE", b!"WRITELOG", b!"WRITEBAD", b!"BOUNCEMSG", b!"BOUNCEHEADER", b!"REMAPMSG",
    b!"MASQUERADE"]

/-- One of these lines. -/
def rdFilterCmd (w rest : Str) : Except RdErr Command :=
  if eqi w b!"KILL" then .ok .kill
  else if eqi w b!"TWIT" then .ok .twit
  else do
    let t ← rdArg 200 rest
    if eqi w b!"COPY" then return .copy t.1
    else if eqi w b!"EXECUTE" then return .execute t.1
    else if eqi w b!"WRITELOG" then return .writeLog t.1
    else if eqi w b!"WRITEBAD" then return .writeBad t.1
    else if eqi w b!"BOUNCEMSG" then return .bounce false t.1
    else if eqi w b!"BOUNCEHEADER" then return .bounce true t.1
    else do
      let d ← rdArg 200 t.2
      let p ← rdPat (parse4DDestPat d.1)
      if eqi w b!"REMAPMSG" then return .remap t.1 p else return .masquerade t.1 p

/-! ## Other lines -/

/-- The switches of the configuration (`config.c` 1636-1735). -/
def cfgSwitches : List (Str × UInt32) :=
  [(b!"STRIPRE", CFG_STRIPRE), (b!"FORCEINTL", CFG_FORCEINTL), (b!"BOUNCEHEADERONLY", CFG_BOUNCEHEADERONLY),
    (b!"REMOVEWHENFEED", CFG_REMOVEWHENFEED), (b!"INCLUDEFORWARD", CFG_INCLUDEFORWARD),
    (b!"NOMAXOUTBOUNDZONE", CFG_NOMAXOUTBOUNDZONE), (b!"ALLOWKILLSENT", CFG_ALLOWKILLSENT), (b!"FLOWCRLF", CFG_FLOWCRLF),
    (b!"NOEXPORTNETMAIL", CFG_NOEXPORTNETMAIL), (b!"NOROUTE", CFG_NOROUTE), (b!"ANSWERRECEIPT", CFG_ANSWERRECEIPT),
    (b!"ANSWERAUDIT", CFG_ANSWERAUDIT), (b!"CHECKSEENBY", CFG_CHECKSEENBY), (b!"CHECKPKTDEST", CFG_CHECKPKTDEST),
    (b!"PATH3D", CFG_PATH3D), (b!"IMPORTEMPTYNETMAIL", CFG_IMPORTEMPTYNETMAIL), (b!"IMPORTAREAFIX", CFG_IMPORTAREAFIX),
    (b!"AREAFIXREMOVE", CFG_AREAFIXREMOVE), (b!"NODIRECTATTACH", CFG_NODIRECTATTACH), (b!"BOUNCEPOINTS", CFG_BOUNCEPOINTS),
    (b!"IMPORTSEENBY", CFG_IMPORTSEENBY), (b!"WEEKDAYNAMING", CFG_WEEKDAYNAMING), (b!"ADDTID", CFG_ADDTID),
    (b!"ALLOWRESCAN", CFG_ALLOWRESCAN), (b!"FORWARDPASSTHRU", CFG_FORWARDPASSTHRU)]

/-- The switches of the message bases (`config.c` 1783-1805). -/
def msgSwitches : List (Str × UInt32) := [(b!"MSG_HIGHWATER", 2), (b!"MSG_WRITEBACK", 4)]
def jamSwitches : List (Str × UInt32) := [(b!"JAM_HIGHWATER", 1), (b!"JAM_LINK", 2), (b!"JAM_QUICKLINK", 4)]

/-- The switch with this name. -/
def switchOf (l : List (Str × UInt32)) (w : Str) : Option UInt32 := (l.find? fun p => eqi w p.1).map (·.2)

/-- The names of directories, files and commands (`config.c` 860-906, 939-958, 977-985, 1054-1083) with their limits, and where they are
kept. -/
def pathSettings : List (Str × Nat × (RdSt → Str → RdSt)) :=
  [(b!"INBOUND", 100, fun s v => { s with cfg := { s.cfg with inbound := v } }),
    (b!"OUTBOUND", 100, fun s v => { s with set := { s.set with outbound := v } }),
    (b!"SYSOP", 35, fun s v => { s with cfg := { s.cfg with sysop := v } }),
    (b!"BEFORETOSS", 79, fun s v => { s with set := { s.set with beforeToss := v } }),
    (b!"BEFOREPACK", 79, fun s v => { s with set := { s.set with beforePack := v } }),
    (b!"AREAFIXHELP", 100, fun s v => { s with set := { s.set with areafixHelp := v } }),
    (b!"LOGFILE", 100, fun s v => { s with set := { s.set with logFile := v } }),
    (b!"STATSFILE", 100, fun s v => { s with set := { s.set with statsFile := v } }),
    (b!"TEMPDIR", 100, fun s v => { s with set := { s.set with tempDir := v } }),
    (b!"CREATEPKTDIR", 100, fun s v => { s with set := { s.set with packetCreate := v } }),
    (b!"PACKETDIR", 100, fun s v => { s with cfg := { s.cfg with packetDir := v } })]

/-- The flavours of mail (`config.c` 1237-1247, 1286-1296). -/
def flavourOf (s : Str) : Option Pri :=
  if eqi s b!"NORMAL" then some .normal
  else if eqi s b!"CRASH" then some .crash
  else if eqi s b!"HOLD" then some .hold
  else if eqi s b!"DIRECT" then some .direct
  else none

/-- The flavours between commas (`config.c` 1225-1257): the part before the first comma, then the rest. A
comma at the end is ignored. -/
def splitComma : Str → Str → List Str
  | cur, [] => if cur = [] then [] else [cur]
  | cur, c :: r => if c = 44 then cur :: splitComma [] r else splitComma (cur ++ [c]) r

/-- One flavour of a CHANGE line. -/
def rdFlavour (c : Change) (s : Str) : Except RdErr Change :=
  match flavourOf s with
  | some .normal => .ok { c with normal := true }
  | some .crash => .ok { c with crash := true }
  | some .hold => .ok { c with hold := true }
  | some .direct => .ok { c with direct := true }
  | _ => .error .invalid

/-- The flavours of a CHANGE line (`config.c` 1218-1257). -/
def rdFlavours (s : Str) : Except RdErr Change :=
  if s.head? = some 42 then .ok ⟨⟨.pattern, [], [], [], []⟩, true, true, true, true, .normal⟩
  else (splitComma [] s).foldlM rdFlavour ⟨⟨.pattern, [], [], [], []⟩, false, false, false, false, .normal⟩

/-- CHANGE (`config.c` 1198-1304). -/
def rdChange (rest : Str) : Except RdErr Change := do
  let t ← rdArg 200 rest
  let c ← rdFlavours t.1
  let p ← rdArg 200 t.2
  let pat ← rdPat (parse4DPat p.1)
  let d ← rdArg 200 p.2
  match flavourOf d.1 with
  | none => .error .invalid
  | some f => return { c with pattern := pat, destPri := f }

/-- ROUTE (`config.c` 1127-1197). -/
def rdRoute (akas : List Aka) (rest : Str) : Except RdErr Route := do
  let t ← rdArg 200 rest
  let p ← rdPat (parse4DPat t.1)
  let d ← rdArg 200 t.2
  let q ← rdPat (parse4DDestPat d.1)
  let k ← rdArg 200 d.2
  let n ← rdNode k.1
  match akas.find? fun a => compare4D n a.node == 0 with
  | none => .error .invalid
  | some a => return ⟨p, q, a.node⟩

/-- PACKER (`config.c` 1084-1126). -/
def rdPackerLine (rest : Str) : Except RdErr Packer := do
  let n ← rdArg 10 rest
  let p ← rdArg 80 n.2
  let u ← rdArg 80 p.2
  let r ← rdArg 80 u.2
  return ⟨n.1, p.1, u.1, r.1⟩

/-- The switches of an AREALIST line (`config.c` 1347-1383). -/
def rdArealistSw (al : Arealist) : List Str → Except RdErr Arealist
  | [] => .ok al
  | w :: ws =>
    if eqi w b!"FORWARD" then rdArealistSw { al with flags := al.flags ||| AREALIST_FORWARD } ws
    else if eqi w b!"DESC" then rdArealistSw { al with flags := al.flags ||| AREALIST_DESC } ws
    else if eqi w b!"GROUP" then
      match ws with
      | [] => .error .invalid
      | g :: ws =>
        match rdGroup g with
        | .error e => .error e
        | .ok g => rdArealistSw { al with group := g } ws
    else .error .invalid

/-- AREALIST (`config.c` 1305-1384). -/
def rdArealist (nodes : List ConfigNode) (rest : Str) : Except RdErr Arealist := do
  let t ← rdArg 200 rest
  let n ← rdNode t.1
  let i ← rdKnown nodes n
  let f ← rdArg 80 t.2
  rdArealistSw { node := i, file := f.1 } (rdWords 200 f.2)

/-- FILTER (`config.c` 1385-1405). -/
def rdFilter (rest : Str) : Except RdErr Filter :=
  let t := jbstrcpyrest 400 rest
  if t.2.2 then .ok ⟨t.1, []⟩ else .error .invalid

/-- GROUPNAME (`config.c` 170-193): the position in `cfg_GroupNames` and the name. An empty letter is
accepted by `CorrectFlags` and gives the position -65. -/
def rdGroupName (rest : Str) : Except RdErr (Nat × Str) := do
  let t ← rdArg 2 rest
  let g ← rdGroup t.1
  if g = 0 then .error (.ub .oobWrite)
  else
    let n ← rdArg 80 t.2
    return (g.toNat - 65, n.1)

/-- A size in kilobytes (`atoi(buf2)*1024`, `config.c` 1736-1757). -/
def rdSize (rest : Str) : Except RdErr UInt32 := do
  let t ← rdArg 200 rest
  let v := atoiC t.1 * 1024
  if -2147483648 ≤ v ∧ v ≤ 2147483647 then return UInt32.ofInt v else .error (.ub .overflow)

/-- A number (`config.c` 1758-1779, 1806-1816). -/
def rdNum (rest : Str) : Except RdErr UInt32 := do
  let t ← rdArg 200 rest
  return UInt32.ofInt (atoiC t.1)

/-- The nodelist types (`nl.c` 11-40). -/
def nodelistOf (s : Str) : Option Nat := if eqi s b!"CMNL" then some 0 else if eqi s b!"V7+" then some 1 else none

/-- The other lines with arguments; `none`: not one of these words (`config.c` 170-193, 799-859,
907-938, 959-976, 986-1053, 1084-1405, 1736-1779, 1806-1816). -/
def rdOther (s : RdSt) (w rest : Str) : Option (Except RdErr RdSt) :=
  if eqi w b!"GROUPNAME" then some do
    let g ← rdGroupName rest
    return { s with cfg := { s.cfg with groupNames := fun i => if i = g.1 then g.2 else s.cfg.groupNames i } }
  else if eqi w b!"AREAFIXNAME" then some do
    let t ← rdArg 36 rest
    return { s with cfg := { s.cfg with areafixNames := s.cfg.areafixNames ++ [t.1] } }
  else if eqi w b!"FILEATTACH" then some do
    let t ← (rdWords 100 rest).mapM fun w => rdPat (parse4DPat w)
    return { s with cfg := { s.cfg with fileAttachList := s.cfg.fileAttachList ++ t } }
  else if eqi w b!"BOUNCE" then some do
    let t ← (rdWords 100 rest).mapM fun w => rdPat (parse4DPat w)
    return { s with cfg := { s.cfg with bounceList := s.cfg.bounceList ++ t } }
  else if eqi w b!"NODELIST" then some do
    let t ← rdArg 100 rest
    let k ← rdArg 40 t.2
    match nodelistOf k.1 with
    | none => .error .invalid
    | some i => return { s with
        cfg := { s.cfg with nlConfigured := true }
        set := { s.set with nodelist := t.1, nodelistType := some i } }
  else if eqi w b!"LOGLEVEL" then some do
    let t ← rdArg 100 rest
    let v := atoiC t.1
    if v < 1 ∨ 6 < v then .error .invalid else return { s with set := { s.set with logLevel := UInt32.ofInt v } }
  else if eqi w b!"DUPEFILE" then some do
    let t ← rdArg 100 rest
    let k ← rdArg 200 t.2
    return { s with
      cfg := { s.cfg with dupeSize := (UInt32.ofInt (atoiC k.1)).toNat }
      set := { s.set with dupeFile := t.1 } }
  else if eqi w b!"DUPEMODE" then some do
    let t ← rdArg 200 rest
    if eqi t.1 b!"IGNORE" then return { s with cfg := { s.cfg with dupeMode := 0 } }
    else if eqi t.1 b!"KILL" then return { s with cfg := { s.cfg with dupeMode := 2 } }
    else if eqi t.1 b!"BAD" then return { s with cfg := { s.cfg with dupeMode := 1 } }
    else .error .invalid
  else if eqi w b!"LOOPMODE" then some do
    let t ← rdArg 200 rest
    if eqi t.1 b!"IGNORE" then return { s with cfg := { s.cfg with loopMode := 0 } }
    else if eqi t.1 b!"LOG" then return { s with cfg := { s.cfg with loopMode := 1 } }
    else if eqi t.1 b!"LOG+BAD" then return { s with cfg := { s.cfg with loopMode := 2 } }
    else .error .invalid
  else if eqi w b!"PACKER" then some do
    let p ← rdPackerLine rest
    return { s with cfg := { s.cfg with packers := s.cfg.packers ++ [p] } }
  else if eqi w b!"ROUTE" then some do
    let r ← rdRoute s.cfg.akas rest
    return { s with cfg := { s.cfg with routes := s.cfg.routes ++ [r] } }
  else if eqi w b!"CHANGE" then some do
    let c ← rdChange rest
    return { s with cfg := { s.cfg with changes := s.cfg.changes ++ [c] } }
  else if eqi w b!"AREALIST" then some do
    let a ← rdArealist s.cfg.nodes rest
    return { s with cfg := { s.cfg with arealists := s.cfg.arealists ++ [a] } }
  else if eqi w b!"FILTER" then some do
    let f ← rdFilter rest
    return { s with cfg := { s.cfg with filters := s.cfg.filters ++ [f] } }
  else if eqi w b!"MAXPKTSIZE" then some do
    let v ← rdSize rest
    return { s with set := { s.set with maxPktSize := v } }
  else if eqi w b!"MAXBUNDLESIZE" then some do
    let v ← rdSize rest
    return { s with set := { s.set with maxBundleSize := v } }
  else if eqi w b!"DEFAULTZONE" then some do
    let v ← rdNum rest
    return { s with set := { s.set with defaultZone := v } }
  else if eqi w b!"AREAFIXMAXLINES" then some do
    let v ← rdNum rest
    return { s with cfg := { s.cfg with areafixMaxLines := v } }
  else if eqi w b!"JAM_MAXOPEN" then some do
    let v ← rdNum rest
    return { s with set := { s.set with jamMaxOpen := v } }
  else none

/-- Lines that belong neither to an area nor to a node (`config.c` 69-169 and the lines cited above; the
unknown words 1820-1825). -/
def rdRest (s : RdSt) (w rest : Str) : Except RdErr RdSt :=
  if eqi w b!"AKA" then do
    let k ← rdAka rest
    return { s with cfg := { s.cfg with akas := s.cfg.akas ++ [k] } }
  else if akaCmdWords.any (eqi w) then
    match s.cfg.akas.getLast? with
    | none => .error .invalid
    | some k => do
      let k ← rdAkaCmd w rest k
      return { s with cfg := { s.cfg with akas := s.cfg.akas.dropLast ++ [k] } }
  else if filterCmdWords.any (eqi w) then
    match s.cfg.filters.getLast? with
    | none => .error .invalid
    | some f => do
      let c ← rdFilterCmd w rest
      return { s with cfg := { s.cfg with
        filters := s.cfg.filters.dropLast ++ [{ f with commands := f.commands ++ [c] }] } }
  else match switchOf cfgSwitches w with
    | some v => .ok { s with cfg := { s.cfg with flags := s.cfg.flags ||| v } }
    | none =>
      match switchOf msgSwitches w with
      | some v => .ok { s with set := { s.set with msgFlags := s.set.msgFlags ||| v } }
      | none =>
        match switchOf jamSwitches w with
        | some v => .ok { s with set := { s.set with jamFlags := s.set.jamFlags ||| v } }
        | none =>
          match pathSettings.find? fun p => eqi w p.1 with
          | some p => do
            let t ← rdArg p.2.1 rest
            return p.2.2 s t.1
          | none =>
            match rdOther s w rest with
            | some r => r
            | none => if w ≠ [] ∧ w.head? ≠ some 59 then .error .invalid else .ok s

/-- One line (`config.c` 64-1826). -/
def rdLine (s : RdSt) (line : Str) : Except RdErr RdSt :=
  let t := jbstrcpy 30 line
  let w := t.1
  let rest := t.2.1
  if isAreaWord w then do
    let a ← rdArea s.cfg.akas w rest
    return { s with cfg := { s.cfg with areas := s.cfg.areas ++ [a] } }
  else if areaCmdWords.any (eqi w) then
    match s.cfg.areas.getLast? with
    | none => .error .invalid
    | some a => do
      let a ← rdAreaCmd s.cfg.nodes w rest a
      return { s with cfg := { s.cfg with areas := s.cfg.areas.dropLast ++ [a] } }
  else if eqi w b!"NODE" then do
    let n ← rdNodeLine s.cfg.packers rest
    return { s with cfg := { s.cfg with nodes := s.cfg.nodes ++ [n] } }
  else if nodeCmdWords.any (eqi w) then
    match s.cfg.nodes.getLast? with
    | none => .error .invalid
    | some n => do
      let n ← rdNodeCmd w rest n
      return { s with cfg := { s.cfg with nodes := s.cfg.nodes.dropLast ++ [n] } }
  else rdRest s w rest

/-- The loop of `ReadConfig` (`config.c` 62-1826). -/
def rdLines (s : RdSt) (ls : List Str) : Except RdErr RdSt := ls.foldlM rdLine s

/-- `InitConfig` (`config.c` 1954-1976). The nodelist is opened later. -/
def rdInit (nl : Nodelist) (nlCheck : Node4D → Bool) : RdSt :=
  { cfg := { sysop := b!"Sysop", dupeSize := 10000, nl, nlCheck } }

/-- `ReadConfig` on the contents of the file (`config.c` 50-1831). -/
def readConfig (nl : Nodelist) (nlCheck : Node4D → Bool) (file : List UInt8) : Except RdErr RdSt :=
  rdLines (rdInit nl nlCheck) (fileLines 4000 file.length file)

end CM
