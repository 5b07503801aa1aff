import Verif.Model.Filter
/-!
# Message handling (`crashmail/handle.c` 1-21, 495-1739)

`AreaFix` is the argument `af`; it is given the function that handles a generated message. The
recursion between `HandleMessage` and the functions that generate messages is cut by fuel
(`handleMessage`).
-/

namespace CM

/-! ## Echomail -/

/-- Skip a prefix and one blank (`handle.c` 501-502, 506-507, 511-512). -/
def skipRe (n : Nat) (s : Str) : Str :=
  let r := s.drop n
  if r.head? = some 32 then r.tail else r

/-- `StripRe` (`handle.c` 495-517). `str[4]` and `str[5]` may lie behind the terminating NUL of the
subject field, where the bytes are zero (`mmAlloc` clears the message). -/
def stripReLoop : Nat → Str → Str
  | 0, s => s
  | f + 1, s =>
    if eqin s b!"Re:" 3 then stripReLoop f (skipRe 3 s)
    else if eqin s b!"Re^" 3 ∧ s[4]? = some 58 then stripReLoop f (skipRe 5 s)
    else if eqin s b!"Re[" 3 ∧ s[4]? = some 93 ∧ s[5]? = some 58 then stripReLoop f (skipRe 6 s)
    else s

def stripRe (s : Str) : Str := stripReLoop (s.length + 1) s

/-- `StripRe` on the subject, if configured. -/
def stripSubject (cfg : Config) (m : MemMsg) : MemMsg :=
  if cfg.has CFG_STRIPRE then { m with subject := stripRe m.subject } else m

/-- A link of an area: the toss node with its node record. -/
structure Link where
  idx : Nat
  node : ConfigNode
  flags : UInt16

/-- `link->Flags & mask`. -/
def Link.has (l : Link) (mask : UInt16) : Bool := l.flags &&& mask != 0

/-- Follow the node pointers of an area; `none` if one of them does not point to a node. -/
def resolveLinks (nodes : List ConfigNode) : List TossNode → Option (List Link)
  | [] => some []
  | t :: ts =>
    match nodes[t.node]?, resolveLinks nodes ts with
    | some n, some ls => some (⟨t.node, n, t.flags⟩ :: ls)
    | _, _ => none

/-- The permission check (`handle.c` 573-611): the reason for refusing the message. -/
def denied (m : MemMsg) (ls : List Link) : Option Str :=
  if m.has MMFLAG_EXPORTED || m.has MMFLAG_NOSECURITY then none
  else match ls.find? fun l => compare4D l.node.node m.pktOrig == 0 with
    | none => some b!"Node does not receive this area"
    | some l => if l.has TOSSNODE_READONLY then some b!"Node is not allowed to write in this area" else none

/-- SEEN-BY of another zone is dropped (`handle.c` 615-616). -/
def zoneSeenBy (aka : Node4D) (m : MemMsg) : List (List N2) :=
  if aka.zone ≠ m.pktOrig.zone then [] else m.seenBy

/-- Is this a node of the address' zone, without a point number? -/
def inZone (aka : Node4D) (l : Link) : Bool := l.node.node.zone == aka.zone && l.node.node.point == 0

/-- The `IsInSeenBy` marks (`handle.c` 620-631). -/
def markSeen (cfg : Config) (a : Area) (aka : Node4D) (ls : List Link) (sb : List (List N2))
    (seen : Nat → Bool) : Nat → Bool :=
  if cfg.has CFG_CHECKSEENBY && !a.has AREA_IGNORESEENBY then fun k =>
    match ls.find? (·.idx == k) with
    | some l => inZone aka l && findNodes2D sb l.node.node
    | none => seen k
  else seen

/-- Links that get copies at all (`handle.c` 637-638, 716-718). -/
def Link.active (l : Link) : Bool := !l.node.has NODE_PASSIVE && !l.has TOSSNODE_WRITEONLY

/-- The new SEEN-BY list (`handle.c` 635-660). -/
def newSeenBy (aka : Aka) (ls : List Link) (sb : List (List N2)) : List (List N2) :=
  let sb := (ls.filter fun l => inZone aka.node l && l.active).foldl
    (fun sb l => mmAddNodes2D sb (l.node.node.net, l.node.node.node)) sb
  let sb := aka.remList.foldl mmRemNodes2DPat sb
  let sb := aka.addList.foldl (fun sb n => mmAddNodes2D sb (n.net, n.node)) sb
  if aka.node.point = 0 then mmAddNodes2D sb (aka.node.net, aka.node.node) else sb

/-- The fields `WriteEchoMail` sets before it writes the message (`pkt.c` 789-796, 820-821). -/
def outMsg (aka : Node4D) (m : MemMsg) (node : ConfigNode) : MemMsg :=
  { m with
    type := PKTS_ECHOMAIL
    dest := node.node
    orig := fromAddr (some node) aka }

/-- `WriteEchoMail` (`pkt.c` 781-901) as an effect; the message with the changes it makes. -/
def sendEcho (env : Env) (aka : Node4D) (m : MemMsg) (l : Link) : M MemMsg := fun s =>
  match echoSeenBy m l.node aka, mmSortNodes2D m.seenBy with
  | .ok _, .ok sb =>
    if env.echoOk s.log l.idx (outMsg aka m l.node) then
      let sorted := !(l.node.node.zone != aka.zone || l.node.has NODE_TINYSEENBY) && !l.node.has NODE_NOSEENBY
      .ok { outMsg aka m l.node with seenBy := if sorted then sb else m.seenBy }
        { s with log := s.log ++ [.echo l.idx aka (outMsg aka m l.node)] }
    else .fail s
  | .error u, _ => .ub u
  | _, .error u => .ub u

/-- The conditions for sending to a link (`handle.c` 714-720). -/
def wants (cfg : Config) (seen : Nat → Bool) (m : MemMsg) (l : Link) : Bool :=
  compare4D m.pktOrig l.node.node != 0 && l.active && !(seen l.idx && cfg.has CFG_CHECKSEENBY)

/-- Write to all nodes (`handle.c` 712-724). -/
def sendAll (env : Env) (aka : Node4D) : MemMsg → List Link → M MemMsg
  | m, [] => pure m
  | m, l :: ls => do
    let s ← M.get
    if wants s.cfg s.seen m l then
      let m ← sendEcho env aka m l
      sendAll env aka m ls
    else sendAll env aka m ls

/-- Set SENT and clear LOCAL (`handle.c` 741-742, 1291-1292). -/
def markSent (m : MemMsg) : MemMsg := { m with attr := (m.attr ||| FLAG_SENT) &&& ~~~FLAG_LOCAL }

/-- The end of `HandleEchomail` (`handle.c` 699-748): filter, export, import. -/
def deliverEcho (env : Env) (self : MemMsg → M Unit) (i : Nat) (a : Area) (aka : Node4D) (ls : List Link)
    (m : MemMsg) : M Unit := do
  let m ← filterMsg env self m
  if m.has MMFLAG_KILL then pure ()
  else
    let m ← (if m.has MMFLAG_RESCANNED then pure m else sendAll env aka m ls)
    if m.has MMFLAG_TWIT then pure ()
    else if !m.has MMFLAG_EXPORTED && a.base.isSome then do
      let s ← M.get
      importMsg env i (markSent (stripSubject s.cfg m))
    else pure ()

/-- `CheckDupe(mm)` on the state (`handle.c` 672-674). -/
def dupeCheck (a : Area) (m : MemMsg) : M Bool := do
  let s ← M.get
  if s.cfg.dupeMode ≠ 0 && m.has MMFLAG_TOSSED && !a.has AREA_IGNOREDUPES then
    let r ← M.lift (checkDupe s.cfg.dupeSize s.dupe m.msgid m.area)
    M.set { s with dupe := r.1 }
    pure r.2
  else pure false

/-- `HandleEchomail` after the permission check (`handle.c` 613-748). -/
def tossEcho (env : Env) (self : MemMsg → M Unit) (i : Nat) (a : Area) (aka : Aka) (ls : List Link)
    (m : MemMsg) : M Unit := do
  let s ← M.get
  let sb := zoneSeenBy aka.node m
  M.set { s with seen := markSeen s.cfg a aka.node ls sb s.seen }
  let path ← (if aka.node.point = 0 || s.cfg.has CFG_PATH3D
    then M.liftO (.ok (addNodePath m.path aka.node)) else pure m.path)
  let m := { m with
    seenBy := newSeenBy aka ls sb
    path := path }
  if ← dupeCheck a m then
    if s.cfg.dupeMode = 1 then writeBad env m b!"Duplicate message" else pure ()
  else
    let sb ← M.lift (mmSortNodes2D m.seenBy)
    deliverEcho env self i a aka.node ls { m with seenBy := sb }

/-- Find the area of a message or add it (`handle.c` 529-557). -/
def findOrAddArea (env : Env) (m : MemMsg) : M Nat := do
  let s ← M.get
  match s.cfg.findArea m.area with
  | some i => pure i
  | none =>
    let auto := match findNode s.cfg.nodes m.pktOrig with
      | some n => n.has NODE_AUTOADD
      | none => false
    addArea env m.area m.pktOrig m.pktDest auto false

/-- `HandleEchomail` (`handle.c` 519-749). In an area whose `TossNodes` list holds `ImportNode`
records the node pointers are garbage. -/
def handleEchomail (env : Env) (self : MemMsg → M Unit) (m : MemMsg) : M Unit := do
  let m := { m with type := PKTS_ECHOMAIL }
  let i ← findOrAddArea env m
  let s ← M.get
  match s.cfg.areas[i]? with
  | none => M.ub .nullDeref
  | some a =>
    if a.has AREA_UNCONFIRMED then writeBad env m b!"Unknown area (auto-added but not confirmed)"
    else if a.importNodes ≠ [] then M.ub .nullDeref
    else match resolveLinks s.cfg.nodes a.tossNodes with
      | none => M.ub .nullDeref
      | some ls =>
        match denied m ls with
        | some reason => writeBad env m reason
        | none =>
          match a.aka.bind (s.cfg.akas[·]?) with
          | none => M.ub .nullDeref
          | some aka => tossEcho env self i a aka ls m

/-- `HandleRescan` (`handle.c` 1697-1739) for the node `l`. -/
def handleRescan (env : Env) (l : Link) (m : MemMsg) : M Unit := do
  let s ← M.get
  match (s.cfg.findArea m.area).bind (s.cfg.areas[·]?) with
  | none => M.ub .nullDeref
  | some a =>
    match a.aka.bind (s.cfg.akas[·]?) with
    | none => M.ub .nullDeref
    | some aka => do
      let sb := if aka.node.point = 0 then mmAddNodes2D m.seenBy (aka.node.net, aka.node.node) else m.seenBy
      let sb := if l.node.node.point = 0 then mmAddNodes2D sb (l.node.node.net, l.node.node.node) else sb
      let path ← (if aka.node.point = 0 || s.cfg.has CFG_PATH3D
        then M.liftO (.ok (addNodePath m.path aka.node)) else pure m.path)
      let sb ← M.lift (mmSortNodes2D sb)
      let _ ← sendEcho env aka.node { m with
        seenBy := sb
        path := path } l

/-! ## Netmail -/

/-- `strstr(s,"CrashMail")`. -/
def hasSub (pat : Str) : Str → Bool
  | [] => pat == []
  | c :: r => startsWith (c :: r) pat || hasSub pat r

/-- `CheckFoundAka` (`handle.c` 755-773). -/
def checkFoundAka (cfg : Config) (s : Str) : Bool :=
  s.contains 58 && s.contains 47 &&
  match parse4D s with
  | none => false
  | some n => n.zone != 0 && n.net != 0 && cfg.akas.any fun a => compare4D a.node n == 0

/-- A byte of an address (`handle.c` 813). -/
def addrByte (c : UInt8) : Bool := c == 58 || c == 47 || c == 46 || isDigit c

/-- The scan of a Via line for addresses (`handle.c` 809-832); `cur` is what `destbuf` holds. -/
def viaScan (cfg : Config) (cur : Str) : Str → Bool
  | [] => cur != [] && checkFoundAka cfg cur
  | c :: r =>
    if addrByte c then viaScan cfg (if cur.length < 19 then cur ++ [c] else cur) r
    else (cur != [] && checkFoundAka cfg cur) || viaScan cfg [] r

/-- One line of `IsLoopMail` (`handle.c` 790-834). -/
def isOwnVia (cfg : Config) (l : Str) : Bool :=
  startsWith l (1 :: b!"Via") && hasSub b!"CrashMail" (l.take 150) && viaScan cfg [] (l.take 150)

/-- `IsLoopMail` (`handle.c` 775-840): chunk by chunk, line by line, up to the first hit. -/
def loopLines (cfg : Config) : Nat → Str → Except UB Bool
  | 0, _ => .ok false
  | f + 1, s =>
    if s = [] then .ok false
    else
      let l := s.takeWhile (· != 13)
      if l.length = s.length then .error .uninit
      else if isOwnVia cfg (l ++ [13]) then .ok true
      else loopLines cfg f (s.drop (l.length + 1))

def isLoopMail (cfg : Config) : List Str → Except UB Bool
  | [] => .ok false
  | c :: cs => match loopLines cfg (c.length + 1) c with
    | .error u => .error u
    | .ok true => .ok true
    | .ok false => isLoopMail cfg cs

/-- A line that is not a kludge (`handle.c` 1261-1269): up to the first hit. -/
def textLines : Nat → Str → Except UB Bool
  | 0, _ => .ok false
  | f + 1, s =>
    if s = [] then .ok false
    else
      let l := s.takeWhile (· != 13)
      if l.length = s.length then .error .uninit
      else if s.head? ≠ some 1 then .ok true
      else textLines f (s.drop (l.length + 1))

def hasText : List Str → Except UB Bool
  | [] => .ok false
  | c :: cs => match textLines (c.length + 1) c with
    | .error u => .error u
    | .ok true => .ok true
    | .ok false => hasText cs

/-- The start of `HandleNetmail` (`handle.c` 1158-1174): zones, and a CR at the end when the *first*
chunk does not end with one. -/
def prepNetmail (m : MemMsg) : M MemMsg := do
  let m := { m with
    dest := if m.dest.zone = 0 then { m.dest with zone := m.pktDest.zone } else m.dest
    orig := if m.orig.zone = 0 then { m.orig with zone := m.pktOrig.zone } else m.orig }
  match m.text.head?.bind List.getLast? with
  | none => pure m
  | some c =>
    if c ≠ 13 ∧ c ≠ 0 then do
      let cs ← M.liftO (mmAddBuf m.text [13])
      pure { m with text := cs }
    else pure m

/-- The netmail area of a message (`handle.c` 1209-1238). `Aka` of a netmail area is set by
`ReadConfig`. -/
def netmailArea (cfg : Config) (dest : Node4D) : Option Nat :=
  match cfg.areas.findIdx? fun a => a.type == .netmail &&
      ((match a.aka.bind (cfg.akas[·]?) with
        | some k => compare4D k.node dest == 0
        | none => false) || a.importNodes.any fun n => compare4D n dest == 0) with
  | some i => some i
  | none => if cfg.isAka dest || cfg.has CFG_NOROUTE then cfg.areas.findIdx? (·.type == .netmail) else none

/-- Importing a netmail (`handle.c` 1240-1309). -/
def importNetmail (env : Env) (self : MemMsg → M Unit) (i : Nat) (m : MemMsg) : M Unit := do
  if m.has MMFLAG_TWIT then pure ()
  else
    let s ← M.get
    let m := stripSubject s.cfg m
    let istext ← (if s.cfg.has CFG_IMPORTEMPTYNETMAIL then pure true else M.lift (hasText m.text))
    let m ← (if istext && (s.cfg.areas[i]?.bind (·.base)).isSome then do
        let m := markSent (stripSubject s.cfg m)
        importMsg env i m
        pure m
      else pure m)
    if m.attrHas FLAG_RREQ && s.cfg.has CFG_ANSWERRECEIPT then answerReceipt env self m else pure ()

/-- `PKTS_*` as used by routing. -/
def Pri.toType : Pri → UInt8
  | .normal => PKTS_NORMAL
  | .crash => PKTS_CRASH
  | .direct => PKTS_DIRECT
  | .hold => PKTS_HOLD
  | .echomail => PKTS_ECHOMAIL

/-- Attributes of a message that is sent on (`handle.c` 1314-1317). -/
def routedAttr (m : MemMsg) : UInt16 :=
  let a := m.attr &&& (FLAG_PVT ||| FLAG_CRASH ||| FLAG_FILEATTACH ||| FLAG_HOLD ||| FLAG_RREQ ||| FLAG_IRRR ||| FLAG_AUDIT)
  if m.has MMFLAG_TOSSED then a &&& ~~~(FLAG_CRASH ||| FLAG_HOLD) else a

/-- Priority before routing (`handle.c` 1319-1330). -/
def netmailPri (cfg : Config) (m : MemMsg) : Pri :=
  if m.attrHas FLAG_HOLD then .hold
  else if m.attrHas FLAG_CRASH then .crash
  else if m.attrHas FLAG_FILEATTACH && !cfg.has CFG_NODIRECTATTACH then .direct
  else .normal

/-- The copy of a loop mail for the bad area: only kludges (`handle.c` 1415-1458). -/
def loopCopy (m : MemMsg) : M MemMsg := do
  let ls ← M.lift (allLines m.text)
  let cs ← addBufs [] ((ls.flatten.filter fun l => l.head? == some 1).map fun l => 64 :: l.tail)
  pure { m with
    msgnum := 0
    origin4D := ⟨0, 0, 0, 0⟩
    text := cs
    seenBy := []
    path := [] }

/-- Loop mail (`handle.c` 1394-1468). -/
def checkLoop (env : Env) (m : MemMsg) : M Unit := do
  let s ← M.get
  if s.cfg.loopMode ≠ 0 && !m.has MMFLAG_EXPORTED then
    let l ← M.lift (isLoopMail s.cfg m.text)
    if l && s.cfg.loopMode == 2 then do
      let t ← loopCopy m
      writeBad env t b!"Possible loopmail"
    else pure ()
  else pure ()

/-- The reason for bouncing a message that cannot be sent on (`handle.c` 1470-1585). -/
def bounceReason (cfg : Config) (m : MemMsg) : Option Str :=
  if cfg.nlConfigured && cfg.bounceList.any (fun p => compare4DPat cfg.nl p m.dest) && !cfg.nlCheck m.dest.boss then
    some (b!"Warning! Your message has been bounced because the node " ++ dec m.dest.zone.toNat ++ b!":" ++
      dec m.dest.net.toNat ++ b!"/" ++ dec m.dest.node.toNat ++ b!" doesn't exist in the nodelist.")
  else if cfg.has CFG_BOUNCEPOINTS && cfg.akas.any (fun a => compare4D a.node m.dest.boss == 0 && a.node.point == 0)
      && !cfg.isNode m.dest then
    some (b!"Warning! Your message has been bounced because the point " ++ addr4 m.dest ++ b!" doesn't exist.")
  else if m.attrHas FLAG_FILEATTACH && !m.has MMFLAG_EXPORTED
      && !cfg.fileAttachList.any (fun p => compare4DPat cfg.nl p m.dest) then
    some (b!"Warning! Your message has been bounced because because routing of file-attaches to " ++
      addr4 m.dest ++ b!" is not allowed.")
  else none

/-- The words of the subject of a file attach (`handle.c` 1598). -/
def subjWords : Nat → Str → Option (List Str)
  | 0, _ => none
  | f + 1, s =>
    let t := jbstrcpy 80 s
    if t.2.2 then (subjWords f t.2.1).map (t.1 :: ·) else some []

/-- One file of a file attach (`handle.c` 1603-1635). -/
def attachFile (env : Env) (m : MemMsg) (dest : Node4D) (w : Str) : M Unit := do
  let s ← M.get
  let out := makeFullPath s.cfg.packetDir (getFilePart w) 200
  if m.has MMFLAG_EXPORTED then
    if env.fileExists s.log w then
      if env.copyOk s.log w out then do
        M.emit (.copyFile w out)
        M.emit (.flow out dest m.type true)
      else M.fail
    else M.emit (.flow w dest m.type false)
  else
    let inb := makeFullPath s.cfg.inbound (getFilePart w) 200
    if env.moveOk s.log inb out then do
      M.emit (.moveFile inb out)
      M.emit (.flow out dest m.type true)
    else M.emit (.flow inb dest m.type true)

def attachFiles (env : Env) (m : MemMsg) (dest : Node4D) : List Str → M Unit
  | [] => pure ()
  | w :: ws => do
    attachFile env m dest w
    attachFiles env m dest ws

/-- File attaches (`handle.c` 1587-1636): the message with the file names as its subject. The new
subject is never longer than the old one. -/
def handleAttach (env : Env) (m : MemMsg) (dest : Node4D) : M MemMsg := do
  if m.attrHas FLAG_FILEATTACH then
    let ws ← M.liftO (.ok (subjWords (m.subject.length + 2)
      (m.subject.map fun c => if c = 44 then 32 else if c = 92 then 47 else c)))
    attachFiles env m dest ws
    pure { m with subject := ws.foldl (fun s w => (if s = [] then s else s ++ [32]) ++ getFilePart w) [] }
  else pure m

/-- The Via line (`handle.c` 1642-1651); on Linux, version 1.5.1. -/
def viaLine (aka : Node4D) (time : Str) : Str :=
  1 :: b!"Via " ++ print4D aka ++ b!" @" ++ time ++ b!" CrashMail II/Linux 1.5.1" ++ [13]

/-- `WriteNetMail` (`pkt.c` 903-965) as an effect. -/
def sendNetmail (env : Env) (dest aka : Node4D) (m : MemMsg) : M Unit := fun s =>
  if env.netOk s.log dest m then .ok () { s with log := s.log ++ [.netmail dest aka m] } else .fail s

/-- Sending on a netmail (`handle.c` 1310-1686). -/
def routeOn (env : Env) (self : MemMsg → M Unit) (m : MemMsg) : M Unit := do
  let s ← M.get
  let m := { m with attr := routedAttr m }
  let m := { m with type := (netmailPri s.cfg m).toType }
  match routeNetmail s.cfg.nl s.cfg.routes s.cfg.changes m.dest (netmailPri s.cfg m) with
  | none => writeBad env m b!"No routing for destination node"
  | some (dest, pri, aka) => do
    let m := { m with type := pri.toType }
    checkLoop env m
    match bounceReason s.cfg m with
    | some reason => bounce env self m reason (s.cfg.has CFG_BOUNCEHEADERONLY)
    | none => do
      let m ← handleAttach env m dest
      let s ← M.get
      let m ← M.liftO (mmAddLine m (viaLine aka (env.viaTime s.log)))
      sendNetmail env dest aka m
      if m.attrHas FLAG_AUDIT && s.cfg.has CFG_ANSWERAUDIT && m.has MMFLAG_TOSSED then
        answerAudit env self m
      else pure ()

/-- `HandleNetmail` (`handle.c` 1118-1689). -/
def handleNetmail (env : Env) (af self : MemMsg → M Unit) (m : MemMsg) : M Unit := do
  let m ← prepNetmail m
  let m ← filterMsg env self m
  if m.has MMFLAG_KILL then pure ()
  else
    let s ← M.get
    let toAf := s.cfg.isAka m.dest && !m.has MMFLAG_AUTOGEN && s.cfg.areafixNames.any (fun n => eqi n m.to)
    (if toAf then af m else pure () : M Unit)
    if toAf && !s.cfg.has CFG_IMPORTAREAFIX then pure ()
    else
      let s ← M.get
      match netmailArea s.cfg m.dest with
      | some i => importNetmail env self i m
      | none => routeOn env self m

/-- `HandleMessage` (`handle.c` 7-21); `af` gets the handler for the messages AreaFix sends. -/
def handleMessage (env : Env) (af : (MemMsg → M Unit) → MemMsg → M Unit) : Nat → MemMsg → M Unit
  | 0, _ => M.stuck
  | f + 1, m =>
    if m.area = [] then handleNetmail env (af (handleMessage env af f)) (handleMessage env af f) m
    else handleEchomail env (handleMessage env af f) m

end CM
