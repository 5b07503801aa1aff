import Verif.Model.Handle
import Verif.Model.Sort
/-!
# AreaFix

`crashmail/areafix.c`. The messages AreaFix sends go to `HandleMessage`, the argument `self`.
`ctrlc` and failed memory allocation are looked at in one place only (`areafix.c` 701, `Env.ioerr`).
`strcpy(areaname,&areaname[1])` (lines 329, 334, 341) has overlapping arguments; it is taken to move
the string.
-/

namespace CM

def AREALIST_FORWARD : UInt16 := 2

/-- `%-ns`. -/
def padR (n : Nat) (s : Str) : Str := s ++ List.replicate (n - s.length) 32

/-- `%ns`. -/
def padL (n : Nat) (s : Str) : Str := List.replicate (n - s.length) 32 ++ s

/-! ## Replies -/

/-- `struct afReply` (`areafix.c` 11-17). -/
structure AfReply where
  mm : MemMsg
  subject : Str
  lines : UInt32 := 0
  part : Nat := 1

/-- Run a computation and ignore `FALSE`. -/
def M.attempt (x : M Unit) : M Unit := fun s =>
  match x s with
  | .fail t => .ok () t
  | r => r

/-- `afInitReply` (`areafix.c` 1429-1461). -/
def afInit (env : Env) (frm : Node4D) (toname : Str) (to : Node4D) (subject : Str) : M AfReply := do
  let s ← M.get
  let m ← M.liftO (makeNetmailKludges (s.cfg.has CFG_FORCEINTL)
    { frm := s.cfg.sysop
      orig := frm
      to := toname
      dest := to
      attr := FLAG_PVT
      date := env.fidoDate s.log
      flags := MMFLAG_AUTOGEN })
  pure { mm := m, subject := subject }

/-- The subject of a part (`areafix.c` 1505-1509). -/
def AfReply.title (r : AfReply) : Str :=
  if r.part ≠ 1 then r.subject ++ b!" (part " ++ dec r.part ++ b!")" else r.subject

/-- `afSendMessage` (`areafix.c` 1503-1512). -/
def afSend (self : MemMsg → M Unit) (r : AfReply) : M Unit :=
  M.attempt (self { r.mm with subject := r.title })

/-- The message structure for the next part (`areafix.c` 1480-1487). `HandleMessage` has changed it:
the area stays, and it never sets the attributes RREQ and AUDIT. -/
def afReuse (env : Env) (r : AfReply) (s : HSt) : MemMsg :=
  let m := env.reuse s.log r.mm
  { m with
    area := r.mm.area
    attr := m.attr &&& ~~~(FLAG_RREQ ||| FLAG_AUDIT)
    text := []
    date := env.fidoDate s.log
    flags := m.flags ||| MMFLAG_AUTOGEN }

/-- The end of a full part and the start of the next one (`areafix.c` 1475-1490). -/
def afSplit (env : Env) (self : MemMsg → M Unit) (r : AfReply) : M AfReply := do
  let m ← M.liftO (mmAddLine r.mm (13 :: b!"(Continued in next message)" ++ [13]))
  afSend self { r with mm := m }
  let s ← M.get
  let m ← M.liftO (makeNetmailKludges (s.cfg.has CFG_FORCEINTL) (afReuse env r s))
  let m ← M.liftO (mmAddLine m (b!"(Continued from previous message)" ++ [13, 13]))
  pure { r with
    mm := m
    lines := 2
    part := r.part + 1 }

/-- `afAddLine` (`areafix.c` 1468-1501) with the formatted line; it goes to a `char[200]`. -/
def afAddLine (env : Env) (self : MemMsg → M Unit) (r : AfReply) (line : Str) : M AfReply := do
  let s ← M.get
  let r ← (if s.cfg.areafixMaxLines - 2 ≤ r.lines ∧ s.cfg.areafixMaxLines ≠ 0
    then afSplit env self r else pure r)
  if 199 ≤ line.length then M.ub .oobWrite
  else
    let m ← M.liftO (mmAddLine r.mm (line ++ [13]))
    pure { r with
      mm := m
      lines := r.lines + 1 }

/-- Several lines. -/
def afAddLines (env : Env) (self : MemMsg → M Unit) : AfReply → List Str → M AfReply
  | r, [] => pure r
  | r, l :: ls => do
    let r ← afAddLine env self r l
    afAddLines env self r ls

/-- `AddCommandReply` (`areafix.c` 1058-1069). -/
def cmdReply (cmd reply : Str) : List Str :=
  if cmd.length ≤ 30 then [padR 30 cmd ++ [32] ++ reply] else [cmd, padR 30 [] ++ [32] ++ reply]

def addCommandReply (env : Env) (self : MemMsg → M Unit) (r : AfReply) (cmd reply : Str) : M AfReply :=
  afAddLines env self r (cmdReply cmd reply)

/-! ## Changes of the configuration -/

/-- Change an area and mark the configuration as changed. -/
def modArea (i : Nat) (f : Area → Area) : M Unit := do
  let s ← M.get
  M.set { s with cfg := { s.cfg with
    areas := s.cfg.areas.modify i f
    changed := true } }

/-- Change a node and mark the configuration as changed. -/
def modNode (i : Nat) (f : ConfigNode → ConfigNode) : M Unit := do
  let s ← M.get
  M.set { s with cfg := { s.cfg with
    nodes := s.cfg.nodes.modify i fun n => { f n with changed := true }
    changed := true } }

/-- `RemoteAreafixAdd`, `RemoteAreafixRemove` (`areafix.c` 1515-1549): the list is not part of the
configuration file. -/
def remoteCmd (i : Nat) (f : ConfigNode → Str) : M Unit := do
  let s ← M.get
  M.set { s with cfg := { s.cfg with
    nodes := s.cfg.nodes.modify i fun n => { n with remoteAF := n.remoteAF ++ [(f n).take 70] } } }

def remoteAdd (name : Str) (i : Nat) : M Unit :=
  remoteCmd i fun n => if n.has NODE_AFNEEDSPLUS then b!"+" ++ name.take 78 else name.take 78

def remoteRemove (name : Str) (i : Nat) : M Unit := remoteCmd i fun _ => b!"-" ++ name.take 78

/-- `RemoveDeletedAreas` (`areafix.c` 828-847). -/
def removeDeleted : M Unit := do
  let s ← M.get
  M.set { s with cfg := { s.cfg with
    areas := s.cfg.areas.filter fun a => a.type ≠ .deleted
    changed := s.cfg.changed || s.cfg.areas.any fun a => a.type = .deleted } }

/-- The line that tells the operator of a link (`areafix.c` 812). -/
def removedLine (tag : Str) : Str := b!"The area \"" ++ tag ++ b!"\" has been removed by the uplink." ++ [13]

/-- The message to the AreaFix of a link and to its operator (`areafix.c` 740-824). The line for the operator is written to
`buf[100]`, whatever the length of the tag. -/
def sendRemove1 (env : Env) (self : MemMsg → M Unit) (tag : Str) (aka : Node4D) (t : TossNode) (n : ConfigNode) :
    M Unit := do
  (if n.has NODE_SENDAREAFIX then do
    let m ← newNetmail env n.node aka n.remoteAFName n.remoteAFPw FLAG_PVT MMFLAG_AUTOGEN
    let m ← mmAddLines m [b!"-" ++ tag ++ [13], b!"---" ++ [13] ++ b!"Generated by CrashMail 1.5.1" ++ [13]]
    M.attempt (self m)
  else pure () : M Unit)
  if n.has NODE_SENDTEXT && !t.has TOSSNODE_FEED then
    if 100 ≤ (removedLine tag).length then M.ub .oobWrite else
    let m ← newNetmail env n.node aka n.sysopName b!"Area removed" FLAG_PVT MMFLAG_AUTOGEN
    let m ← mmAddLines m (removedLine tag ::
      if n.has NODE_SENDAREAFIX then [b!"A message has been sent to your AreaFix." ++ [13]] else [])
    M.attempt (self m)
  else pure ()

/-- `SendRemoveMessages` (`areafix.c` 732-826). -/
def sendRemove (env : Env) (self : MemMsg → M Unit) (tag : Str) (aka : Option Node4D) : List TossNode → M Unit
  | [] => pure ()
  | t :: ts => do
    let s ← M.get
    match s.cfg.nodes[t.node]? with
    | none => M.ub .nullDeref
    | some n =>
      (if n.has NODE_SENDAREAFIX || (n.has NODE_SENDTEXT && !t.has TOSSNODE_FEED) then
        match aka with
        | none => M.ub .nullDeref
        | some k => sendRemove1 env self tag k t n
      else pure () : M Unit)
      sendRemove env self tag aka ts

/-! ## Commands for areas -/

/-- `COMMAND_*` (`areafix.c` 33-35). -/
inductive AfCmd where
  | update | add | remove
  deriving DecidableEq, Repr

/-- Variables of the loop over the areas (`areafix.c` 358-360). -/
structure AfLoop where
  r : AfReply
  done : Bool := false
  found : Bool := false
  rescan : Option Nat := none

/-- May the node have areas of this group (`areafix.c` 379, 1171, 1175)? -/
def afAccess (group : UInt8) (n : ConfigNode) : M Bool := do
  if ← matchFlags group n.groups then pure true else matchFlags group n.readOnlyGroups

/-- Is the link read-only (`areafix.c` 400, 430)? -/
def afReadOnly (a : Area) (n : ConfigNode) : M Bool := do
  if a.has AREA_DEFREADONLY then pure true else matchFlags a.group n.readOnlyGroups

/-- The answer for one area: with its tag for a pattern, else as the reply to the command. -/
def afSay (env : Env) (self : MemMsg → M Unit) (r : AfReply) (wild : Bool) (buf long short : Str) : M AfReply :=
  if wild then afAddLine env self r long else addCommandReply env self r buf short

/-- The link of a node. -/
def Area.linkOf (a : Area) (ci : Nat) : Option TossNode := a.tossNodes.find? (·.node == ci)

/-- COMMAND_ADD for one area (`areafix.c` 375-453). -/
def afAdd (env : Env) (self : MemMsg → M Unit) (ci : Nat) (cn : ConfigNode) (buf : Str) (wild : Bool) (i : Nat)
    (a : Area) (L : AfLoop) : M AfLoop := do
  match a.linkOf ci with
  | some _ =>
    let r ← afSay env self L.r wild buf (b!"   You are already attached to " ++ a.tag)
      b!"You are already attached to that area"
    pure { L with
      r := r
      done := true }
  | none =>
    if ← afAccess a.group cn then
      if a.banned.contains ci then
        let r ← afSay env self L.r wild buf (b!"   You have been banned from " ++ a.tag)
          b!"You have been banned from that area"
        pure { L with
          r := r
          done := true }
      else
        let ro ← afReadOnly a cn
        let r ← (if ro
          then afSay env self L.r wild buf (b!"   Attached to " ++ a.tag ++ b!" as read-only") b!"Attached as read-only"
          else afSay env self L.r wild buf (b!"   Attached to " ++ a.tag) b!"Attached")
        modArea i fun a => { a with
          tossNodes := a.tossNodes ++ [⟨ci, if ro then TOSSNODE_READONLY else 0⟩]
          changed := true }
        pure { L with
          r := r
          done := true
          rescan := some i }
    else if wild then pure L
    else
      let r ← addCommandReply env self L.r buf b!"You don't have access to that area"
      pure { L with r := r }

/-- The links left are nobody or one feed (`areafix.c` 505-507). -/
def lonely : List TossNode → Bool
  | [] => true
  | [t] => t.has TOSSNODE_FEED
  | _ => false

/-- What happens to the area after a link has been removed (`areafix.c` 496-524). -/
def afAfterRemove (env : Env) (self : MemMsg → M Unit) (i : Nat) (a : Area) (ts : List TossNode) (wasfeed : Bool) :
    M Unit := do
  let s ← M.get
  if wasfeed && s.cfg.has CFG_REMOVEWHENFEED then
    sendRemove env self a.tag ((a.aka.bind (s.cfg.akas[·]?)).map (·.node)) ts
    modArea i fun a => { a with type := .deleted }
  else if s.cfg.has CFG_AREAFIXREMOVE && lonely ts && a.base.isNone then
    (match ts with
      | [] => pure ()
      | t :: _ => remoteRemove a.tag t.node : M Unit)
    modArea i fun a => { a with type := .deleted }
  else pure ()

/-- COMMAND_REMOVE for one area (`areafix.c` 457-526). -/
def afRemove (env : Env) (self : MemMsg → M Unit) (ci : Nat) (buf : Str) (wild : Bool) (i : Nat) (a : Area)
    (L : AfLoop) : M AfLoop := do
  match a.linkOf ci with
  | none =>
    if wild then pure L
    else
      let r ← addCommandReply env self L.r buf b!"You are not attached to that area"
      pure { L with
        r := r
        done := true }
  | some t =>
    if a.has AREA_MANDATORY && !t.has TOSSNODE_FEED then
      let r ← afSay env self L.r wild buf (b!"   You are not allowed to detach from " ++ a.tag)
        b!"You are not allowed to detach from that area"
      pure { L with
        r := r
        done := true }
    else
      let r ← afSay env self L.r wild buf (b!"   Detached from " ++ a.tag) b!"Detached"
      modArea i fun a => { a with
        tossNodes := a.tossNodes.eraseP (·.node == ci)
        changed := true }
      afAfterRemove env self i a (a.tossNodes.eraseP (·.node == ci)) (t.has TOSSNODE_FEED)
      pure { L with
        r := r
        done := true }

/-- COMMAND_UPDATE for one area (`areafix.c` 530-544). -/
def afUpdate (env : Env) (self : MemMsg → M Unit) (ci : Nat) (buf : Str) (wild : Bool) (i : Nat) (a : Area)
    (L : AfLoop) : M AfLoop := do
  match a.linkOf ci with
  | none => pure L
  | some _ =>
    let r ← afSay env self L.r wild buf (b!"   Nothing to do with " ++ a.tag) b!"Will rescan area"
    pure { L with
      r := r
      done := true
      rescan := if wild then L.rescan else some i }

/-- One round of the loop over the areas (`areafix.c` 363-547). -/
def afArea (env : Env) (self : MemMsg → M Unit) (ci : Nat) (cmd : AfCmd) (buf name : Str) (wild : Bool) (i : Nat)
    (L : AfLoop) : M AfLoop := do
  let s ← M.get
  match s.cfg.areas[i]?, s.cfg.nodes[ci]? with
  | some a, some cn =>
    if a.type = .echomail && osMatchPattern name a.tag then
      let L := { L with found := true }
      match cmd with
      | .add => afAdd env self ci cn buf wild i a L
      | .remove => afRemove env self ci buf wild i a L
      | .update => afUpdate env self ci buf wild i a L
    else pure L
  | _, _ => pure L

/-- The loop over the areas (`areafix.c` 362): `k` areas from position `i` on. No area is added or
taken away meanwhile. -/
def afAreas (env : Env) (self : MemMsg → M Unit) (ci : Nat) (cmd : AfCmd) (buf name : Str) (wild : Bool) :
    Nat → Nat → AfLoop → M AfLoop
  | 0, _, L => pure L
  | k + 1, i, L => do
    let L ← afArea env self ci cmd buf name wild i L
    afAreas env self ci cmd buf name wild k (i + 1) L

/-! ### Rescans -/

/-- Messages of a rescan, one after the other. -/
def rescanAll (env : Env) (l : Link) : List MemMsg → M Unit
  | [] => pure ()
  | m :: ms => do
    handleRescan env l m
    rescanAll env l ms

/-- The part of a command line after the last comma, if there is one, and the part before it
(`areafix.c` 309-321). -/
def splitOpt (s : Str) : Str × Str :=
  if s.contains 44 then
    (((s.reverse.dropWhile (· != 44)).drop 1).reverse, ((s.reverse.takeWhile (· != 44)).reverse).dropWhile (· == 32))
  else (s, [])

/-- `striptrail` (`misc.c` 255-261), where the read of `str[-1]` for a blank string is taken to be
harmless. -/
def trimEnd (s : Str) : Str := (s.reverse.dropWhile below33).reverse

/-- The rescan of an area (`areafix.c` 566-598). -/
def afRescan (env : Env) (self : MemMsg → M Unit) (ci i : Nat) (num : UInt32) (r : AfReply) : M AfReply := do
  let s ← M.get
  if s.cfg.has CFG_ALLOWRESCAN then
    match s.cfg.areas[i]?, s.cfg.nodes[ci]? with
    | some a, some cn =>
      match a.base with
      | none => afAddLine env self r (padR 30 [] ++ b!" Can't rescan, area is pass-through")
      | some b =>
        if !env.canRescan b then
          afAddLine env self r (padR 30 [] ++ b!" Can't rescan, messagebase does not support rescan")
        else
          rescanAll env ⟨ci, cn, 0⟩ (env.rescan s.log i num).1
          if (env.rescan s.log i num).2 then
            afAddLine env self r (padR 30 [] ++ b!" Rescanned " ++ dec (env.rescan s.log i num).1.length ++ b!" messages")
          else M.fail
    | _, _ => M.ub .nullDeref
  else afAddLine env self r (padR 30 [] ++ b!" No rescanning allowed")

/-- Options and rescan (`areafix.c` 550-601). -/
def afOptions (env : Env) (self : MemMsg → M Unit) (ci : Nat) (cmd : AfCmd) (opt : Str) (wild global : Bool)
    (L : AfLoop) : M AfReply := do
  match L.rescan with
  | none => pure L.r
  | some i =>
    if cmd ≠ .remove && !wild && L.done then
      let num := eqin opt b!"r=" 2
      let r ← (if !num && opt ≠ [] then afAddLine env self L.r (padR 30 [] ++ b!" Unknown option " ++ opt) else pure L.r)
      if global || num then
        afRescan env self ci i (if num then UInt32.ofInt (atoi (opt.drop 2)) else 0) r
      else pure r
    else pure L.r

/-! ### Forward requests -/

/-- `FindForward` (`areafix.c` 1618-1653). -/
def findForward (env : Env) (name groups : Str) : List Arealist → M (Option Arealist)
  | [] => pure none
  | al :: als => do
    let s ← M.get
    let ok ← (if al.flags &&& AREALIST_FORWARD != 0 then matchFlags al.group groups else pure false)
    if ok && ((env.areaFile s.log al.file).getD []).any fun l => eqi (fileTag l) name then pure (some al)
    else findForward env name groups als

/-- A forward request (`areafix.c` 620-648); `Tagname` is a `char[80]`. -/
def afForward (env : Env) (self : MemMsg → M Unit) (ci : Nat) (cn : ConfigNode) (mynode : Node4D) (buf name : Str)
    (al : Arealist) (r : AfReply) : M AfReply := do
  let s ← M.get
  match s.cfg.nodes[al.node]? with
  | none => M.ub .nullDeref
  | some up =>
    let r ← addCommandReply env self r buf (b!"Request sent to " ++ addr4 up.node)
    remoteAdd name al.node
    if 80 ≤ name.length then M.ub .oobWrite
    else
      let j ← addArea env name up.node mynode true (s.cfg.has CFG_FORWARDPASSTHRU)
      modArea j fun a => { a with group := al.group }
      let ro ← matchFlags al.group cn.readOnlyGroups
      modArea j fun a => { a with
        tossNodes := addTossNode a.tossNodes ci (if ro then TOSSNODE_READONLY else 0)
        changed := true }
      pure r

/-- The end of COMMAND_ADD (`areafix.c` 606-658). -/
def afNoneAdd (env : Env) (self : MemMsg → M Unit) (ci : Nat) (mynode : Node4D) (buf name : Str) (wild found : Bool)
    (r : AfReply) : M AfReply := do
  if wild then afAddLine env self r b!"   There were no matching areas to connect to"
  else if found then pure r
  else
    let s ← M.get
    match s.cfg.nodes[ci]? with
    | none => M.ub .nullDeref
    | some cn =>
      let al ← (if cn.has NODE_FORWARDREQ then findForward env name cn.groups s.cfg.arealists else pure none)
      match al with
      | some al => afForward env self ci cn mynode buf name al r
      | none => addCommandReply env self r buf b!"Unknown area"

/-- The end of a command (`areafix.c` 603-687). -/
def afFinish (env : Env) (self : MemMsg → M Unit) (ci : Nat) (mynode : Node4D) (cmd : AfCmd) (buf name opt : Str)
    (wild global : Bool) (L : AfLoop) (r : AfReply) : M AfReply :=
  match cmd with
  | .add => if L.done then pure r else afNoneAdd env self ci mynode buf name wild L.found r
  | .remove =>
    if L.done then pure r
    else if wild then afAddLine env self r b!"   There were no matching areas to detach from"
    else addCommandReply env self r buf b!"Unknown area"
  | .update =>
    if L.done then
      if L.rescan.isSome && !global && opt = [] then addCommandReply env self r buf b!"Nothing to do" else pure r
    else if wild then afAddLine env self r b!"   There were no matching areas"
    else addCommandReply env self r buf b!"You are not attached to this area"

/-- The command in a name (`areafix.c` 326-342). -/
def splitCmd : Str → AfCmd × Str
  | 45 :: r => (.remove, r)
  | 61 :: r => (.update, r)
  | 43 :: r => (.add, r)
  | s => (.add, s)

/-- A line that names areas (`areafix.c` 296-692); `osCheckPattern` accepts everything. -/
def afAreaLine (env : Env) (self : MemMsg → M Unit) (ci : Nat) (mynode : Node4D) (global : Bool) (buf : Str)
    (r : AfReply) : M AfReply := do
  let opt := trimEnd (splitOpt buf).2
  let (cmd, name) := splitCmd (trimEnd (splitOpt buf).1)
  let wild := osIsPattern name
  let r ← (if wild then afAddLines env self r [buf, []] else pure r)
  let s ← M.get
  let L ← afAreas env self ci cmd buf name wild s.cfg.areas.length 0 { r := r }
  let r ← afOptions env self ci cmd opt wild global L
  let r ← afFinish env self ci mynode cmd buf name opt wild global L r
  if wild then afAddLine env self r [] else pure r

/-! ## Commands with a percent sign -/

/-- What AreaFix has to do at the end, and the reply. -/
structure AfSt where
  r : AfReply
  done : Bool := false
  list : Bool := false
  query : Bool := false
  unlinked : Bool := false
  help : Bool := false
  info : Bool := false
  rescan : Bool := false

/-- Reply to a command. -/
def AfSt.reply (env : Env) (self : MemMsg → M Unit) (st : AfSt) (cmd reply : Str) : M AfSt := do
  let r ← addCommandReply env self st.r cmd reply
  pure { st with r := r }

/-- %COMPRESS with an argument (`areafix.c` 204-248). -/
def afCompress (env : Env) (self : MemMsg → M Unit) (ci : Nat) (buf arg : Str) (r : AfReply) : M AfReply := do
  let s ← M.get
  let names := s.cfg.packers.filter fun p => p.cmd ≠ []
  let listThem (r : AfReply) : M AfReply :=
    afAddLines env self r ((names.map (·.name) ++ [b!"NONE"]).flatMap (cmdReply []))
  if arg.head? = some 63 then
    let r ← addCommandReply env self r buf b!"Sending list of packers:"
    listThem r
  else if eqi arg b!"NONE" then
    modNode ci fun n => { n with packer := none }
    addCommandReply env self r buf b!"Packed changed"
  else
    match s.cfg.packers.findIdx? fun p => eqi arg p.name && p.cmd ≠ [] with
    | some k =>
      modNode ci fun n => { n with packer := some k }
      addCommandReply env self r buf b!"Packed changed"
    | none =>
      let r ← addCommandReply env self r buf b!"Unknown packer. Choose from this list:"
      listThem r

/-- %PAUSE, %RESUME, %PWD, %RESCAN and %COMPRESS (`areafix.c` 139-255). -/
def afPercent (env : Env) (self : MemMsg → M Unit) (ci : Nat) (buf : Str) (st : AfSt) : M AfSt := do
  let s ← M.get
  match s.cfg.nodes[ci]? with
  | none => M.ub .nullDeref
  | some cn =>
    let w := (jbstrcpy 100 buf).1
    let (arg, _, hasArg) := jbstrcpy 40 (jbstrcpy 100 buf).2.1
    if eqi w b!"%PAUSE" then
      if cn.has NODE_PASSIVE then st.reply env self buf b!"Your system is already passive"
      else
        modNode ci fun n => { n with flags := n.flags ||| NODE_PASSIVE }
        let st ← st.reply env self buf b!"Your system is marked as passive"
        let st ← st.reply env self [] b!"Send %%RESUME to get echomail again"
        pure { st with done := true }
    else if eqi w b!"%RESUME" then
      if cn.has NODE_PASSIVE then
        modNode ci fun n => { n with flags := n.flags &&& ~~~NODE_PASSIVE }
        let st ← st.reply env self buf b!"Your system is active again"
        pure { st with done := true }
      else st.reply env self buf b!"Your system is not paused"
    else if eqi w b!"%PWD" then
      if hasArg then
        modNode ci fun n => { n with areafixPW := arg }
        let st ← st.reply env self buf b!"AreaFix password changed"
        pure { st with done := true }
      else st.reply env self buf b!"No new password specified"
    else if eqi w b!"%RESCAN" then
      if s.cfg.has CFG_ALLOWRESCAN then
        let st ← st.reply env self buf b!"Will rescan all areas added after this line"
        pure { st with rescan := true }
      else st.reply env self buf b!"No rescanning allowed"
    else if eqi w b!"%COMPRESS" then
      if hasArg then
        let r ← afCompress env self ci buf arg st.r
        pure { st with
          r := r
          done := true }
      else st.reply env self buf b!"No new method specified"
    else if eqi w b!"%LIST" then
      let st ← st.reply env self buf b!"Sending list of all areas"
      pure { st with
        list := true
        done := true }
    else if eqi w b!"%QUERY" then
      let st ← st.reply env self buf b!"Sending query"
      pure { st with
        query := true
        done := true }
    else if eqi w b!"%UNLINKED" then
      let st ← st.reply env self buf b!"Sending list of all unlinkedareas"
      pure { st with
        unlinked := true
        done := true }
    else if eqi w b!"%HELP" then
      let st ← st.reply env self buf b!"Sending help file"
      pure { st with
        help := true
        done := true }
    else if eqi w b!"%INFO" then
      let st ← st.reply env self buf b!"Sending configuration info"
      pure { st with
        info := true
        done := true }
    else
      let st ← st.reply env self buf b!"Unknown command"
      pure { st with done := true }

/-! ## The text of the request -/

/-- One line (`areafix.c` 134-694). -/
def afLine (env : Env) (self : MemMsg → M Unit) (ci : Nat) (mynode : Node4D) (buf : Str) (st : AfSt) : M AfSt := do
  let st ← (match buf with
    | [] => pure st
    | c :: _ =>
      if c = 37 then afPercent env self ci buf st
      else if c = 1 then pure st
      else do
        let r ← afAreaLine env self ci mynode st.rescan buf st.r
        pure { st with
          r := r
          done := true } : M AfSt)
  removeDeleted
  pure st

/-- The lines of a chunk (`areafix.c` 121-695), `f` is the fuel; the result says whether a tear line
has been met. A line of 100 bytes or more is written past `buf[100]`. The byte behind the chunk is
read when the last line has no end; it has no influence. -/
def afChunk (env : Env) (self : MemMsg → M Unit) (ci : Nat) (mynode : Node4D) : Nat → Str → AfSt → M (AfSt × Bool)
  | 0, _, st => pure (st, false)
  | f + 1, s, st =>
    if s = [] then pure (st, false)
    else
      let l := s.takeWhile notEol
      if 100 ≤ l.length then M.ub .oobWrite
      else do
        let st ← afLine env self ci mynode (trimEnd (striplead (cstr l))) st
        if startsWith (cstr l) b!"---" then pure (st, true)
        else afChunk env self ci mynode f (s.drop (l.length + 1)) st

/-- The whole text (`areafix.c` 117-696). -/
def afText (env : Env) (self : MemMsg → M Unit) (ci : Nat) (mynode : Node4D) : List Str → AfSt → M AfSt
  | [], st => pure st
  | c :: cs, st => do
    let (st, stop) ← afChunk env self ci mynode (c.length + 1) c st
    if stop then pure st else afText env self ci mynode cs st

/-! ## Lists -/

/-- `struct StatsNode` (`areafix.c` 849-858); `kb` is the printed number. -/
structure ListEntry where
  tag : Str
  desc : Str
  group : UInt8
  attached : Bool := false
  feed : Bool := false
  kb : Str := [63]
  deriving DecidableEq, Repr

/-- `SENDLIST_*`. -/
inductive ListType where
  | full | query | unlinked
  deriving DecidableEq, Repr

/-- The local areas of a list (`areafix.c` 1153-1197). -/
def listLocal (env : Env) (type : ListType) (ci : Nat) (cn : ConfigNode) : List Area → M (List ListEntry)
  | [] => pure []
  | a :: as => do
    let add ← (if a.type = .echomail then
        match type with
        | .query => pure (a.linkOf ci).isSome
        | .unlinked => if (a.linkOf ci).isSome then pure false else afAccess a.group cn
        | .full => if (a.linkOf ci).isSome then pure true else afAccess a.group cn
      else pure false : M Bool)
    let es ← listLocal env type ci cn as
    if add then
      pure ({ tag := a.tag
              desc := a.description
              group := a.group
              attached := (a.linkOf ci).isSome
              feed := ((a.linkOf ci).map (·.has TOSSNODE_FEED)).getD false
              kb := env.weekKB a } :: es)
    else pure es

/-- `AddForwardList` (`areafix.c` 988-1056) on the lines of the file. -/
def listFile (areas : List Area) (al : Arealist) : List Str → List ListEntry → List ListEntry
  | [], es => es
  | l :: ls, es =>
    if fileTag l ≠ [] && !areas.any (fun a => eqi (fileTag l) a.tag) && !es.any (fun e => eqi (fileTag l) e.tag) then
      listFile areas al ls (es ++ [{ tag := fileTag l
                                     desc := if al.flags &&& AREALIST_DESC != 0 then fileDesc l else []
                                     group := al.group }])
    else listFile areas al ls es

/-- The forward requestable areas (`areafix.c` 1201-1216). -/
def listForward (env : Env) (areas : List Area) (cn : ConfigNode) : List Arealist → List ListEntry → M (List ListEntry)
  | [], es => pure es
  | al :: als, es => do
    let s ← M.get
    let ok ← (if al.flags &&& AREALIST_FORWARD != 0 then matchFlags al.group cn.groups else pure false)
    listForward env areas cn als
      (if ok then listFile areas al ((env.areaFile s.log al.file).getD []) es else es)

/-- `stricmp` as an order. -/
def cmpi : Str → Str → Int
  | [], [] => 0
  | [], _ => -1
  | _, [] => 1
  | a :: as, b :: bs => if lower a < lower b then -1 else if lower b < lower a then 1 else cmpi as bs

/-- `CompareAreas` (`areafix.c` 908-919); groups are 0 or capital letters. -/
def compareAreas (a b : ListEntry) : Int :=
  if a.group < b.group then -1 else if b.group < a.group then 1 else cmpi a.tag b.tag

/-- `%u` for a `short`. -/
def shortU (n : Nat) : Str := dec (if n % 65536 < 32768 then n % 65536 else 4294901760 + n % 65536)

/-- The heading of a group (`areafix.c` 1231-1240); there are 30 group names. -/
def groupHead (cfg : Config) (first : Bool) (g : UInt8) : Except UB (List Str) :=
  if g ≠ 0 ∧ (g < 65 ∨ 95 ≤ g) then .error .oobRead
  else .ok ((if first then [] else [[]]) ++
    [b!" Group: " ++ (if g = 0 then b!"<No group>" else cfg.groupNames (g.toNat - 65)), [],
     b!" Tagname                       Description                         KB/week",
     b!" ----------------------------  ---------------------------------   -------"])

/-- The mark of an area (`areafix.c` 1243-1252). -/
def listMark (type : ListType) (e : ListEntry) : UInt8 :=
  if e.feed then 37 else if type = .full && e.attached then 42 else 32

/-- The lines of an area (`areafix.c` 1262-1270). -/
def entryLines (type : ListType) (e : ListEntry) : List Str :=
  let rest := b!"  " ++ padR 33 (e.desc.take 33) ++ b!"  " ++ padL 8 (e.kb.take 8)
  if e.tag.length ≤ 28 then [listMark type e :: padR 28 e.tag ++ rest]
  else [listMark type e :: padR 70 (e.tag.take 70), 32 :: padR 28 [] ++ rest]

/-- The body of a list (`areafix.c` 1227-1272). -/
def listBody (cfg : Config) (type : ListType) : Option UInt8 → List ListEntry → Except UB (List Str)
  | _, [] => .ok []
  | last, e :: es => do
    let head ← (if last = some e.group then .ok [] else groupHead cfg last.isNone e.group)
    let rest ← listBody cfg type (some e.group) es
    .ok (head ++ entryLines type e ++ rest)

/-- The end of a list (`areafix.c` 1274-1290). -/
def listFoot (type : ListType) (es : List ListEntry) : List Str :=
  match type with
  | .query => [13 :: shortU es.length ++ b!" linked areas.", b!"A '%' means that you are the feed for the area."]
  | .unlinked => [13 :: shortU es.length ++ b!" unlinked areas."]
  | .full => [13 :: b!"Totally " ++ shortU es.length ++ b!" areas, you are connected to " ++
      shortU (es.filter (·.attached)).length ++ b!" of them.",
      b!"A '*' means that you are connected to the area.", b!"A '%' means that you are the feed for the area."]

/-- The first line of a list (`areafix.c` 1118-1143). -/
def listHead (type : ListType) (from4 : Node4D) : Str :=
  (match type with
    | .query => b!"This is a list of all connected areas at "
    | .full => b!"This is a list of all available areas at "
    | .unlinked => b!"This is a list of all unlinked areas at ") ++ addr4 from4 ++ b!":"

/-- The sorted entries of a list (`areafix.c` 1147-1220). -/
def listEntries (env : Env) (type : ListType) (ci : Nat) (cn : ConfigNode) : M (List ListEntry) := do
  let s ← M.get
  let es ← listLocal env type ci cn s.cfg.areas
  let es ← (if s.cfg.has CFG_INCLUDEFORWARD && type ≠ .query && cn.has NODE_FORWARDREQ
    then listForward env s.cfg.areas cn s.cfg.arealists es else pure es)
  pure (isort compareAreas es)

/-- `rawSendList` (`areafix.c` 1071-1295). -/
def sendList (env : Env) (self : MemMsg → M Unit) (type : ListType) (from4 : Node4D) (toname : Str) (ci : Nat) :
    M Unit := do
  let s ← M.get
  match s.cfg.nodes[ci]? with
  | none => M.ub .nullDeref
  | some cn =>
    let r ← afInit env from4 toname cn.node b!"AreaFix list of areas"
    let r ← afAddLines env self r [listHead type from4, []]
    let es ← listEntries env type ci cn
    let body ← M.lift (listBody s.cfg type none es)
    let r ← afAddLines env self r (body ++ listFoot type es)
    afSend self r

/-- `rawSendHelp` (`areafix.c` 1297-1334). -/
def sendHelp (env : Env) (self : MemMsg → M Unit) (from4 : Node4D) (toname : Str) (ci : Nat) : M Unit := do
  let s ← M.get
  match s.cfg.nodes[ci]? with
  | none => M.ub .nullDeref
  | some cn =>
    let r ← afInit env from4 toname cn.node b!"AreaFix help"
    let r ← afAddLines env self r (match env.helpFile with
      | none => [b!"*** Error *** : Couldn't open help file"]
      | some ls => ls.map List.dropLast)
    afSend self r

/-- Capital letters. -/
def letters : List UInt8 := (List.range 26).map fun i => UInt8.ofNat (65 + i)

/-- The groups of a node (`areafix.c` 1398-1420). A line for a group with read-only access always
shows the name: the test at line 1415 looks at an address. -/
def groupLines (cfg : Config) (ro : Bool) (cn : ConfigNode) : List UInt8 → M (List Str)
  | [] => pure []
  | c :: cs => do
    let r ← matchFlags c cn.readOnlyGroups
    let ok ← (if ro then pure r else if r then pure false else matchFlags c cn.groups)
    let ls ← groupLines cfg ro cn cs
    let name := cfg.groupNames (c.toNat - 65)
    if ok then pure ((if ro || name ≠ [] then c :: b!": " ++ name else [c]) :: ls) else pure ls

/-- `rawSendInfo` (`areafix.c` 1336-1424). -/
def sendInfo (env : Env) (self : MemMsg → M Unit) (from4 : Node4D) (toname : Str) (ci : Nat) : M Unit := do
  let s ← M.get
  match s.cfg.nodes[ci]? with
  | none => M.ub .nullDeref
  | some cn =>
    let r ← afInit env from4 toname cn.node b!"AreaFix configuration info"
    let packer := match cn.packer with
      | none => b!"          Packer: No packer"
      | some k => b!"          Packer: " ++ ((s.cfg.packers[k]?).map (·.name)).getD []
    let flag (mask : UInt32) (text : Str) : List Str := if cn.has mask then [text] else []
    let full ← groupLines s.cfg false cn letters
    let ro ← groupLines s.cfg true cn letters
    let r ← afAddLines env self r
      ([b!"Configuration for " ++ addr4 cn.node ++ b!":", [], b!"           Sysop: " ++ cn.sysopName,
        b!"Packet  password: " ++ cn.packetPW, b!"Areafix password: " ++ cn.areafixPW, packer, []] ++
       flag NODE_PASSIVE b!" * You are passive and will not receive any echomail messages" ++
       flag NODE_TINYSEENBY b!" * You receive messages with tiny SEEN-BY lines" ++
       flag NODE_NOSEENBY b!" * You receive messages without SEEN-BY lines" ++
       flag NODE_FORWARDREQ b!" * You may do forward-requests" ++
       flag NODE_NOTIFY b!" * You will receive notifications" ++
       flag NODE_PACKNETMAIL b!" * Netmail to you will be packed" ++
       flag NODE_AUTOADD b!" * New areas from you will be auto-added" ++
       [[], b!"You have full access to these groups:", []] ++ full ++
       [[], b!"You have read-only access to these groups:", []] ++ ro)
    afSend self r

/-! ## Commands to other systems -/

/-- The commands collected for one node (`areafix.c` 1560-1602). -/
def sendRemote1 (env : Env) (self : MemMsg → M Unit) (i : Nat) : M Unit := do
  let s ← M.get
  match s.cfg.nodes[i]? with
  | none => pure ()
  | some n =>
    if n.remoteAF = [] then pure ()
    else match s.cfg.findRoute n.node with
      | none => M.ub .nullDeref
      | some rt =>
        let m ← newNetmail env n.node rt.aka n.remoteAFName n.remoteAFPw FLAG_PVT MMFLAG_AUTOGEN
        let m ← mmAddLines m (n.remoteAF.map (· ++ [13]) ++ [b!"---" ++ [13] ++ b!"Generated by CrashMail 1.5.1" ++ [13]])
        M.attempt (self m)
        let s ← M.get
        M.set { s with cfg := { s.cfg with nodes := s.cfg.nodes.modify i fun n => { n with remoteAF := [] } } }

/-- `SendRemoteAreafix` (`areafix.c` 1551-1603): `k` nodes from position `i` on. -/
def sendRemote (env : Env) (self : MemMsg → M Unit) : Nat → Nat → M Unit
  | 0, _ => pure ()
  | k + 1, i => do
    sendRemote1 env self i
    sendRemote env self k (i + 1)

/-! ## AreaFix -/

/-- A refusal (`areafix.c` 78-81, 91-94). -/
def afRefuse (env : Env) (self : MemMsg → M Unit) (r : AfReply) (line : Str) : M Unit := do
  let r ← afAddLine env self r line
  afSend self r

/-- The lists asked for (`areafix.c` 710-723). -/
def afLists (env : Env) (self : MemMsg → M Unit) (mynode : Node4D) (toname : Str) (ci : Nat) (st : AfSt) : M Unit := do
  (if st.list then sendList env self .full mynode toname ci else pure () : M Unit)
  (if st.query then sendList env self .query mynode toname ci else pure () : M Unit)
  (if st.unlinked then sendList env self .unlinked mynode toname ci else pure () : M Unit)
  (if st.help then sendHelp env self mynode toname ci else pure () : M Unit)
  if st.info then sendInfo env self mynode toname ci else pure ()

/-- AreaFix for a node with the right password (`areafix.c` 97-729); `rest` is the subject behind the
password. -/
def afRun (env : Env) (self : MemMsg → M Unit) (m : MemMsg) (mynode : Node4D) (ci : Nat) (rest : Str) (r : AfReply) :
    M Unit := do
  let w := jbstrcpy 100 rest
  let st ← (if w.2.2 && (eqi w.1 b!"-q" || eqi w.1 b!"-l") then do
      let r ← addCommandReply env self r w.1 b!"Sending list of all areas"
      pure { r := r, done := true, list := true }
    else pure { r := r } : M AfSt)
  let st ← afText env self ci mynode m.text st
  let r ← (if st.done then pure st.r else afAddLine env self st.r b!"Nothing to do.")
  let s ← M.get
  if env.ioerr s.log then M.fail
  else
    afSend self r
    afLists env self mynode m.frm ci st
    let s ← M.get
    sendRemote env self s.cfg.nodes.length 0

/-- `AreaFix` (`areafix.c` 37-730). -/
def areaFix (env : Env) (self : MemMsg → M Unit) (m : MemMsg) : M Unit := do
  let s ← M.get
  match s.cfg.findRoute m.orig with
  | none => pure ()
  | some rt =>
    let r ← afInit env rt.aka m.frm m.orig b!"AreaFix response"
    match s.cfg.nodes.findIdx? fun n => compare4D n.node m.orig == 0 with
    | none => afRefuse env self r b!"Sorry, your node is not configured here."
    | some ci =>
      match s.cfg.nodes[ci]? with
      | none => M.ub .nullDeref
      | some cn =>
        if !eqi (jbstrcpy 100 m.subject).1 cn.areafixPW then afRefuse env self r b!"Sorry, wrong password."
        else afRun env self m rt.aka ci (jbstrcpy 100 m.subject).2.1 r

end CM
