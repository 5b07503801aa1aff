import Verif.Model.Handle

/-! # What is counted while messages are handled

`HandleEchomail` and `HandleNetmail` again, with the global counters of `crashmail.c` 17-22 and the counters `NewTexts` and `NewDupes`
of the areas. Each function returns what it has added to the counters itself. What is counted by a filter that copies a message, by
AreaFix, and for messages the program makes while it handles this one (bounces, receipts) belongs to those. A run that fails is
ended by the program, so nothing is returned then. `Props/Tally.lean` shows that the functions are otherwise those of
`Model/Handle.lean`. -/

namespace CM

/-- What was added to the counters; `texts` and `newDupes` are the areas whose `NewTexts` and `NewDupes` were increased. -/
structure Tally where
  bad : Nat := 0
  dupes : Nat := 0
  imported : Nat := 0
  routed : Nat := 0
  written : Nat := 0
  texts : List Nat := []
  newDupes : List Nat := []
  deriving DecidableEq, Repr

/-- One after the other. -/
def Tally.add (a b : Tally) : Tally :=
  { bad := a.bad + b.bad
    dupes := a.dupes + b.dupes
    imported := a.imported + b.imported
    routed := a.routed + b.routed
    written := a.written + b.written
    texts := a.texts ++ b.texts
    newDupes := a.newDupes ++ b.newDupes }

/-- `WriteBad` (`handle.c` 293-384): `NewTexts` of the area in line 381. -/
def writeBadT (env : Env) (m : MemMsg) (reason : Str) : M Tally := do
  let s ← M.get
  match s.cfg.areas.findIdx? (·.type == .bad) with
  | none => pure {}
  | some i => do
    if (s.cfg.areas[i]?.bind (·.base)).isSome then
      importMsg env i { m with text := badHeader m reason :: m.text }
    else pure ()
    pure { texts := [i] }

/-- Write to all nodes (`handle.c` 712-724); `toss_written` in `WriteEchoMail` (`pkt.c` 794). -/
def sendAllT (env : Env) (aka : Node4D) : MemMsg → List Link → M (MemMsg × Nat)
  | m, [] => pure (m, 0)
  | m, l :: ls => do
    let s ← M.get
    if wants s.cfg s.seen m l then do
      let m ← sendEcho env aka m l
      let r ← sendAllT env aka m ls
      pure (r.1, r.2 + 1)
    else sendAllT env aka m ls

/-- The end of `HandleEchomail` (`handle.c` 699-748): `NewTexts` in line 705, `toss_import` in line 732. -/
def deliverEchoT (env : Env) (self : MemMsg → M Unit) (i : Nat) (a : Area) (aka : Node4D) (ls : List Link)
    (m : MemMsg) : M Tally := do
  let m ← filterMsg env self m
  if m.has MMFLAG_KILL then pure {}
  else do
    let r ← (if m.has MMFLAG_RESCANNED then pure (m, 0) else sendAllT env aka m ls)
    if r.1.has MMFLAG_TWIT then pure { texts := [i], written := r.2 }
    else if !r.1.has MMFLAG_EXPORTED && a.base.isSome then do
      let s ← M.get
      importMsg env i (markSent (stripSubject s.cfg r.1))
      pure { texts := [i], written := r.2, imported := 1 }
    else pure { texts := [i], written := r.2 }

/-- `HandleEchomail` after the permission check (`handle.c` 613-748): `toss_dupes` and `NewDupes` in lines 678-679. -/
def tossEchoT (env : Env) (self : MemMsg → M Unit) (i : Nat) (a : Area) (aka : Aka) (ls : List Link)
    (m : MemMsg) : M Tally := do
  let s ← M.get
  let sb := zoneSeenBy aka.node m
  M.set { s with seen := markSeen s.cfg a aka.node ls sb s.seen }
  let path ← (if aka.node.point = 0 || s.cfg.has CFG_PATH3D
    then M.liftO (.ok (addNodePath m.path aka.node)) else pure m.path)
  let m := { m with
    seenBy := newSeenBy aka ls sb
    path := path }
  if ← dupeCheck a m then do
    let t ← (if s.cfg.dupeMode = 1 then writeBadT env m b!"Duplicate message" else pure {})
    pure (({ dupes := 1, newDupes := [i] } : Tally).add t)
  else do
    let sb ← M.lift (mmSortNodes2D m.seenBy)
    deliverEchoT env self i a aka.node ls { m with seenBy := sb }

/-- `toss_bad++` and `WriteBad` (`handle.c` 563-565, 587-589, 604-606, 1345-1347, 1460-1462). -/
def refuseT (env : Env) (m : MemMsg) (reason : Str) : M Tally := do
  let t ← writeBadT env m reason
  pure (({ bad := 1 } : Tally).add t)

/-- `HandleEchomail` (`handle.c` 519-749). -/
def handleEchomailT (env : Env) (self : MemMsg → M Unit) (m : MemMsg) : M Tally := do
  let m := { m with type := PKTS_ECHOMAIL }
  let i ← findOrAddArea env m
  let s ← M.get
  match s.cfg.areas[i]? with
  | none => M.ub .nullDeref
  | some a =>
    if a.has AREA_UNCONFIRMED then refuseT env m b!"Unknown area (auto-added but not confirmed)"
    else if a.importNodes ≠ [] then M.ub .nullDeref
    else match resolveLinks s.cfg.nodes a.tossNodes with
      | none => M.ub .nullDeref
      | some ls =>
        match denied m ls with
        | some reason => refuseT env m reason
        | none =>
          match a.aka.bind (s.cfg.akas[·]?) with
          | none => M.ub .nullDeref
          | some aka => tossEchoT env self i a aka ls m

/-- Importing a netmail (`handle.c` 1240-1309): `NewTexts` in line 1277, `toss_import` in line 1281. -/
def importNetmailT (env : Env) (self : MemMsg → M Unit) (i : Nat) (m : MemMsg) : M Tally := do
  if m.has MMFLAG_TWIT then pure {}
  else
    let s ← M.get
    let m := stripSubject s.cfg m
    let istext ← (if s.cfg.has CFG_IMPORTEMPTYNETMAIL then pure true else M.lift (hasText m.text))
    let r ← (if istext && (s.cfg.areas[i]?.bind (·.base)).isSome then do
        let m := markSent (stripSubject s.cfg m)
        importMsg env i m
        pure (m, ({ texts := [i], imported := 1 } : Tally))
      else pure (m, if istext then { texts := [i] } else {}))
    (if r.1.attrHas FLAG_RREQ && s.cfg.has CFG_ANSWERRECEIPT then answerReceipt env self r.1 else pure () : M Unit)
    pure r.2

/-- Loop mail (`handle.c` 1394-1468): `toss_bad` in line 1460. -/
def checkLoopT (env : Env) (m : MemMsg) : M Tally := do
  let s ← M.get
  if s.cfg.loopMode ≠ 0 && !m.has MMFLAG_EXPORTED then
    let l ← M.lift (isLoopMail s.cfg m.text)
    if l && s.cfg.loopMode == 2 then do
      let t ← loopCopy m
      refuseT env t b!"Possible loopmail"
    else pure {}
  else pure {}

/-- Sending on a netmail (`handle.c` 1310-1686): `toss_bad` in line 1345, `toss_written` in `WriteNetMail` (`pkt.c` 911), `toss_route` in line 1685. -/
def routeOnT (env : Env) (self : MemMsg → M Unit) (m : MemMsg) : M Tally := do
  let s ← M.get
  let m := { m with attr := routedAttr m }
  let m := { m with type := (netmailPri s.cfg m).toType }
  match routeNetmail s.cfg.nl s.cfg.routes s.cfg.changes m.dest (netmailPri s.cfg m) with
  | none => refuseT env m b!"No routing for destination node"
  | some (dest, pri, aka) => do
    let m := { m with type := pri.toType }
    let t ← checkLoopT env m
    match bounceReason s.cfg m with
    | some reason => do
      bounce env self m reason (s.cfg.has CFG_BOUNCEHEADERONLY)
      pure t
    | none => do
      let m ← handleAttach env m dest
      let s ← M.get
      let m ← M.liftO (mmAddLine m (viaLine aka (env.viaTime s.log)))
      sendNetmail env dest aka m
      (if m.attrHas FLAG_AUDIT && s.cfg.has CFG_ANSWERAUDIT && m.has MMFLAG_TOSSED then
        answerAudit env self m
      else pure () : M Unit)
      pure (t.add { written := 1, routed := 1 })

/-- `HandleNetmail` (`handle.c` 1118-1689). -/
def handleNetmailT (env : Env) (af self : MemMsg → M Unit) (m : MemMsg) : M Tally := do
  let m ← prepNetmail m
  let m ← filterMsg env self m
  if m.has MMFLAG_KILL then pure {}
  else
    let s ← M.get
    let toAf := s.cfg.isAka m.dest && !m.has MMFLAG_AUTOGEN && s.cfg.areafixNames.any (fun n => eqi n m.to)
    (if toAf then af m else pure () : M Unit)
    if toAf && !s.cfg.has CFG_IMPORTAREAFIX then pure {}
    else
      let s ← M.get
      match netmailArea s.cfg m.dest with
      | some i => importNetmailT env self i m
      | none => routeOnT env self m

/-- `HandleMessage` (`handle.c` 7-21), with what is counted for the message itself. -/
def handleMessageT (env : Env) (af : (MemMsg → M Unit) → MemMsg → M Unit) : Nat → MemMsg → M Tally
  | 0, _ => M.stuck
  | f + 1, m =>
    if m.area = [] then handleNetmailT env (af (handleMessage env af f)) (handleMessage env af f) m
    else handleEchomailT env (handleMessage env af f) m

/-- The messages of a run, one after the other (`pkt.c` 190-490, `toss.c`): what is counted for them. -/
def tallyRun (env : Env) (af : (MemMsg → M Unit) → MemMsg → M Unit) (fuel : Nat) : List MemMsg → M (List Tally)
  | [] => pure []
  | m :: r => do
    let t ← handleMessageT env af fuel m
    let ts ← tallyRun env af fuel r
    pure (t :: ts)

end CM
