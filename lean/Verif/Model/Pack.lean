import Verif.Model.FileOps
/-! # Putting packets into the outbound (`crashmail/outbound.c`, `pkt.c`, `crashmail.c`)

The programs on the disk. Not modelled: log output, directories made by `MakeBaseName`, memory that
cannot be allocated. -/

namespace CM

/-! ## Commands -/

/-- `ExpandPacker` (`misc.c` 3-32) with the rest of the command and what is in `dest`. -/
def expandPacker (size : Nat) (arc file : Str) : Str → Str → Except UB Str
  | [], d => if d.length < size then .ok d else .error .oobWrite
  | [c], d => if d.length + 1 < size then .ok (d ++ [c]) else .error .oobWrite
  | c :: x :: r, d =>
    if size ≤ d.length then .error .oobWrite
    else if c = 37 ∧ x ||| 32 = 97 then expandPacker size arc file r ((d ++ arc).take (size - 1))
    else if c = 37 ∧ x ||| 32 = 102 then expandPacker size arc file r ((d ++ file).take (size - 1))
    else if c = 37 then expandPacker size arc file r (d ++ [x])
    else expandPacker size arc file (x :: r) (d ++ [c])
termination_by s => s.length

/-! ## Configuration and state -/

/-- The configuration of the outbound, the day of the week of a time (`localtime`), and the order
`SortFEList` (`misc.c` 146-177) puts files in: `qsort`, so files that compare equal can be in any
order. -/
structure OutCfg where
  cfg : Config
  outbound : Str
  packetCreate : Str
  beforePack : Str := []
  maxBundle : Nat := 4294967295
  wday : UInt32 → UInt32
  sort : List FileEntry → List FileEntry

/-- `ArcList`, the `LastArcName` of the nodes in the order of the configuration, and `ioerror`. -/
structure PackSt where
  arcs : List FileEntry := []
  last : List (Node4D × Str) := []
  io : Bool := false

/-! ## Names -/

/-- `prinames` (`crashmail.c` 40). -/
def priNames : List Str := [b!"Normal", b!"Hold", b!"Normal", b!"Direct", b!"Crash"]

/-- The flavour in the name of a packet (`outbound.c` 626-645). -/
def pktFlavour (s : Str) : Option UInt8 :=
  if eqi s b!"Normal" then some PKTS_NORMAL
  else if eqi s b!"Hold" then some PKTS_HOLD
  else if eqi s b!"Direct" then some PKTS_DIRECT
  else if eqi s b!"Crash" then some PKTS_CRASH
  else if eqi s b!"Echomail" then some PKTS_ECHOMAIL
  else none

/-- What `PackFile` finds in the name of a packet (`outbound.c` 615-657). -/
def parsePktName (file : Str) : Option (UInt8 × Node4D) :=
  let buf := (mystrncpy (getFilePart file) 200).map fun c => if c = 95 then 32 else c
  let w0 := jbstrcpy 100 buf
  let w1 := jbstrcpy 100 w0.2.1
  match pktFlavour w1.1 with
  | none => none
  | some t =>
    let w2 := jbstrcpy 100 w1.2.1
    let w3 := jbstrcpy 100 w2.2.1
    let w4 := jbstrcpy 100 w3.2.1
    let w5 := jbstrcpy 100 w4.2.1
    some (t, ⟨UInt16.ofInt (atoi w2.1), UInt16.ofInt (atoi w3.1), UInt16.ofInt (atoi w4.1), UInt16.ofInt (atoi w5.1)⟩)

/-- The type in the name of a finished packet (`pkt.c` 670-682); nothing is assigned for others. -/
def typeName (t : UInt8) : Except UB Str :=
  if t = PKTS_HOLD then .ok b!"Hold"
  else if t = PKTS_NORMAL then .ok b!"Normal"
  else if t = PKTS_DIRECT then .ok b!"Direct"
  else if t = PKTS_CRASH then .ok b!"Crash"
  else if t = PKTS_ECHOMAIL then .ok b!"Echomail"
  else .error .uninit

/-- Name of a packet that is being written (`pkt.c` 684). -/
def pktTempName (num : UInt32) : Str := hexW 8 num.toNat ++ b!".newpkt"

/-- Name of a finished packet (`pkt.c` 686-692). -/
def pktDoneName (num : UInt32) (t : UInt8) (n : Node4D) : Except UB Str := do
  let ty ← typeName t
  return hexW 8 num.toNat ++ [95] ++ ty ++ [95] ++ dec n.zone.toNat ++ [95] ++ dec n.net.toNat ++ [95] ++
    dec n.node.toNat ++ [95] ++ dec n.point.toNat ++ b!".newpkt"

/-- `GetFilePart(name)[8]=0; strcat(name,".pkt")` (`outbound.c` 686-687, 741-742) in a buffer of 200
characters. -/
def shortPktName (name : Str) : Except UB Str :=
  let dir := name.take (name.length - (getFilePart name).length)
  if 200 ≤ dir.length + 8 ∨ 200 ≤ dir.length + ((getFilePart name).take 8).length + 4 then .error .oobWrite
  else .ok (dir ++ (getFilePart name).take 8 ++ b!".pkt")

/-! ## Flow files and orphans -/

/-- `MakeOrphan` (`outbound.c` 450-474). Write errors are ignored. -/
def makeOrphan (file : Str) (n : Node4D) (type : UInt8) (mode : FlowMode) : Prog Unit :=
  if 200 ≤ file.length + 7 then .ub .oobWrite
  else match priNames[type.toNat]? with
    | none => .ub .oobRead
    | some p => do
      let _ ← writeFile (file ++ b!".orphan") .new
        (p ++ [32] ++ dec n.zone.toNat ++ [58] ++ dec n.net.toNat ++ [47] ++ dec n.node.toNat ++ [46] ++ dec n.point.toNat ++
          (match mode with | .none => ([] : Str) | .trunc => b!" Truncate" | .delete => b!" Delete") ++ [10])

/-- `doAddFlow` (`outbound.c` 478-539). Write errors are ignored. A flow file that exists but cannot be
opened is not changed. -/
def doAddFlow (o : OutCfg) (file base : Str) (type : UInt8) (mode : FlowMode) : Prog Bool := do
  if 200 ≤ base.length + 4 then .ub .oobWrite
  else if ← osExists (flowFile base type) then
    match ← readFile (flowFile base type) with
    | none => return false
    | some c =>
      if ← liftUB (flowHas file (c.length + 1) c) then return true
      else match ← writeFile (flowFile base type) (.fromEnd 0) (flowLine (o.cfg.has CFG_FLOWCRLF) mode file) with
        | none => return false
        | some _ => return true
  else match ← writeFile (flowFile base type) .new (flowLine (o.cfg.has CFG_FLOWCRLF) mode file) with
    | none => return false
    | some _ => return true

/-- The flavour in an orphan file (`outbound.c` 396-412). -/
def orphanFlavour (s : Str) : Option UInt8 :=
  if eqi s b!"Normal" then some PKTS_NORMAL
  else if eqi s b!"Hold" then some PKTS_HOLD
  else if eqi s b!"Direct" then some PKTS_DIRECT
  else if eqi s b!"Crash" then some PKTS_CRASH
  else none

/-- What an orphan file says (`outbound.c` 392-430). -/
def parseOrphan (line : Str) : Option (UInt8 × Node4D × FlowMode) :=
  let w1 := jbstrcpy 100 line
  match orphanFlavour w1.1 with
  | none => none
  | some t =>
    let w2 := jbstrcpy 100 w1.2.1
    match parse4D w2.1 with
    | none => none
    | some n =>
      let w3 := (jbstrcpy 100 w2.2.1).1
      some (t, n, if eqi w3 b!"Delete" then .delete else if eqi w3 b!"Truncate" then .trunc else .none)

/-- `HandleOrphan` (`outbound.c` 366-448). -/
def handleOrphan (o : OutCfg) (name : Str) : Prog Unit := do
  match ← readFile name with
  | none => return ()
  | some c =>
    match osFGets 100 c with
    | none => return ()
    | some (line, _) =>
      match parseOrphan (cstr line) with
      | none => return ()
      | some (t, n, mode) =>
        let base ← liftUB (makeBaseName o.cfg o.outbound n)
        if ← lockBasename base then
          let file := (mystrncpy name 200).take ((mystrncpy name 200).length - 7)
          if ← doAddFlow o file base t mode then
            let _ ← osDelete name
          unlockBasename base
        else return ()

/-! ## Packing -/

/-- Full name of `cmindex` (`outbound.c` 127, 152). -/
def indexName (o : OutCfg) : Str := makeFullPath o.cfg.packetDir b!"cmindex" 200

/-- `MakeArcName` (`outbound.c` 236-337) with `WriteIndex`. `i` is the position of the node. That storing
the name can change a statistics counter is in `storeArcName`. -/
def newArcName (o : OutCfg) (st : PackSt) (i : Nat) : Prog (Str × PackSt) := do
  let now ← osTime
  match ← liftUB (makeArcName (o.cfg.has CFG_WEEKDAYNAMING) o.maxBundle now (o.wday now) st.arcs (st.last.map (·.2))
      ((st.last[i]?.map (·.2)).getD [])) with
  | none => .stuck
  | some name =>
    if eqi ((st.last[i]?.map (·.2)).getD []) name then return (name, st)
    else
      let last := st.last.modify i fun p => (p.1, name.take 12)
      let _ ← writeFile (indexName o) .new (writeIndex last)
      return (name, { st with last })

/-- `UpdateFile` (`outbound.c` 579-599). -/
def updateFile (st : PackSt) (name : Str) : Prog PackSt := do
  match ← readFile name with
  | none => return st
  | some d =>
    let size := d.length % 2 ^ 32
    match st.arcs.findIdx? fun fe => eqi fe.name name with
    | some i => return { st with arcs := st.arcs.modify i fun fe => { fe with size } }
    | none => return { st with arcs := st.arcs ++ [{ name := mystrncpy (getFilePart name) 100, size }] }

/-- The file is in the flow file or, if that fails, has an orphan file (`outbound.c` 715-716, 758-759). -/
def flowOrOrphan (o : OutCfg) (file base : Str) (n : Node4D) (type : UInt8) : Prog Unit := do
  if ← doAddFlow o file base type .delete then return ()
  else makeOrphan file n type .delete

/-- Packing of an echomail packet for a node with a packer (`outbound.c` 680-725). -/
def packEcho (o : OutCfg) (st : PackSt) (file base : Str) (n : Node4D) (i : Nat) (cnode : ConfigNode) (cmd : Str) :
    Prog (Bool × PackSt) := do
  let (name, st) ← newArcName o st i
  let arc := makeFullPath o.cfg.packetDir name 200
  let pkt ← liftUB (shortPktName (mystrncpy file 200))
  let _ ← osRename file pkt
  let before ← (if o.beforePack ≠ [] then do
      let c ← liftUB (expandPacker 200 arc pkt o.beforePack [])
      osExecute c
    else return 0)
  if before ≠ 0 then
    let _ ← osRename pkt file
    return (false, st)
  else
    let c ← liftUB (expandPacker 200 arc pkt cmd [])
    let res ← osExecute c
    if res ≠ 0 then
      let _ ← osRename pkt file
      return (false, st)
    else
      let st ← updateFile st arc
      let _ ← osDelete pkt
      flowOrOrphan o arc base n cnode.echomailPri
      return (true, st)

/-- Sending of an echomail packet without packing (`outbound.c` 740-760); `cnode` is used although it
can be `NULL`. -/
def moveEcho (o : OutCfg) (st : PackSt) (file base : Str) (n : Node4D) (cnode : Option ConfigNode) : Prog (Bool × PackSt) := do
  let pkt ← liftUB (shortPktName (makeFullPath o.cfg.packetDir (getFilePart file) 200))
  match cnode with
  | none => .ub .nullDeref
  | some cnode =>
    let (ok, io) ← movefile st.io file pkt
    if !ok then return (false, { st with io })
    else
      flowOrOrphan o pkt base n cnode.echomailPri
      return (true, { st with io })

/-- Netmail (`outbound.c` 761-848). The loop reads and writes in turn; here the file is read first. -/
def packNetmail (st : PackSt) (file base : Str) (type : UInt8) : Prog (Bool × PackSt) := do
  if 200 ≤ base.length + 4 then .ub .oobWrite
  else match ← readFile file with
    | none => return (false, st)
    | some d =>
      let there ← osExists (outFile base type)
      match ← (if there then writeFile (outFile base type) (.fromEnd 2) (d.drop 58)
          else writeFile (outFile base type) .new d) with
      | none => return (false, st)
      | some ok =>
        let _ ← osDelete file
        return (true, if ok then st else { st with io := true })

/-- `PackFile` (`outbound.c` 603-856). -/
def packFile (o : OutCfg) (st : PackSt) (file : Str) : Prog (Bool × PackSt) := do
  match parsePktName file with
  | none => return (false, st)
  | some (type, n) =>
    let base ← liftUB (makeBaseName o.cfg o.outbound n)
    if ← lockBasename base then
      let (ok, st) ← (if type = PKTS_ECHOMAIL then
          match o.cfg.nodes.findIdx? fun c => compare4D c.node n == 0 with
          | none => moveEcho o st file base n none
          | some i =>
            match o.cfg.nodes[i]? with
            | none => moveEcho o st file base n none
            | some cnode =>
              match cnode.packer.bind fun j => o.cfg.packers[j]? with
              | none => moveEcho o st file base n (some cnode)
              | some p => packEcho o st file base n i cnode p.cmd
        else packNetmail st file base type)
      unlockBasename base
      return (ok && !st.io, st)
    else return (false, st)

/-- `MakePktTmp` (`outbound.c` 563-577). The buffer is `char buf[200]`. -/
def makePktTmp (o : OutCfg) (st : PackSt) (name : Str) : Prog (Bool × PackSt) := do
  let buf := makeFullPath o.cfg.packetDir (getFilePart name) 200
  if buf.length < 6 then .ub .oobWrite
  else
    let (ok, io) ← movefile st.io name (buf.take (buf.length - 6) ++ b!"pkttmp")
    return (ok, { st with io })

/-! ## `ArchiveOutbound` -/

/-- `DeleteZero` (`outbound.c` 339-364). -/
def deleteZero (dir : Str) : List FileEntry → Prog (List FileEntry)
  | [] => return []
  | fe :: r => do
    if fe.size = 0 then
      let _ ← osDelete (makeFullPath dir fe.name 200)
      deleteZero dir r
    else return fe :: (← deleteZero dir r)

/-- The loop over the orphan files (`outbound.c` 879-885); it ends when Ctrl-C is pressed. -/
def orphanLoop (o : OutCfg) : List FileEntry → Prog Unit
  | [] => return ()
  | fe :: r => do
    if ← osSleep then return ()
    else
      handleOrphan o (makeFullPath o.cfg.packetDir fe.name 200)
      orphanLoop o r

/-- The loop over old packets (`outbound.c` 926-932). -/
def oldLoop (o : OutCfg) : PackSt → List FileEntry → Prog PackSt
  | st, [] => return st
  | st, fe :: r => do
    let (_, st) ← packFile o st (makeFullPath o.cfg.packetDir fe.name 200)
    oldLoop o st r

/-- The loop over new packets (`outbound.c` 951-962). -/
def newLoop (o : OutCfg) : PackSt → List FileEntry → Prog (Bool × PackSt)
  | st, [] => return (true, st)
  | st, fe :: r => do
    let (ok, st) ← packFile o st (makeFullPath o.packetCreate fe.name 200)
    if ok then newLoop o st r
    else
      let (ok, st) ← makePktTmp o st (makeFullPath o.packetCreate fe.name 200)
      if ok then newLoop o st r else return (false, st)

/-- `ReadIndex` (`outbound.c` 144-203). `WriteIndex` is called once for every name that is cleared; here
once for all of them. -/
def readIndexFile (o : OutCfg) (last : List (Node4D × Str)) : Prog (List (Node4D × Str)) := do
  match ← readFile (indexName o) with
  | none => return last
  | some c =>
    let l ← liftUB (readIndexLoop (c.length + 1) c last)
    if clearDups l = l then return l
    else
      let _ ← writeFile (indexName o) .new (writeIndex (clearDups l))
      return clearDups l

/-- `ArchiveOutbound` (`outbound.c` 858-963). -/
def archiveOutbound (o : OutCfg) (st : PackSt) : Prog (Bool × PackSt) := do
  match ← osReadDir o.cfg.packetDir isOrphan with
  | none => return (false, st)
  | some orphans =>
    orphanLoop o (o.sort orphans)
    match ← osReadDir o.cfg.packetDir isArc with
    | none => return (false, st)
    | some arcs =>
      let arcs ← deleteZero o.cfg.packetDir arcs
      let last ← readIndexFile o st.last
      let st := { st with arcs, last }
      match ← osReadDir o.cfg.packetDir isPktTmp with
      | none => return (false, st)
      | some old =>
        let st ← oldLoop o st (o.sort old)
        match ← osReadDir o.packetCreate isNewPkt with
        | none => return (false, st)
        | some new => newLoop o st (o.sort new)

/-! ## The end of a run -/

/-- `FinishPacket` (`pkt.c` 658-706) for a packet whose file has been written up to the end mark. -/
def finishPacket (o : OutCfg) (st : PackSt) (num : UInt32) (type : UInt8) (dest : Node4D) : Prog PackSt := do
  let old := makeFullPath o.packetCreate (pktTempName num) 200
  let r ← writeFile old (.fromEnd 0) [0, 0]
  let st := { st with io := st.io || r != some true }
  if num = 0 then return st
  else
    let name ← liftUB (pktDoneName num type dest)
    let _ ← osRename old (makeFullPath o.packetCreate name 200)
    return st

/-- `ClosePackets` (`pkt.c` 708-720). -/
def finishPackets (o : OutCfg) : PackSt → List (UInt32 × UInt8 × Node4D) → Prog PackSt
  | st, [] => return st
  | st, (num, type, dest) :: r => do finishPackets o (← finishPacket o st num type dest) r

/-- `SafeDelete` (`safedel.c` 3-14): the name kept in the list. -/
def safeDeleteName (file : Str) : Str := mystrncpy file 100

/-- `ProcessSafeDelete` (`safedel.c` 16-24). -/
def processSafeDelete : List Str → Prog Unit
  | [] => return ()
  | f :: r => do
    let _ ← osDelete f
    processSafeDelete r

/-- The beginning of `AfterScanToss` (`crashmail.c` 146-159); `dels` is the `DeleteList`. -/
def afterScanToss (o : OutCfg) (st : PackSt) (success : Bool) (pkts : List (UInt32 × UInt8 × Node4D)) (dels : List Str) :
    Prog Unit := do
  let st ← finishPackets o st pkts
  if success then
    let _ ← archiveOutbound o st
    processSafeDelete dels
  else return ()

/-- Removal of packets a failed run has left, in `BeforeScanToss` (`crashmail.c` 263-287). -/
def removeNewPkts (o : OutCfg) : Prog Bool := do
  match ← osReadDir o.packetCreate isNewPkt with
  | none => return false
  | some es =>
    processSafeDelete (es.map fun fe => makeFullPath o.packetCreate fe.name 200)
    return true

end CM
