import Verif.Model.Handle
import Verif.Model.Pkt
/-!
# A network of systems

Systems that run the program and exchange packets. A run of a system reads one packet, handles the
messages in it and writes the copies to new packets. What lies between (the outbound directory, the
mailer, the archiver, the inbound directory) is left out: a packet written arrives as it is, at the
system with its destination address, at any later time and in any order.
-/

namespace CM

/-- What the packet reader uses of a configuration (`pkt.c` 196-270). -/
def pktCfgOf (c : Config) (dz : UInt16) : PktCfg :=
  { akas := c.akas
    nodes := c.nodes
    defaultZone := dz
    checkDest := c.has CFG_CHECKPKTDEST
    noSecurity := false }

/-- The systems: their addresses, their state at the beginning, the outcomes of their file operations,
their default zones, and the AreaFix handler and depth of `handleMessage`; the packet size limit, the
time in packet headers and the old contents of the header buffer. -/
structure Net where
  size : Nat
  addr : Nat → Node4D
  start : Nat → HSt
  env : Nat → Env
  zone : Nat → UInt16
  af : (MemMsg → M Unit) → MemMsg → M Unit
  fuel : Nat
  maxSize : Nat
  date : PktDate
  junk : List UInt8

/-- The packets of the copies and netmails of a run (`handle.c` 712-724 and 1670-1690 calling `pkt.c`
781-965); `none` if a write is undefined. -/
def packCopies (n : Net) (c : Config) : PktState → List Effect → Option PktState
  | st, [] => some st
  | st, .echo k aka x :: es =>
    match c.nodes[k]? with
    | none => none
    | some nd => match writeEchoMail n.maxSize n.date x nd aka st with
      | .error _ => none
      | .ok st => packCopies n c st es
  | st, .netmail dest aka x :: es => packCopies n c (writeNetMail n.maxSize n.date c.nodes x dest aka st) es
  | st, _ :: es => packCopies n c st es

/-- The handling of the messages of a packet (`pkt.c` 478-497 calling `handle.c` 7-21). -/
def handleAll (f : MemMsg → M Unit) : List MemMsg → M Unit
  | [] => pure ()
  | m :: ms => do
    f m
    handleAll f ms

/-- The states of the systems and the packets on their way. -/
structure NetSt where
  sys : Nat → HSt
  mail : List Pkt

/-- System `v` handles the messages, in state `s`, and the packets `ps` leave it. -/
def Handles (n : Net) (v : Nat) (ms : List MemMsg) (s t : HSt) (ps : List Pkt) : Prop :=
  handleAll (handleMessage (n.env v) n.af n.fuel) ms s = .ok () t ∧
  ∃ es st, t.log = s.log ++ es ∧ packCopies n t.cfg {} es = some st ∧ ps = (closePackets st).finished

/-- The runs of the network after a message was exported by system `r`: the systems that have run,
and the state. -/
inductive NetRun (n : Net) (r : Nat) (m : MemMsg) : List Nat → NetSt → Prop
  | post (t : HSt) (ps : List Pkt) (h : Handles n r [m] (n.start r) t ps) :
      NetRun n r m [r] ⟨fun v => if v = r then t else n.start v, ps⟩
  | toss (vs : List Nat) (s : NetSt) (l1 l2 : List Pkt) (p : Pkt) (v : Nat) (ms : List MemMsg) (t : HSt) (ps : List Pkt)
      (before : NetRun n r m vs s) (mail : s.mail = l1 ++ p :: l2) (lt : v < n.size) (to : p.dest = n.addr v)
      (read : readPkt (pktCfgOf (s.sys v).cfg (n.zone v)) (fun _ _ => true) (fun _ => false) n.junk p.data = .ok (some (.done, ms)))
      (h : Handles n v ms (s.sys v) t ps) :
      NetRun n r m (vs ++ [v]) ⟨fun w => if w = v then t else s.sys w, l1 ++ l2 ++ ps⟩

end CM
