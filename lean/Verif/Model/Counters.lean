import Verif.Model.Stats
import Verif.Model.Node4D

/-! # The counters of the nodes

The places at which the counters of `struct ConfigNode` change while messages are tossed and scanned. `AfterScanToss` is in
`Model/Stats.lean`. -/

namespace CM

/-- The size of a message: the loops over the text chunks (`pkt.c` 455-458, 798-801, 920-923; `handle.c` 1145-1148). -/
def countSize (chunks : List Str) : UInt32 := chunks.foldl (fun s c => s + UInt32.ofNat c.length) 0

/-- The search for a node by its address (`pkt.c` 448-449, 915-916; `handle.c` 531-532, 1140-1141) and the change of its counters; without
such a node nothing is counted. The order of the arguments of `Compare4D` differs, which does not matter. -/
def bumpNode (ns : List NodeStat) (a : Node4D) (f : NodeStat → NodeStat) : List NodeStat :=
  match ns.findIdx? fun n => compare4D n.node a == 0 with
  | none => ns
  | some i => ns.modify i f

/-- The statistics of `ReadPkt` (`pkt.c` 446-470). -/
def countRead (ns : List NodeStat) (orig : Node4D) (area : Str) (chunks : List Str) : List NodeStat :=
  bumpNode ns orig fun n =>
    if area ≠ [] then { n with gotEchomails := n.gotEchomails + 1, gotEchomailBytes := n.gotEchomailBytes + countSize chunks }
    else { n with gotNetmails := n.gotNetmails + 1, gotNetmailBytes := n.gotNetmailBytes + countSize chunks }

/-- The statistics of `HandleNetmail` (`handle.c` 1138-1156); `tossed` is `MMFLAG_TOSSED`. -/
def countHandled (ns : List NodeStat) (tossed : Bool) (orig : Node4D) (chunks : List Str) : List NodeStat :=
  if tossed then bumpNode ns orig fun n =>
    { n with gotNetmails := n.gotNetmails + 1, gotNetmailBytes := n.gotNetmailBytes + countSize chunks }
  else ns

/-- What happens during a run. -/
inductive CountEvent where
  /-- `ReadPkt` has read a message from a packet of `orig`. -/
  | read (orig : Node4D) (area : Str) (chunks : List Str)
  /-- `HandleMessage` is called for a message that was exported or made by the program itself; its packet address is all zeros or
  that of the area. -/
  | handled (orig : Node4D) (area : Str) (chunks : List Str)
  /-- `HandleEchomail` has found a duplicate. -/
  | duplicate (orig : Node4D)
  /-- `WriteEchoMail` for the node with this index. -/
  | sentEcho (i : Nat) (chunks : List Str)
  /-- `WriteNetMail` to this node. -/
  | sentNet (dest : Node4D) (chunks : List Str)

/-- The counters after it (`pkt.c` 446-476, 796-804, 913-928; `handle.c` 15, 681-682, 1138-1156). `ReadPkt` marks the message as tossed and hands
it over to `HandleMessage`, which calls `HandleNetmail` for messages without area; the texts are not changed in between. -/
def countEvent (ns : List NodeStat) : CountEvent → List NodeStat
  | .read orig area chunks =>
    let ns := countRead ns orig area chunks
    if area = [] then countHandled ns true orig chunks else ns
  | .handled orig area chunks => if area = [] then countHandled ns false orig chunks else ns
  | .duplicate orig => bumpNode ns orig fun n => { n with dupes := n.dupes + 1 }
  | .sentEcho i chunks =>
    ns.modify i fun n => { n with sentEchomails := n.sentEchomails + 1, sentEchomailBytes := n.sentEchomailBytes + countSize chunks }
  | .sentNet dest chunks =>
    bumpNode ns dest fun n => { n with sentNetmails := n.sentNetmails + 1, sentNetmailBytes := n.sentNetmailBytes + countSize chunks }

/-- A run. -/
def countRun (ns : List NodeStat) (es : List CountEvent) : List NodeStat := es.foldl countEvent ns

end CM
