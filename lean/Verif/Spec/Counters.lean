import Verif.Model.Counters

/-! # What the counters of a node should count -/

namespace CM

/-- The number of bytes of a text. -/
def textSize (chunks : List Str) : Nat := (chunks.map (·.length)).sum

/-- The texts of the echomails received from a node. -/
def echoFrom (a : Node4D) (es : List CountEvent) : List (List Str) := es.filterMap fun
  | .read orig area chunks => if orig = a ∧ area ≠ [] then some chunks else none
  | _ => none

/-- The texts of the netmails received from a node. -/
def netFrom (a : Node4D) (es : List CountEvent) : List (List Str) := es.filterMap fun
  | .read orig area chunks => if orig = a ∧ area = [] then some chunks else none
  | _ => none

/-- The duplicates received from a node. -/
def dupesFrom (a : Node4D) (es : List CountEvent) : List Node4D := es.filterMap fun
  | .duplicate orig => if orig = a then some a else none
  | _ => none

/-- The texts of the echomails sent to the node in place `k`. -/
def echoTo (k : Nat) (es : List CountEvent) : List (List Str) := es.filterMap fun
  | .sentEcho i chunks => if i = k then some chunks else none
  | _ => none

/-- The texts of the netmails sent to a node. -/
def netTo (a : Node4D) (es : List CountEvent) : List (List Str) := es.filterMap fun
  | .sentNet dest chunks => if dest = a then some chunks else none
  | _ => none

/-- The sizes of texts, together. -/
def sizeAll (ts : List (List Str)) : Nat := (ts.map textSize).sum

/-- The addresses of packets are complete. -/
def CountEvent.Zoned : CountEvent → Prop
  | .read orig .. => orig.zone ≠ 0
  | .handled .. => True
  | .duplicate orig => orig.zone ≠ 0
  | .sentEcho .. => True
  | .sentNet dest _ => dest.zone ≠ 0

/-- The nodes are different and have complete addresses. -/
def NodesApart (ns : List NodeStat) : Prop := (ns.map (·.node)).Nodup ∧ ∀ n ∈ ns, n.node.zone ≠ 0

/-- What should be counted for the node in place `k`. -/
def countedRightly (k : Nat) (es : List CountEvent) (n : NodeStat) : NodeStat :=
  { n with
    gotNetmails := n.gotNetmails + UInt32.ofNat (netFrom n.node es).length
    gotNetmailBytes := n.gotNetmailBytes + UInt32.ofNat (sizeAll (netFrom n.node es))
    sentNetmails := n.sentNetmails + UInt32.ofNat (netTo n.node es).length
    sentNetmailBytes := n.sentNetmailBytes + UInt32.ofNat (sizeAll (netTo n.node es))
    gotEchomails := n.gotEchomails + UInt32.ofNat (echoFrom n.node es).length
    gotEchomailBytes := n.gotEchomailBytes + UInt32.ofNat (sizeAll (echoFrom n.node es))
    sentEchomails := n.sentEchomails + UInt32.ofNat (echoTo k es).length
    sentEchomailBytes := n.sentEchomailBytes + UInt32.ofNat (sizeAll (echoTo k es))
    dupes := n.dupes + UInt32.ofNat (dupesFrom n.node es).length }

end CM
