import Verif.Model.Net
import Verif.Spec.Echo
import Verif.Props.PktRound
/-!
# An echomail in a network: specification

The network is a tree, seen from the system where the message is posted.
-/

namespace CM

/-- The systems form a tree with the given root: every other system has a parent one step nearer to
the root. -/
structure Tree (size root : Nat) (parent depth : Nat → Nat) : Prop where
  inside : root < size
  up : ∀ v, v < size → v ≠ root → parent v < size ∧ depth v = depth (parent v) + 1

/-- Two systems are neighbours. -/
def Neighbour (size root : Nat) (parent : Nat → Nat) (v w : Nat) : Prop :=
  v < size ∧ w < size ∧ ((v ≠ root ∧ w = parent v) ∨ (w ≠ root ∧ v = parent w))

/-- The addresses of the systems differ and can be written to packets. -/
structure Addresses (n : Net) : Prop where
  distinct : ∀ v w, v < n.size → w < n.size → n.addr v = n.addr w → v = w
  zone : ∀ v, v < n.size → (n.addr v).zone ≠ 0
  net : ∀ v, v < n.size → (n.addr v).point = 0 ∨ (n.addr v).net ≠ 0xffff

/-- System `v` takes part in the area `tag`, which it has as number `i`, under its address, with its
neighbours as links, and passes a message with the identifier `id` on. -/
structure TakesPart (n : Net) (root : Nat) (parent : Nat → Nat) (tag id : Str) (v i : Nat) (a : Area) (aka : Aka) : Prop where
  area : AreaOf (n.start v).cfg tag i a
  confirmed : a.has AREA_UNCONFIRMED = false
  echo : a.importNodes = []
  stores : a.base ≠ none
  own : a.aka.bind ((n.start v).cfg.akas[·]?) = some aka
  addr : aka.node = n.addr v
  lists : aka.addList = [] ∧ aka.remList = []
  filters : (n.start v).cfg.filters = []
  known : ∀ t ∈ a.tossNodes, ∃ nd, (n.start v).cfg.nodes[t.node]? = some nd
  once : ((links (n.start v).cfg a).map fun l => l.2.node).Nodup
  neighbours : ∀ x, x ∈ ((links (n.start v).cfg a).map fun l => l.2.node) ↔ ∃ w, Neighbour n.size root parent v w ∧ x = n.addr w
  plain : ∀ l ∈ links (n.start v).cfg a, l.2.has NODE_PASSIVE = false ∧ l.2.has NODE_PKTFROM = false ∧
    l.1.has TOSSNODE_READONLY = false ∧ l.1.has TOSSNODE_WRITEONLY = false ∧ NoNul l.2.packetPW ∧ l.2.packetPW.length ≤ 8
  fresh : ∀ k, ¬ Stale (n.start v).cfg (n.start v).seen a k
  new : (n.start v).cfg.dupeMode = 0 ∨ a.has AREA_IGNOREDUPES = true ∨
    ∃ db, checkDupe (n.start v).cfg.dupeSize (n.start v).dupe id tag = .ok (db, false)
  works : (∀ log k x, (n.env v).echoOk log k x = true) ∧ ∀ log k x, (n.env v).importOk log k x = true

/-- The passwords of neighbours agree: whoever expects one gets it. -/
def PasswordsAgree (n : Net) (root : Nat) (parent : Nat → Nat) : Prop :=
  ∀ v w, Neighbour n.size root parent v w → ∀ nd ∈ (n.start v).cfg.nodes, nd.node = n.addr w →
    ∀ nd', findNode (n.start w).cfg.nodes (n.addr v) = some nd' →
      nd'.packetPW = [] ∨ nd.packetPW.map lower = nd'.packetPW.map lower

/-- A message that has just been posted and keeps its form in packets. -/
structure Posted (n : Net) (root : Nat) (m : MemMsg) : Prop where
  exported : m.has MMFLAG_EXPORTED = true ∧ m.has MMFLAG_TOSSED = false ∧ m.has MMFLAG_RESCANNED = false ∧
    m.has MMFLAG_KILL = false ∧ m.has MMFLAG_TWIT = false
  orig : m.pktOrig = n.addr root
  seenBy : m.seenBy = []
  path : m.path = []
  strings : Packable m
  area : AreaName m.area
  ends : EndsCR m.text.flatten
  noNul : NoNul m.text.flatten
  lines : ∀ l ∈ pieces m.text.flatten, SafeEcho l ∧ ¬ b!"SEEN-BY:" <+: l ∧ ¬ (1 :: b!"PATH:") <+: l ∧ ¬ (1 :: b!"RESCANNED") <+: l

/-- The messages stored among the effects, with the number of the area. -/
def storedIn (es : List Effect) : List (Nat × MemMsg) :=
  es.filterMap fun e => match e with
    | .importMsg i m => some (i, m)
    | _ => none

/-- The copies among the effects: the address of the receiver. -/
def copiesTo (es : List Effect) : List Node4D :=
  es.filterMap fun e => match e with
    | .echo _ _ m => some m.dest
    | _ => none

/-- What system `v` has done since the message was posted. -/
def newIn (n : Net) (s : NetSt) (v : Nat) : List Effect := (s.sys v).log.drop (n.start v).log.length

/-- The receivers of all copies sent in the network. -/
def allCopies (n : Net) (s : NetSt) : List Node4D := (List.range n.size).flatMap fun v => copiesTo (newIn n s v)

/-- The conditions for an area of a network: `i`, `a` and `aka` give each system's number of the area,
its record and its address. -/
structure EchoNet (n : Net) (root : Nat) (parent depth : Nat → Nat) (m : MemMsg) (i : Nat → Nat) (a : Nat → Area) (aka : Nat → Aka) : Prop where
  tree : Tree n.size root parent depth
  addresses : Addresses n
  passwords : PasswordsAgree n root parent
  part : ∀ v, v < n.size → TakesPart n root parent m.area (msgidOf m.text.flatten) v (i v) (a v) (aka v)
  posted : Posted n root m
  buffer : n.junk.length = 14
  depth : 0 < n.fuel

/-- Two messages say the same. -/
structure SameWords (m x : MemMsg) : Prop where
  area : x.area = m.area
  text : x.text.flatten = m.text.flatten
  to : x.to = m.to
  frm : x.frm = m.frm
  date : x.date = m.date

end CM
