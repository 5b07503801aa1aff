import Verif.Spec.Net
import Verif.Props.Dupe
/-!
# An echomail in a network with loops: specification

Any connected network of systems that check for duplicates.
-/

namespace CM

/-- A system that can be reached from `r` over links. -/
inductive Reaches (nb : Nat → Nat → Prop) (r : Nat) : Nat → Prop
  | here : Reaches nb r r
  | next (v w : Nat) (before : Reaches nb r v) (link : nb v w) : Reaches nb r w

/-- The links of a connected network: each goes both ways and joins two different systems. -/
structure Connected (size root : Nat) (nb : Nat → Nat → Prop) : Prop where
  inside : root < size
  lt : ∀ v w, nb v w → v < size
  both : ∀ v w, nb v w → nb w v
  differ : ∀ v w, nb v w → v ≠ w
  all : ∀ v, v < size → Reaches nb root v

/-- System `v` takes part in the area `tag`, which it has as number `i`, under its address, with its
neighbours as links, kills duplicates, and has not had a message with the identifier `id` lately. -/
structure Joins (n : Net) (nb : Nat → Nat → Prop) (tag id : Str) (v i : Nat) (a : Area) (aka : Aka) : Prop where
  area : AreaOf (n.start v).cfg tag i a
  confirmed : a.has AREA_UNCONFIRMED = false
  echo : a.importNodes = []
  stores : a.base ≠ none
  own : a.aka.bind ((n.start v).cfg.akas[·]?) = some aka
  addr : aka.node = n.addr v
  lists : aka.addList = [] ∧ aka.remList = []
  filters : (n.start v).cfg.filters = []
  known : ∀ t ∈ a.tossNodes, ∃ nd, (n.start v).cfg.nodes[t.node]? = some nd
  once : ((links (n.start v).cfg a).map fun l => l.2.node).Nodup
  neighbours : ∀ x, x ∈ ((links (n.start v).cfg a).map fun l => l.2.node) ↔ ∃ w, nb v w ∧ x = n.addr w
  plain : ∀ l ∈ links (n.start v).cfg a, l.2.has NODE_PASSIVE = false ∧ l.2.has NODE_PKTFROM = false ∧
    l.1.has TOSSNODE_READONLY = false ∧ l.1.has TOSSNODE_WRITEONLY = false ∧ NoNul l.2.packetPW ∧ l.2.packetPW.length ≤ 8
  fresh : ∀ k, ¬ Stale (n.start v).cfg (n.start v).seen a k
  kills : (n.start v).cfg.dupeMode = 2 ∧ a.has AREA_IGNOREDUPES = false
  new : ∃ all, DupeInv (n.start v).cfg.dupeSize (n.start v).dupe all ∧ keyRec (id, tag) ∉ lastN (n.start v).cfg.dupeSize all ∧
    (n.start v).dupe.file.length + 336 < 2 ^ 32
  works : (∀ log k x, (n.env v).echoOk log k x = true) ∧ ∀ log k x, (n.env v).importOk log k x = true

/-- The passwords of neighbours agree: whoever expects one gets it. -/
def LinksAgree (n : Net) (nb : Nat → Nat → Prop) : Prop :=
  ∀ v w, nb v w → ∀ nd ∈ (n.start v).cfg.nodes, nd.node = n.addr w →
    ∀ nd', findNode (n.start w).cfg.nodes (n.addr v) = some nd' →
      nd'.packetPW = [] ∨ nd.packetPW.map lower = nd'.packetPW.map lower

/-- The conditions for an area of a network: `i`, `a` and `aka` give each system's number of the area,
its record and its address. -/
structure EchoGraph (n : Net) (root : Nat) (nb : Nat → Nat → Prop) (m : MemMsg) (i : Nat → Nat) (a : Nat → Area) (aka : Nat → Aka) : Prop where
  graph : Connected n.size root nb
  addresses : Addresses n
  passwords : LinksAgree n nb
  part : ∀ v, v < n.size → Joins n nb m.area (msgidOf m.text.flatten) v (i v) (a v) (aka v)
  posted : Posted n root m
  id : IdOK (msgidOf m.text.flatten) ∧ msgidOf m.text.flatten ≠ []
  buffer : n.junk.length = 14
  depth : 0 < n.fuel

/-- The systems write and heed complete SEEN-BY lines: one zone, no points, and no link that gets short
SEEN-BYs or none. -/
structure SeenByKept (n : Net) (root : Nat) (a : Nat → Area) : Prop where
  zone : ∀ v, v < n.size → (n.addr v).zone = (n.addr root).zone ∧ (n.addr v).point = 0
  named : ((n.addr root).net, (n.addr root).node) ≠ (0, 0)
  heeds : ∀ v, v < n.size → (n.start v).cfg.has CFG_CHECKSEENBY = true ∧ (a v).has AREA_IGNORESEENBY = false
  full : ∀ v, v < n.size → ∀ l ∈ links (n.start v).cfg (a v), l.2.has NODE_TINYSEENBY = false ∧ l.2.has NODE_NOSEENBY = false

end CM
