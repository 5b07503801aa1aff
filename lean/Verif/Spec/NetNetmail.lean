import Verif.Spec.Net
import Verif.Props.Path
/-!
# A netmail in a network: specification

The route is a sequence of different systems `hop 0`, …, `hop len`.
-/

namespace CM

/-- No line is longer than 8000 bytes. -/
def ShortLines (t : Str) : Prop := ∀ a b c : Str, t = a ++ b ++ c → (13 : UInt8) ∉ b → b.length ≤ 8000

/-- The line a system adds to a netmail that it passes on under the address `aka`. -/
def viaText (aka : Node4D) (time : Str) : Str :=
  1 :: b!"Via " ++ print4D aka ++ b!" @" ++ time ++ b!" CrashMail II/Linux 1.5.1" ++ [13]

/-- A time as it is written to Via lines. -/
def TimeText (t : Str) : Prop := t.length ≤ 40 ∧ (0 : UInt8) ∉ t ∧ (10 : UInt8) ∉ t ∧ (13 : UInt8) ∉ t

/-- The Via lines of the first `k` systems. -/
def ViaLines (aka : Nat → Node4D) (k : Nat) (ls : List Str) : Prop :=
  ls.length = k ∧ ∀ j, j < k → ∃ time, TimeText time ∧ ls[j]? = some (viaText (aka j) time)

/-- System `v` passes netmails to the destination of `m` on to system `w`, under the address `aka`. The
route is that of C04. -/
structure Forwards (n : Net) (m : MemMsg) (v w : Nat) (aka : Node4D) : Prop where
  filters : (n.start v).cfg.filters = []
  elsewhere : ∀ a ∈ (n.start v).cfg.akas, ¬ SameSystem a.node m.dest
  noArea : ∀ a ∈ (n.start v).cfg.areas, a.type = .netmail → ∀ x ∈ a.importNodes, ¬ SameSystem x m.dest
  noRoute : (n.start v).cfg.has CFG_NOROUTE = false
  loops : (n.start v).cfg.loopMode ≠ 2
  route : ∃ p, routeNetmail (n.start v).cfg.nl (n.start v).cfg.routes (n.start v).cfg.changes m.dest .normal = some (n.addr w, p, aka)
  listed : (n.start v).cfg.nlConfigured = false ∨ (n.start v).cfg.nlCheck m.dest.boss = true
  points : (n.start v).cfg.has CFG_BOUNCEPOINTS = false ∨ ∀ a ∈ (n.start v).cfg.akas, ¬ SameSystem a.node m.dest.boss
  sends : ∀ nd, findNode (n.start v).cfg.nodes (n.addr w) = some nd → nd.has NODE_PKTFROM = false ∧ NoNul nd.packetPW ∧ nd.packetPW.length ≤ 8
  password : ∀ nd', findNode (n.start w).cfg.nodes aka = some nd' → nd'.packetPW = [] ∨
    ∃ nd, findNode (n.start v).cfg.nodes (n.addr w) = some nd ∧ nd.has NODE_NONETMAILPASSWORD = false ∧ nd.packetPW.map lower = nd'.packetPW.map lower
  sender : aka.zone ≠ 0 ∧ (aka.point = 0 ∨ aka.net ≠ 0xffff)
  time : ∀ log, TimeText ((n.env v).viaTime log)
  works : ∀ log d x, (n.env v).netOk log d x = true

/-- The area is for netmails to this address. -/
def TakesFor (c : Config) (dest : Node4D) (a : Area) : Prop :=
  a.type = .netmail ∧ ((∃ k, a.aka.bind (c.akas[·]?) = some k ∧ SameSystem k.node dest) ∨ ∃ x ∈ a.importNodes, SameSystem x dest)

/-- System `v` stores netmails to the destination of `m`, in its area number `i`: the first one for this
address, or the first one of all if there is none and the address is its own. -/
structure Receives (n : Net) (m : MemMsg) (v i : Nat) (a : Area) : Prop where
  filters : (n.start v).cfg.filters = []
  area : (n.start v).cfg.areas[i]? = some a
  chosen : (TakesFor (n.start v).cfg m.dest a ∧ ∀ j b, j < i → (n.start v).cfg.areas[j]? = some b → ¬ TakesFor (n.start v).cfg m.dest b) ∨
    ((∀ b ∈ (n.start v).cfg.areas, ¬ TakesFor (n.start v).cfg m.dest b) ∧ (∃ k ∈ (n.start v).cfg.akas, SameSystem m.dest k.node) ∧
      a.type = .netmail ∧ ∀ j b, j < i → (n.start v).cfg.areas[j]? = some b → b.type ≠ .netmail)
  stores : a.base ≠ none
  notAreafix : ∀ x ∈ (n.start v).cfg.areafixNames, x.map lower ≠ m.to.map lower
  works : ∀ log k x, (n.env v).importOk log k x = true

/-- A netmail that has just been posted and keeps its form in packets: with its address lines, text in
complete lines, and without attributes that need more than passing it on. `aka` are the addresses it is
sent under; without an INTL line all have to be in its zone. -/
structure PostedNetmail (m : MemMsg) (len : Nat) (aka : Nat → Node4D) : Prop where
  netmail : m.area = []
  flags : m.has MMFLAG_KILL = false ∧ m.has MMFLAG_TWIT = false
  attr : m.attr &&& (FLAG_CRASH ||| FLAG_HOLD ||| FLAG_FILEATTACH ||| FLAG_RREQ ||| FLAG_AUDIT) = 0
  zones : m.orig.zone ≠ 0 ∧ m.dest.zone ≠ 0
  strings : Packable m
  ids : m.msgid.length ≤ 79 ∧ m.reply.length ≤ 79
  seenBy : m.seenBy = []
  path : m.path = []
  chunks : TextOK m.text ∧ (∀ c ∈ m.text, c.getLast? = some 13)
  short : ShortLines m.text.flatten
  noNul : NoNul m.text.flatten
  noArea : ¬ b!"AREA:" <+: m.text.flatten
  text : ∃ force body, m.text.flatten = (netmailKludgeLines force m.orig m.dest).flatten ++ body ∧
    (∀ l ∈ pieces body, SafeKludge l ∧ ¬ AddrKludge l ∧ ¬ (1 :: b!"RESCANNED") <+: l) ∧
    (HasIntl force m.orig m.dest ∨ ∀ k, k < len → (aka k).zone = m.orig.zone)
  says : ∃ p r, m.text.flatten = p ++ r ∧ EndsCR p ∧ r ≠ [] ∧ r.head? ≠ some 1

/-- The conditions for the route of a netmail. -/
structure NmRoute (n : Net) (m : MemMsg) (len : Nat) (hop : Nat → Nat) (aka : Nat → Node4D) (i : Nat) (a : Area) : Prop where
  inside : ∀ k, k ≤ len → hop k < n.size
  once : ∀ j k, j ≤ len → k ≤ len → hop j = hop k → j = k
  addresses : Addresses n
  own : ∀ k, k ≤ len → ∃ b ∈ (n.start (hop k)).cfg.akas, b.node = n.addr (hop k)
  forwards : ∀ k, k < len → Forwards n m (hop k) (hop (k + 1)) (aka k)
  receives : Receives n m (hop len) i a
  posted : PostedNetmail m len aka
  buffer : n.junk.length = 14
  depth : 0 < n.fuel

/-- The netmail as it is stored: with its words and addresses, and one Via line for each system that
passed it on. -/
structure StoredNetmail (m : MemMsg) (len : Nat) (aka : Nat → Node4D) (x : MemMsg) : Prop where
  to : x.to = m.to
  frm : x.frm = m.frm
  date : x.date = m.date
  orig : x.orig = m.orig
  dest : x.dest = m.dest
  text : ∃ ls, ViaLines aka len ls ∧ x.text.flatten = m.text.flatten ++ ls.flatten

end CM
