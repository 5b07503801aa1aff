import Verif.Spec.JamScan
import Verif.Spec.ConfigFile
import Verif.Props.Path
/-! # Sending messages again, from outside -/

namespace CM

/-- There is a message at position `k`, and it is not deleted. -/
def JamLive (ms : List (Option JamMsg)) (k : Nat) : Bool :=
  match ms[k]? with
  | some (some m) => !m.dead
  | _ => false

/-- The messages from position `n` up to `p` have been handed over, each once and in their order. -/
structure JamResent (load : UInt32 → JamMsg → MemMsg → Prop) (start : UInt32) (n p : Nat) (ms : List (Option JamMsg)) (sent : List (UInt32 × MemMsg)) : Prop where
  nums : sent.map (·.1) = ((List.range' n (p - n)).filter (JamLive ms)).map fun k => start + UInt32.ofNat k
  what : ∀ x ∈ sent, ∃ k m, n ≤ k ∧ k < p ∧ ms[k]? = some (some m) ∧ x.1 = start + UInt32.ofNat k ∧ load x.1 m x.2

/-- The copy `m'` of a message `m` that is sent again to the node `n`: only SEEN-BY, PATH and what belongs to the packet differ; the SEEN-BY entries are those of the
message, the own address and that of the node, unless they are points; the own address is added to the PATH, unless it is a point and PATH3D is off. -/
structure ResentAs (cfg : Config) (aka : Node4D) (n : ConfigNode) (m m' : MemMsg) : Prop where
  same : m' = { m with type := PKTS_ECHOMAIL, dest := n.node, orig := if n.has NODE_PKTFROM then n.pktFrom else aka, seenBy := m'.seenBy, path := m'.path }
  seen : ∀ y, y ∈ m'.seenBy.flatten ↔ y ∈ m.seenBy.flatten ∨ (aka.point = 0 ∧ y = (aka.net, aka.node)) ∨ (n.node.point = 0 ∧ y = (n.node.net, n.node.node))
  sorted : m'.seenBy.flatten.Pairwise fun a b => a.1 < b.1 ∨ a.1 = b.1 ∧ a.2 ≤ b.2
  noPath : aka.point ≠ 0 → cfg.has CFG_PATH3D = false → m'.path = m.path
  path : aka.point = 0 ∨ cfg.has CFG_PATH3D = true → m'.path = m.path ∨ (∃ b init l, m.path.flatten = init ++ [l] ∧ m'.path.flatten = init ++ [l ++ b!" " ++ hopWord aka b]) ∨
    m'.path.flatten = m.path.flatten ++ [hopWord aka true]

/-- What is sent for the messages `ms`: `cs`, one copy for each in their order, or only for the first ones. -/
structure ResentAll (cfg : Config) (aka : Node4D) (n : ConfigNode) (ms cs : List MemMsg) (all : Bool) : Prop where
  count : cs.length ≤ ms.length
  done : all = true → cs.length = ms.length
  each : ∀ (j : Nat) (m m' : MemMsg), ms[j]? = some m → cs[j]? = some m' → ResentAs cfg aka n m m'

/-- What the command needs: the address is that of a node, and the tag that of an echomail area, with a message base that can send messages again. -/
structure CanResend (env : Env) (cfg : Config) (tag addr : Str) (k : Nat) (n : ConfigNode) (i : Nat) (a : Area) : Prop where
  addr : ∃ d, parse4D addr = some d ∧ AddrOf cfg d k
  node : cfg.nodes[k]? = some n
  tag : TagOf cfg tag i
  area : cfg.areas[i]? = some a
  echo : a.type = .echomail
  base : ∃ b, a.base = some b ∧ env.canRescan b = true

end CM
