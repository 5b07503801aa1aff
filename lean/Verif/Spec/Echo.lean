import Verif.Model.Handle
/-!
# Who gets an echomail: specification

Written from the point of view of the configuration: the links of an area are its EXPORT entries.
-/

namespace CM

/-- The function returns `TRUE` (`b = true`) or `FALSE`, in state `t`. -/
def Ret {α : Type} (x : M α) (s : HSt) (b : Bool) (t : HSt) : Prop :=
  if b = true then ∃ a, x s = .ok a t else x s = .fail t

/-- Two addresses denote the same system. A zone of 0 stands for any zone. -/
def SameSystem (a b : Node4D) : Prop :=
  a.net = b.net ∧ a.node = b.node ∧ a.point = b.point ∧ (a.zone = b.zone ∨ a.zone = 0 ∨ b.zone = 0)

/-- Node number `k` of the configuration has the record `n` and is linked to the area with these
flags. -/
def Linked (cfg : Config) (a : Area) (k : Nat) (flags : UInt16) (n : ConfigNode) : Prop :=
  (⟨k, flags⟩ : TossNode) ∈ a.tossNodes ∧ cfg.nodes[k]? = some n

/-- The links of an area, in the order of the configuration. -/
def links (cfg : Config) (a : Area) : List (TossNode × ConfigNode) :=
  a.tossNodes.filterMap fun t => (cfg.nodes[t.node]?).map fun n => (t, n)

/-- The area a message belongs to: the first one with its tag, whatever the case of the letters. -/
def AreaOf (cfg : Config) (tag : Str) (i : Nat) (a : Area) : Prop :=
  cfg.areas[i]? = some a ∧ a.tag.map lower = tag.map lower ∧
    ∀ j < i, ∀ b, cfg.areas[j]? = some b → b.tag.map lower ≠ tag.map lower

/-- The SEEN-BY lines of the message say that the node has it. They count only when checking is
switched on, for messages from the zone of the area's address and nodes of that zone that are not
points. -/
def HasSeen (cfg : Config) (a : Area) (aka : Node4D) (m : MemMsg) (n : Node4D) : Prop :=
  cfg.has CFG_CHECKSEENBY = true ∧ a.has AREA_IGNORESEENBY = false ∧ aka.zone = m.pktOrig.zone ∧
    n.zone = aka.zone ∧ n.point = 0 ∧ (n.net, n.node) ∈ m.seenBy.flatten

/-- A link that should get a copy of a message that has just arrived. -/
def Due (cfg : Config) (a : Area) (aka : Node4D) (m : MemMsg) (l : TossNode × ConfigNode) : Prop :=
  ¬ SameSystem m.pktOrig l.2.node ∧ l.2.has NODE_PASSIVE = false ∧ l.1.has TOSSNODE_WRITEONLY = false ∧
    ¬ HasSeen cfg a aka m l.2.node

instance (a b : Node4D) : Decidable (SameSystem a b) := by unfold SameSystem; infer_instance
instance (cfg : Config) (a : Area) (aka : Node4D) (m : MemMsg) (n : Node4D) : Decidable (HasSeen cfg a aka m n) := by
  unfold HasSeen; infer_instance
instance (cfg : Config) (a : Area) (aka : Node4D) (m : MemMsg) (l : TossNode × ConfigNode) :
    Decidable (Due cfg a aka m l) := by unfold Due; infer_instance

/-- The mark "has seen the message" of a node is used although it was made for an earlier message:
in areas that ignore SEEN-BY lines when checking is switched on. -/
def Stale (cfg : Config) (seen : Nat → Bool) (a : Area) (k : Nat) : Prop :=
  cfg.has CFG_CHECKSEENBY = true ∧ a.has AREA_IGNORESEENBY = true ∧ seen k = true

instance (cfg : Config) (seen : Nat → Bool) (a : Area) (k : Nat) : Decidable (Stale cfg seen a k) := by
  unfold Stale; infer_instance

/-- The links that get a copy of a message that is delivered. -/
def recipients (cfg : Config) (seen : Nat → Bool) (a : Area) (aka : Node4D) (m : MemMsg) :
    List (TossNode × ConfigNode) :=
  if m.has MMFLAG_RESCANNED = true then []
  else (links cfg a).filter fun l => decide (Due cfg a aka m l ∧ ¬ Stale cfg seen a l.1.node)

/-- The sender may post in the area: messages exported from the own message bases and unchecked
packets always, others if the first link with the sender's address is not read-only. -/
def MayPost (cfg : Config) (a : Area) (m : MemMsg) : Prop :=
  m.has MMFLAG_EXPORTED = true ∨ m.has MMFLAG_NOSECURITY = true ∨
    ∃ l1 l l2, links cfg a = l1 ++ l :: l2 ∧ SameSystem l.2.node m.pktOrig ∧
      (∀ x ∈ l1, ¬ SameSystem x.2.node m.pktOrig) ∧ l.1.has TOSSNODE_READONLY = false

/-- The nodes in the SEEN-BY of a message after it has passed: those that were in it (if it came from
the zone of the area's address), the links of that zone that get mail of the area and are not
points, the nodes configured to be added and the own address; not those configured to be removed. -/
def SeenAfter (cfg : Config) (a : Area) (aka : Aka) (m : MemMsg) (y : N2) : Prop :=
  (((aka.node.zone = m.pktOrig.zone ∧ y ∈ m.seenBy.flatten) ∨
      ∃ l ∈ links cfg a, l.2.node.zone = aka.node.zone ∧ l.2.node.point = 0 ∧ l.2.has NODE_PASSIVE = false ∧
        l.1.has TOSSNODE_WRITEONLY = false ∧ y = (l.2.node.net, l.2.node.node)) ∧
    ∀ p ∈ aka.remList, compare2DPat p y = false) ∨
  (∃ n ∈ aka.addList, y = (n.net, n.node)) ∨ (aka.node.point = 0 ∧ y = (aka.node.net, aka.node.node))

/-- The message is checked for duplicates and found to be one. -/
def Duplicate (cfg : Config) (db : DupeDB) (a : Area) (m : MemMsg) : Prop :=
  cfg.dupeMode ≠ 0 ∧ m.has MMFLAG_TOSSED = true ∧ a.has AREA_IGNOREDUPES = false ∧
    ∃ d, checkDupe cfg.dupeSize db m.msgid m.area = .ok (d, true)

/-- All that happens is that the message is stored in the bad area, with the reason in front of the
text. Without a bad area nothing happens. -/
def OnlyBad (cfg : Config) (m : MemMsg) (es : List Effect) : Prop :=
  (∃ i b note, cfg.areas[i]? = some b ∧ b.type = .bad ∧
    es = [.importMsg i { m with
      type := PKTS_ECHOMAIL
      text := note :: m.text }]) ∨
  (es = [] ∧ ((∀ b ∈ cfg.areas, b.type ≠ .bad) ∨ ∃ b ∈ cfg.areas, b.type = .bad ∧ b.base = none))

/-- The copy of a message for a node. -/
def copyFor (aka : Node4D) (m : MemMsg) (l : TossNode × ConfigNode) : Effect :=
  .echo l.1.node aka { m with
    type := PKTS_ECHOMAIL
    dest := l.2.node
    orig := if l.2.has NODE_PKTFROM then l.2.pktFrom else aka }

/-- The message `m'` that filters left is stored in area `i` with the attributes SENT and not LOCAL. -/
def Stored (cfg : Config) (i : Nat) (m' : MemMsg) (e : Effect) : Prop :=
  ∃ ty d o, e = .importMsg i { m' with
    type := ty
    dest := d
    orig := o
    subject := if cfg.has CFG_STRIPRE then stripRe m'.subject else m'.subject
    attr := (m'.attr ||| FLAG_SENT) &&& ~~~FLAG_LOCAL }

/-- What happens to a message `m` in area `i`, `a` with address `aka`: the return value `b` of the
code and the effects. `m1` is the message with its new SEEN-BY and PATH, and filters run on it in
state `s2`. -/
inductive Disposition (env : Env) (self : MemMsg → M Unit) (s : HSt) (cfg : Config) (i : Nat) (a : Area)
    (m : MemMsg) : Bool → List Effect → Prop
  | refused (es : List Effect) (hr : a.has AREA_UNCONFIRMED = true ∨ ¬ MayPost cfg a m) (ho : OnlyBad cfg m es) :
      Disposition env self s cfg i a m true es
  | refusedErr (hr : a.has AREA_UNCONFIRMED = true ∨ ¬ MayPost cfg a m) : Disposition env self s cfg i a m false []
  | dupeBad (es : List Effect) (hr : a.has AREA_UNCONFIRMED = false ∧ MayPost cfg a m) (hd : Duplicate cfg s.dupe a m)
      (hm : cfg.dupeMode = 1) (sb : List (List N2)) (pa : List (List Str)) (ho : OnlyBad cfg { m with
        seenBy := sb
        path := pa } es) : Disposition env self s cfg i a m true es
  | dupeBadErr (hr : a.has AREA_UNCONFIRMED = false ∧ MayPost cfg a m) (hd : Duplicate cfg s.dupe a m)
      (hm : cfg.dupeMode = 1) : Disposition env self s cfg i a m false []
  | dupeKill (hr : a.has AREA_UNCONFIRMED = false ∧ MayPost cfg a m) (hd : Duplicate cfg s.dupe a m)
      (hm : cfg.dupeMode ≠ 1) : Disposition env self s cfg i a m true []
  | filterErr (hr : a.has AREA_UNCONFIRMED = false ∧ MayPost cfg a m) (hd : ¬ Duplicate cfg s.dupe a m)
      (sb : List (List N2)) (pa : List (List Str)) (s2 t : HSt) (hc : s2.cfg = cfg) (hl2 : s2.log = s.log)
      (hf : filterMsg env self { m with
        type := PKTS_ECHOMAIL
        seenBy := sb
        path := pa } s2 = .fail t) (es : List Effect) (hl : t.log = s.log ++ es)
      (he : ∀ k ak x, Effect.echo k ak x ∉ es) : Disposition env self s cfg i a m false es
  | killed (hr : a.has AREA_UNCONFIRMED = false ∧ MayPost cfg a m) (hd : ¬ Duplicate cfg s.dupe a m)
      (sb : List (List N2)) (pa : List (List Str)) (m' : MemMsg) (s2 s3 : HSt) (hc : s2.cfg = cfg) (hl2 : s2.log = s.log)
      (hf : filterMsg env self { m with
        type := PKTS_ECHOMAIL
        seenBy := sb
        path := pa } s2 = .ok m' s3) (hk : m'.has MMFLAG_KILL = true)
      (es : List Effect) (hl : s3.log = s.log ++ es) (he : ∀ k ak x, Effect.echo k ak x ∉ es) :
      Disposition env self s cfg i a m true es
  | delivered (b : Bool) (hr : a.has AREA_UNCONFIRMED = false ∧ MayPost cfg a m) (hd : ¬ Duplicate cfg s.dupe a m)
      (aka : Aka) (haka : a.aka.bind (cfg.akas[·]?) = some aka) (sb : List (List N2)) (pa : List (List Str)) (m' : MemMsg) (s2 s3 : HSt)
      (hsb : ∀ y, y ≠ (0, 0) → (y ∈ sb.flatten ↔ SeenAfter cfg a aka m y))
      (hf : filterMsg env self { m with
        type := PKTS_ECHOMAIL
        seenBy := sb
        path := pa } s2 = .ok m' s3) (hk : m'.has MMFLAG_KILL = false) (fe : List Effect)
      (hc : s2.cfg = cfg) (hl2 : s2.log = s.log) (hl : s3.log = s.log ++ fe) (he : ∀ k ak x, Effect.echo k ak x ∉ fe)
      (rs : List (TossNode × ConfigNode)) (hp : rs <+: recipients cfg s.seen a aka.node m)
      (hall : b = true → rs = recipients cfg s.seen a aka.node m) (imp : List Effect)
      (hi : (imp = [] ∧ (b = true → m'.has MMFLAG_TWIT = true ∨ m.has MMFLAG_EXPORTED = true ∨ a.base = none)) ∨
        (b = true ∧ m'.has MMFLAG_TWIT = false ∧ m.has MMFLAG_EXPORTED = false ∧ a.base.isSome = true ∧
          ∃ e, imp = [e] ∧ Stored cfg i m' e)) :
      Disposition env self s cfg i a m b (fe ++ rs.map (copyFor aka.node m') ++ imp)

end CM
