import Verif.Lemmas.AreafixRun
import Verif.Spec.Areafix
import Verif.Props.Strings
/-! # AreaFix: what it does to the configuration -/

namespace CM

/-! ## The relation -/

theorem Granted.noFeed {c : Config} {ci : Nat} {a : Area} {t : TossNode} (h : Granted c ci a t) :
    t.has TOSSNODE_FEED = false := by
  obtain ⟨cn, _, _, _, h1, h2⟩ := h
  unfold TossNode.has
  by_cases hc : a.has AREA_DEFREADONLY = true ∨ a.group ∈ cn.readOnlyGroups
  · rw [h1 hc]; decide
  · rw [h2 hc]; decide

theorem Evo.refl (c : Config) (ci : Nat) (a : Area) : Evo c ci a a :=
  ⟨rfl, rfl, fun _ h _ => .inl h, fun _ _ h _ _ => h, id, fun _ => rfl, .inl rfl⟩

theorem Evo.fields {c : Config} {ci : Nat} {a a' : Area} (h : Evo c ci a a') :
    a'.tag = a.tag ∧ a'.type = a.type ∧ a'.flags = a.flags ∧ a'.base = a.base ∧ a'.group = a.group ∧ a'.banned = a.banned := by
  rw [h.rest]; exact ⟨rfl, rfl, rfl, rfl, rfl, rfl⟩

theorem Granted.area {c : Config} {ci : Nat} {a a' : Area} {t : TossNode} (h : Granted c ci a' t)
    (hf : a'.flags = a.flags) (hg : a'.group = a.group) (hb : a'.banned = a.banned) : Granted c ci a t := by
  unfold Granted Area.has at h ⊢
  rw [hf, hg, hb] at h; exact h

theorem Evo.trans {c : Config} {ci : Nat} {a b d : Area} (h1 : Evo c ci a b) (h2 : Evo c ci b d) : Evo c ci a d := by
  obtain ⟨_, ht, hf, _, hg, hb⟩ := h1.fields
  refine ⟨?_, h2.others.trans h1.others, fun t hd e => ?_, fun hm t hd e hn => ?_, fun h => h2.one (h1.one h), fun h => ?_, ?_⟩
  · have e1 := h1.rest
    have e2 := h2.rest
    rw [e1] at e2; exact e2
  · rcases h2.own t hd e with h | h
    · exact h1.own t h e
    · exact .inr (h.area hf hg hb)
  · exact h2.mandatory (by unfold Area.has at hm ⊢; rw [hf]; exact hm) t (h1.mandatory hm t hd e hn) e hn
  · rw [h2.echo (by rw [ht]; exact h), h1.echo h]
  · rcases h2.marked with e | e
    · rw [e]; exact h1.marked
    · exact .inr e

theorem Feeds.back {c : Config} {ci : Nat} {a b : Area} (h : Evo c ci a b) (hf : Feeds ci b) : Feeds ci a := by
  obtain ⟨t, ht, hn, hf⟩ := hf
  rcases h.own t ht hn with h1 | h1
  · exact ⟨t, h1, hn, hf⟩
  · rw [h1.noFeed] at hf; cases hf

theorem Removable.back {c : Config} {ci : Nat} {a b : Area} (h : Evo c ci a b) (hr : Removable c ci b) :
    Removable c ci a := by
  obtain ⟨_, ht, hf, hb, _, _⟩ := h.fields
  obtain ⟨h1, h2, h3⟩ := hr
  refine ⟨ht ▸ h1, fun hm => Feeds.back h (h2 (by unfold Area.has at hm ⊢; rw [hf]; exact hm)), ?_⟩
  rcases h3 with ⟨h3, h4⟩ | ⟨h3, h4, h5⟩
  · exact .inl ⟨h3, Feeds.back h h4⟩
  · rw [h.others] at h5; exact .inr ⟨h3, hb ▸ h4, h5⟩

theorem Fate.back {c : Config} {ci : Nat} {a b : Area} (h : Evo c ci a b) {f : Option Area} (hf : Fate c ci b f) :
    Fate c ci a f := by
  cases f with
  | none => exact Removable.back h hf
  | some d => exact Evo.trans h hf

theorem Fates.refl (c : Config) (ci : Nat) (as : List Area) : Fates c ci as (as.map some) := by
  induction as with
  | nil => exact .nil
  | cons a as ih => exact .cons (Evo.refl c ci a) ih

theorem filterMap_some {α : Type} (as : List α) : (as.map some).filterMap id = as := by
  induction as with
  | nil => rfl
  | cons a as ih => simp [ih]

theorem Fates.append {c : Config} {ci : Nat} {as bs : List Area} {fs gs : List (Option Area)} (h1 : Fates c ci as fs)
    (h2 : Fates c ci bs gs) : Fates c ci (as ++ bs) (fs ++ gs) := by
  induction h1 with
  | nil => exact h2
  | cons h _ ih => exact .cons h ih

theorem Fates.split {c : Config} {ci : Nat} {as bs : List Area} {fs : List (Option Area)} (h : Fates c ci (as ++ bs) fs) :
    ∃ f1 f2, fs = f1 ++ f2 ∧ Fates c ci as f1 ∧ Fates c ci bs f2 := by
  induction as generalizing fs with
  | nil => exact ⟨[], fs, rfl, .nil, h⟩
  | cons a as ih =>
    cases h with
    | cons h1 h2 =>
      obtain ⟨f1, f2, e, h3, h4⟩ := ih h2
      exact ⟨_ :: f1, f2, by rw [e]; rfl, .cons h1 h3, h4⟩

theorem Fates.comp {c : Config} {ci : Nat} {as : List Area} {fs gs : List (Option Area)} (h1 : Fates c ci as fs)
    (h2 : Fates c ci (fs.filterMap id) gs) : ∃ hs, Fates c ci as hs ∧ hs.filterMap id = gs.filterMap id := by
  induction h1 generalizing gs with
  | nil => cases h2; exact ⟨[], .nil, rfl⟩
  | @cons a f as fs hf _ ih =>
    cases f with
    | none =>
      obtain ⟨hs, h3, h4⟩ := ih h2
      exact ⟨none :: hs, .cons hf h3, h4⟩
    | some b =>
      simp only [List.filterMap_cons, id] at h2
      cases h2 with
      | @cons _ g _ gs h5 h6 =>
        obtain ⟨hs, h3, h4⟩ := ih h6
        refine ⟨g :: hs, .cons (Fate.back hf h5) h3, ?_⟩
        cases g <;> simp [h4]

theorem NodeEvo.refl (ci i : Nat) (n : ConfigNode) : NodeEvo ci i n n := ⟨fun _ => rfl, rfl, rfl, .inl rfl⟩

theorem NodeEvo.trans {ci i : Nat} {a b d : ConfigNode} (h1 : NodeEvo ci i a b) (h2 : NodeEvo ci i b d) :
    NodeEvo ci i a d := by
  refine ⟨fun h => ?_, ?_, h2.2.2.1.trans h1.2.2.1, ?_⟩
  · have e1 := h1.1 h
    have e2 := h2.1 h
    rw [e1] at e2; exact e2
  · have e1 := h1.2.1
    have e2 := h2.2.1
    rw [e1] at e2; exact e2
  · rcases h2.2.2.2 with e | e
    · rcases h1.2.2.2 with e' | e'
      · rw [e'] at e; exact .inl e
      · right; rw [e]; exact e'
    · exact .inr e

theorem NodeEvo.has {ci i : Nat} {n n' : ConfigNode} (h : NodeEvo ci i n n') (mask : UInt32)
    (hm : ~~~NODE_PASSIVE &&& mask = mask) : n'.has mask = n.has mask := by
  unfold ConfigNode.has
  rw [← hm, ← UInt32.and_assoc, ← UInt32.and_assoc, h.2.2.1]

/-- The rights of the requesting node are the same. -/
structure Same (ci : Nat) (c c' : Config) : Prop where
  rest : c' = { c with
    areas := c'.areas
    nodes := c'.nodes
    changed := c'.changed }
  len : c'.nodes.length = c.nodes.length
  nodes : ∀ i n n', c.nodes[i]? = some n → c'.nodes[i]? = some n' → NodeEvo ci i n n'

theorem Same.node {ci : Nat} {c c' : Config} (h : Same ci c c') {i : Nat} {n' : ConfigNode} (hn : c'.nodes[i]? = some n') :
    ∃ n, c.nodes[i]? = some n ∧ NodeEvo ci i n n' := by
  have hl : i < c.nodes.length := by
    rw [← h.len]; exact (List.getElem?_eq_some_iff.1 hn).1
  exact ⟨c.nodes[i], List.getElem?_eq_getElem hl, h.nodes i _ _ (List.getElem?_eq_getElem hl) hn⟩

theorem Same.refl (ci : Nat) (c : Config) : Same ci c c :=
  ⟨rfl, rfl, fun i n n' h h' => by rw [h] at h'; cases h'; exact NodeEvo.refl ci i n⟩

theorem Same.trans {ci : Nat} {c d e : Config} (h1 : Same ci c d) (h2 : Same ci d e) : Same ci c e := by
  refine ⟨?_, h2.len.trans h1.len, fun i n n' h h' => ?_⟩
  · have e1 := h1.rest
    have e2 := h2.rest
    rw [e1] at e2; exact e2
  · obtain ⟨n1, h3, h4⟩ := h2.node h'
    exact (h1.nodes i _ _ h h3).trans h4

theorem Same.has {ci : Nat} {c c' : Config} (h : Same ci c c') (mask : UInt32) : c'.has mask = c.has mask := by
  unfold Config.has; rw [h.rest]

theorem Granted.config {ci : Nat} {c c' : Config} (h : Same ci c c') {a : Area} {t : TossNode} (hg : Granted c' ci a t) :
    Granted c ci a t := by
  obtain ⟨cn', h1, h2⟩ := hg
  obtain ⟨cn, h3, h4⟩ := h.node h1
  refine ⟨cn, h3, ?_⟩
  rw [h4.2.1] at h2; exact h2

theorem Evo.config {ci : Nat} {c c' : Config} (h : Same ci c c') {a a' : Area} (he : Evo c' ci a a') : Evo c ci a a' :=
  ⟨he.rest, he.others, fun t ht e => (he.own t ht e).imp id (Granted.config h), he.mandatory, he.one, he.echo, he.marked⟩

theorem Fate.config {ci : Nat} {c c' : Config} (h : Same ci c c') {a : Area} {f : Option Area} (hf : Fate c' ci a f) :
    Fate c ci a f := by
  cases f with
  | some a' => exact Evo.config h hf
  | none =>
    obtain ⟨h1, h2, h3⟩ := hf
    refine ⟨h1, h2, ?_⟩
    rw [h.has, h.has] at h3; exact h3

theorem Fates.config {ci : Nat} {c c' : Config} (h : Same ci c c') {as : List Area} {fs : List (Option Area)}
    (hf : Fates c' ci as fs) : Fates c ci as fs := by
  induction hf with
  | nil => exact .nil
  | cons h1 _ ih => exact .cons (Fate.config h h1) ih

theorem Forwarded.config {env : Env} {ci : Nat} {c c' : Config} (h : Same ci c c') {a : Area}
    (hf : Forwarded env c' ci a) : Forwarded env c ci a := by
  obtain ⟨cn', al, log, h1, h2, h3, h4, h5, h6, h7, h8, h9, h10, h11, h12⟩ := hf
  obtain ⟨cn, g1, g2⟩ := h.node h1
  refine ⟨cn, al, log, g1, ?_, ?_, h4, ?_, h6, h7, h8, h9, h10, ?_, h12⟩
  · rw [← g2.has _ (by decide)]; exact h2
  · rw [h.rest] at h3; exact h3
  · rw [g2.2.1] at h5; exact h5
  · rw [h.has] at h11; exact h11

theorem Allowed.same {env : Env} {ci : Nat} {c c' : Config} (h : Allowed env ci c c') : Same ci c c' :=
  ⟨h.rest, h.len, h.nodes⟩

theorem Same.allowed {env : Env} {ci : Nat} {c c' : Config} (h : Same ci c c') (ha : c'.live = c.live)
    (hm : c'.changed = true ∨ (c'.changed = c.changed ∧
      ∀ (i : Nat) (n n' : ConfigNode), c.nodes[i]? = some n → c'.nodes[i]? = some n' → n' = { n with remoteAF := n'.remoteAF })) :
    Allowed env ci c c' :=
  ⟨h.rest, h.len, h.nodes, ⟨_, [], Fates.refl c ci _, by rw [ha, filterMap_some, List.append_nil], by simp⟩,
    fun e => hm.elim id fun h => h.1.trans e, hm.imp id fun h => ⟨ha, h.2⟩⟩

theorem Allowed.refl (env : Env) (ci : Nat) (c : Config) : Allowed env ci c c :=
  (Same.refl ci c).allowed rfl (.inr ⟨rfl, fun i n n' h h' => by rw [h] at h'; cases h'; rfl⟩)

theorem Allowed.trans {env : Env} {ci : Nat} {c d e : Config} (h1 : Allowed env ci c d) (h2 : Allowed env ci d e) :
    Allowed env ci c e := by
  have hs := h1.same.trans h2.same
  obtain ⟨f1, n1, a1, b1, g1⟩ := h1.areas
  obtain ⟨f2, n2, a2, b2, g2⟩ := h2.areas
  have hk : c.changed = true → e.changed = true := fun h => h2.keeps (h1.keeps h)
  have hn : e.changed = true ∨ (e.live = c.live ∧
      ∀ (i : Nat) (n n' : ConfigNode), c.nodes[i]? = some n → e.nodes[i]? = some n' → n' = { n with remoteAF := n'.remoteAF }) := by
    rcases h2.noted with k2 | ⟨k2, j2⟩
    · exact .inl k2
    · rcases h1.noted with k1 | ⟨k1, j1⟩
      · exact .inl (h2.keeps k1)
      · refine .inr ⟨k2.trans k1, fun i n n' h h' => ?_⟩
        obtain ⟨x, h3, _⟩ := h2.same.node h'
        have e1 := j1 i n x h h3
        have e2 := j2 i x n' h3 h'
        rw [e1] at e2; exact e2
  refine ⟨hs.rest, hs.len, hs.nodes, ?_, hk, hn⟩
  have a2 := Fates.config h1.same a2
  rw [b1] at a2
  obtain ⟨fa, fb, e2, a3, a4⟩ := Fates.split a2
  obtain ⟨hs', a5, a6⟩ := Fates.comp a1 a3
  refine ⟨hs', fb.filterMap id ++ n2, a5, ?_, ?_⟩
  · rw [b2, e2, a6, List.filterMap_append, List.append_assoc]
  · intro a ha
    rcases List.mem_append.1 ha with ha | ha
    · have key : ∀ (as : List Area) (fs : List (Option Area)), Fates c ci as fs →
          (∀ a ∈ as, ∃ a0, Forwarded env c ci a0 ∧ Evo c ci a0 a) → ∀ a ∈ fs.filterMap id,
          ∃ a0, Forwarded env c ci a0 ∧ Evo c ci a0 a := by
        intro as fs hf
        induction hf with
        | nil => simp
        | @cons b f _ _ hf _ ih =>
          intro hall x hx
          cases f with
          | none => exact ih (fun a h => hall a (List.mem_cons_of_mem _ h)) x hx
          | some b' =>
            simp only [List.filterMap_cons, id, List.mem_cons] at hx
            rcases hx with rfl | hx
            · obtain ⟨a0, k1, k2⟩ := hall b List.mem_cons_self
              exact ⟨a0, k1, k2.trans hf⟩
            · exact ih (fun a h => hall a (List.mem_cons_of_mem _ h)) x hx
      exact key _ _ a4 g1 a ha
    · obtain ⟨a0, k1, k2⟩ := g2 a ha
      exact ⟨a0, Forwarded.config h1.same k1, Evo.config h1.same k2⟩

/-! ## Computations and their final states -/

/-- The final state, after a normal end or `FALSE`, has the property. -/
def Ends {α : Type} (P : HSt → Prop) (x : M α) (s : HSt) : Prop :=
  (∀ a t, x s = .ok a t → P t) ∧ ∀ t, x s = .fail t → P t

theorem Sat.ends {α : Type} {R : HSt → HSt → Prop} {x : M α} (h : Sat R x) {P : HSt → Prop} {s : HSt}
    (hp : ∀ t, R s t → P t) : Ends P x s := ⟨fun a t e => hp t ((h s).1 a t e), fun t e => hp t ((h s).2 t e)⟩

theorem Ends.bind {α β : Type} {P : HSt → Prop} {x : M α} {f : α → M β} {s : HSt} (hx : ∀ t, x s = .fail t → P t)
    (hf : ∀ a u, x s = .ok a u → Ends P (f a) u) : Ends P (x >>= f) s := by
  refine ⟨fun b t h => ?_, fun t h => ?_⟩
  · rw [bind_ok] at h
    obtain ⟨a, u, h1, h2⟩ := h
    exact (hf a u h1).1 _ _ h2
  · rw [bind_fail] at h
    rcases h with h | ⟨a, u, h1, h2⟩
    · exact hx _ h
    · exact (hf a u h1).2 _ h2

theorem Ends.pure {α : Type} {P : HSt → Prop} {a : α} {s : HSt} (h : P s) : Ends P (Pure.pure a : M α) s := by
  refine ⟨fun b t e => ?_, fun t e => ?_⟩
  · cases e; exact h
  · cases e

theorem Ends.set {P : HSt → Prop} {s t : HSt} (h : P t) : Ends P (M.set t) s := by
  refine ⟨fun b t e => ?_, fun t e => ?_⟩
  · cases e; exact h
  · cases e

theorem Ends.get {β : Type} {P : HSt → Prop} {f : HSt → M β} {s : HSt} (h : Ends P (f s) s) : Ends P (M.get >>= f) s := h

theorem Ends.ub {α : Type} {P : HSt → Prop} {u : UB} {s : HSt} : Ends P (M.ub u : M α) s :=
  ⟨fun _ _ e => (by cases e), fun _ e => by cases e⟩

/-- The relation on states. -/
def Afx (env : Env) (ci : Nat) (s t : HSt) : Prop := Allowed env ci s.cfg t.cfg

theorem Afx.good (env : Env) (ci : Nat) : Good (Afx env ci) :=
  ⟨fun _ => Allowed.refl env ci _, fun _ _ _ h1 h2 => Allowed.trans h1 h2, fun _ _ _ => Allowed.refl env ci _⟩

theorem CfgEq.afx {env : Env} {ci : Nat} {s t : HSt} (h : CfgEq s t) : Afx env ci s t := by
  unfold Afx; rw [h]; exact Allowed.refl env ci _

theorem Sat.mono {α : Type} {R S : HSt → HSt → Prop} (h : ∀ s t, R s t → S s t) {x : M α} (hx : Sat R x) : Sat S x :=
  fun s => ⟨fun a t e => h _ _ ((hx s).1 a t e), fun t e => h _ _ ((hx s).2 t e)⟩

theorem Sat.afx {α : Type} {env : Env} {ci : Nat} {x : M α} (h : Sat CfgEq x) : Sat (Afx env ci) x :=
  Sat.mono (fun _ _ => CfgEq.afx) h

theorem sat_of_ends {α : Type} {R : HSt → HSt → Prop} {x : M α} (h : ∀ s, Ends (R s) x s) : Sat R x := h

/-! ## Group flags -/

theorem checkFlags_some {g : UInt8} {s : Str} {b : Bool} (h : checkFlags g s = some b) : b = true ↔ g ∈ s := by
  by_cases hl : s.length < 256
  · rw [checkFlags_iff g s hl] at h
    cases h; simp
  · by_cases hg : g ∈ s.take 256
    · have : b = true := by
        cases b with
        | true => rfl
        | false =>
          exfalso
          have gen : ∀ (f : Nat) (c : UInt8), checkFlagsLoop g s f c ≠ some false := by
            intro f
            induction f with
            | zero => intro c; simp [checkFlagsLoop]
            | succ f ih =>
              intro c
              simp only [checkFlagsLoop]
              have hc := c.toNat_lt
              rw [if_pos (by omega)]
              split
              · simp
              · exact ih _
          exact gen _ _ h
      exact ⟨fun _ => List.mem_of_mem_take hg, fun _ => this⟩
    · rw [checkFlags_diverges g s (by omega) hg] at h; cases h

theorem matchFlags_ok {g : UInt8} {x : Str} {b : Bool} {s t : HSt} (h : matchFlags g x s = .ok b t) :
    (b = true ↔ g ∈ x) ∧ t = s := by
  unfold matchFlags at h
  rw [liftO_ok] at h
  obtain ⟨h, e⟩ := h
  injection h with h
  exact ⟨checkFlags_some h, e.symm⟩

theorem matchFlags_noFail {g : UInt8} {x : Str} {s t : HSt} : matchFlags g x s ≠ .fail t := liftO_fail

theorem afAccess_ok {g : UInt8} {n : ConfigNode} {b : Bool} {s t : HSt} (h : afAccess g n s = .ok b t) :
    (b = true ↔ g ∈ n.groups ∨ g ∈ n.readOnlyGroups) ∧ t = s := by
  unfold afAccess at h
  rw [bind_ok] at h
  obtain ⟨b1, u, h1, h⟩ := h
  obtain ⟨e1, rfl⟩ := matchFlags_ok h1
  cases b1 with
  | true =>
    cases h
    exact ⟨by simp [e1.1 rfl], rfl⟩
  | false =>
    obtain ⟨e2, rfl⟩ := matchFlags_ok h
    have : g ∉ n.groups := fun hg => by cases e1.2 hg
    exact ⟨by simp [e2, this], rfl⟩

theorem afAccess_noFail {g : UInt8} {n : ConfigNode} {s t : HSt} : afAccess g n s ≠ .fail t := by
  intro h
  unfold afAccess at h
  rw [bind_fail] at h
  rcases h with h | ⟨b, u, h1, h⟩
  · exact matchFlags_noFail h
  · split at h
    · cases h
    · exact matchFlags_noFail h

theorem afReadOnly_ok {a : Area} {n : ConfigNode} {b : Bool} {s t : HSt} (h : afReadOnly a n s = .ok b t) :
    (b = true ↔ a.has AREA_DEFREADONLY = true ∨ a.group ∈ n.readOnlyGroups) ∧ t = s := by
  unfold afReadOnly at h
  split at h
  · next hd => cases h; exact ⟨by simp [hd], rfl⟩
  · next hd =>
    obtain ⟨e2, rfl⟩ := matchFlags_ok h
    exact ⟨by simp [e2, hd], rfl⟩

theorem afReadOnly_noFail {a : Area} {n : ConfigNode} {s t : HSt} : afReadOnly a n s ≠ .fail t := by
  intro h
  unfold afReadOnly at h
  split at h
  · cases h
  · exact matchFlags_noFail h

/-! ## Single changes -/

theorem modArea_run (i : Nat) (f : Area → Area) (s : HSt) : modArea i f s = .ok () { s with cfg := { s.cfg with
    areas := s.cfg.areas.modify i f
    changed := true } } := rfl

theorem list_at {α : Type} {l : List α} {i : Nat} {a : α} (h : l[i]? = some a) :
    ∃ p q, l = p ++ a :: q ∧ p.length = i := by
  obtain ⟨hi, e⟩ := List.getElem?_eq_some_iff.1 h
  refine ⟨l.take i, l.drop (i + 1), ?_, ?_⟩
  · rw [← e]; simp
  · simp; omega

theorem modify_at {α : Type} (p q : List α) (a : α) (f : α → α) {i : Nat} (h : p.length = i) :
    (p ++ a :: q).modify i f = p ++ f a :: q := by
  subst h
  induction p with
  | nil => simp
  | cons b p ih => simp [ih]

/-- One area changes or is marked for removal. -/
theorem allowed_area {env : Env} {ci : Nat} {c c' : Config} (hs : Same ci c c') {p q : List Area} {a a' : Area}
    (h : c.areas = p ++ a :: q) (h' : c'.areas = p ++ a' :: q) (hch : c'.changed = true) (ht : a.type = .echomail)
    (hf : (a'.type ≠ .deleted ∧ Evo c ci a a') ∨ (a'.type = .deleted ∧ Removable c ci a)) : Allowed env ci c c' := by
  have hl : c.live = p.filter (fun a => a.type ≠ .deleted) ++ a :: q.filter fun a => a.type ≠ .deleted := by
    unfold Config.live; rw [h, List.filter_append, List.filter_cons, if_pos (by simp [ht])]
  rcases hf with ⟨h1, h2⟩ | ⟨h1, h2⟩
  · have hl' : c'.live = p.filter (fun a => a.type ≠ .deleted) ++ a' :: q.filter fun a => a.type ≠ .deleted := by
      unfold Config.live; rw [h', List.filter_append, List.filter_cons, if_pos (by simpa using h1)]
    refine ⟨hs.rest, hs.len, hs.nodes, ⟨_, [], hl ▸ Fates.append (Fates.refl c ci _)
      (.cons (f := some a') h2 (Fates.refl c ci _)), ?_, by simp⟩, fun _ => hch, .inl hch⟩
    simp [hl', List.filterMap_append]
  · have hl' : c'.live = p.filter (fun a => a.type ≠ .deleted) ++ q.filter fun a => a.type ≠ .deleted := by
      unfold Config.live; rw [h', List.filter_append, List.filter_cons, if_neg (by simpa using h1)]
    refine ⟨hs.rest, hs.len, hs.nodes, ⟨_, [], hl ▸ Fates.append (Fates.refl c ci _)
      (.cons (f := none) h2 (Fates.refl c ci _)), ?_, by simp⟩, fun _ => hch, .inl hch⟩
    simp [hl', List.filterMap_append]

theorem same_modify {ci : Nat} {c : Config} {j : Nat} {f : ConfigNode → ConfigNode} {as : List Area} {ch : Bool}
    (hf : ∀ n, c.nodes[j]? = some n → NodeEvo ci j n (f n)) : Same ci c { c with
      areas := as
      nodes := c.nodes.modify j f
      changed := ch } := by
  refine ⟨rfl, by simp, fun i n n' h h' => ?_⟩
  dsimp only at h'
  rw [List.getElem?_modify, h] at h'
  simp only [Option.map_eq_map, Option.map_some, Option.some.injEq] at h'
  by_cases e : j = i
  · subst e
    rw [if_pos rfl] at h'
    rw [← h']; exact hf _ h
  · rw [if_neg e] at h'
    rw [← h']; exact NodeEvo.refl ci i n

theorem same_areas {ci : Nat} {c : Config} {as : List Area} {ch : Bool} : Same ci c { c with
      areas := as
      changed := ch } :=
  ⟨rfl, rfl, fun i n n' h h' => by dsimp only at h'; rw [h] at h'; cases h'; exact NodeEvo.refl ci i n⟩

theorem nodeEvo_remote {ci j : Nat} (n : ConfigNode) (q : List Str) : NodeEvo ci j n { n with remoteAF := q } :=
  ⟨fun _ => rfl, rfl, rfl, .inl rfl⟩

theorem remote_nodes (ns : List ConfigNode) (j : Nat) (f : ConfigNode → List Str) (i : Nat) (n n' : ConfigNode)
    (h : ns[i]? = some n) (h' : (ns.modify j fun n => { n with remoteAF := f n })[i]? = some n') :
    n' = { n with remoteAF := n'.remoteAF } := by
  rw [List.getElem?_modify, h] at h'
  simp only [Option.map_eq_map, Option.map_some, Option.some.injEq] at h'
  rw [← h']
  split <;> rfl

theorem remoteCmd_afx (env : Env) (ci : Nat) (j : Nat) (f : ConfigNode → Str) : Sat (Afx env ci) (remoteCmd j f) := by
  refine sat_of_ends fun s => Ends.get (Ends.set (Same.allowed ?_ rfl (.inr ⟨rfl, remote_nodes _ _ _⟩)))
  exact same_modify (as := s.cfg.areas) (ch := s.cfg.changed) fun n _ => nodeEvo_remote n _

theorem modNode_afx (env : Env) (ci : Nat) (f : ConfigNode → ConfigNode)
    (hf : ∀ n, NodeEvo ci ci n { f n with changed := true }) : Sat (Afx env ci) (modNode ci f) := by
  refine sat_of_ends fun s => Ends.get (Ends.set (Same.allowed ?_ rfl (.inl rfl)))
  exact same_modify (as := s.cfg.areas) fun n _ => hf n

theorem removeDeleted_afx (env : Env) (ci : Nat) : Sat (Afx env ci) removeDeleted := by
  refine sat_of_ends fun s => Ends.get (Ends.set (Same.allowed same_areas ?_ ?_))
  · unfold Config.live
    simp [List.filter_filter]
  · dsimp only
    cases h : s.cfg.areas.any fun a => a.type = .deleted with
    | true => exact .inl (by simp)
    | false => exact .inr ⟨by simp, fun i n n' h h' => by rw [h] at h'; cases h'; rfl⟩

end CM
