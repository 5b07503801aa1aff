import Verif.Spec.ConfigFile
import Verif.Lemmas.Nodelist
import Verif.Props.Strings
import Verif.Lemmas.Example
import Verif.Model.FileOps
/-! # C32: rewriting the configuration file -/

set_option linter.unusedSimpArgs false

namespace CM

/-! ## The text of an area does not depend on the marks -/

/-- Two configurations that differ only in the marks `changed`. -/
structure SameMarks (c d : Config) : Prop where
  akas : d.akas = c.akas
  packers : d.packers = c.packers
  nodes : d.nodes.map (fun n => { n with changed := false }) = c.nodes.map fun n => { n with changed := false }
  areas : d.areas.map (fun n => { n with changed := false }) = c.areas.map fun n => { n with changed := false }

theorem SameMarks.node {c d : Config} (h : SameMarks c d) (i : Nat) : nodeAddr d i = nodeAddr c i := by
  have := congrArg (fun l => (l[i]?).map ConfigNode.node) h.nodes
  simp only [List.getElem?_map, Option.map_map] at this
  unfold nodeAddr
  cases h1 : d.nodes[i]? <;> cases h2 : c.nodes[i]? <;> simp [h1, h2] at this ⊢
  exact this

theorem areaText_same {c d : Config} (h : SameMarks c d) (a : Area) (m : Bool) : areaText d { a with changed := m } = areaText c a := by
  have e1 : nodeAddr d = nodeAddr c := funext h.node
  have e2 : exportWord d = exportWord c := by funext t; unfold exportWord; rw [e1]
  unfold areaText areaHead areaLinks areaRest areaKeyword Area.has
  rw [e1, e2, h.akas]

theorem nodeText_same {c d : Config} (h : SameMarks c d) (n : ConfigNode) (m : Bool) : nodeText d { n with changed := m } = nodeText c n := by
  unfold nodeText nodeSwitches ConfigNode.has
  rw [h.packers]

/-! ## Finding areas and nodes -/

theorem findIdx_iff {α} (p : α → Bool) (l : List α) (i : Nat) :
    l.findIdx? p = some i ↔ ∃ a, l[i]? = some a ∧ p a = true ∧ ∀ j b, j < i → l[j]? = some b → p b = false := by
  rw [List.findIdx?_eq_some_iff_getElem]
  constructor
  · rintro ⟨hi, h1, h2⟩
    refine ⟨l[i], List.getElem?_eq_getElem hi, h1, ?_⟩
    intro j b hj hb
    obtain ⟨_, rfl⟩ := List.getElem?_eq_some_iff.1 hb
    simpa using h2 j hj
  · rintro ⟨a, h1, h2, h3⟩
    obtain ⟨hi, rfl⟩ := List.getElem?_eq_some_iff.1 h1
    refine ⟨hi, h2, fun j hj => ?_⟩
    simpa using h3 j _ hj (List.getElem?_eq_getElem (by omega))

theorem findArea_tagOf (cfg : Config) (t : Str) (i : Nat) : cfg.areas.findIdx? (fun a => eqi t a.tag) = some i ↔ TagOf cfg t i :=
  findIdx_iff _ _ _

theorem findNode_addrOf (cfg : Config) (d : Node4D) (i : Nat) :
    cfg.nodes.findIdx? (fun n => compare4D d n.node == 0) = some i ↔ AddrOf cfg d i := by
  rw [findIdx_iff]
  simp [AddrOf]

/-- Positions found in the changed configuration. -/
theorem SameMarks.findArea {c d : Config} (h : SameMarks c d) (t : Str) :
    d.areas.findIdx? (fun a => eqi t a.tag) = c.areas.findIdx? fun a => eqi t a.tag := by
  have e : ∀ l : List Area, l.findIdx? (fun a => eqi t a.tag) = (l.map fun n => { n with changed := false }).findIdx? fun a => eqi t a.tag := by
    intro l; rw [List.findIdx?_map]; rfl
  rw [e, h.areas, ← e]

theorem SameMarks.findNode {c d : Config} (h : SameMarks c d) (x : Node4D) :
    d.nodes.findIdx? (fun n => compare4D x n.node == 0) = c.nodes.findIdx? fun n => compare4D x n.node == 0 := by
  have e : ∀ l : List ConfigNode, l.findIdx? (fun n => compare4D x n.node == 0) =
      (l.map fun n => { n with changed := false }).findIdx? fun n => compare4D x n.node == 0 := by
    intro l; rw [List.findIdx?_map]; rfl
  rw [e, h.nodes, ← e]

/-! ## Sections -/

theorem inChanged_snoc_other {k : SectionKind} {pre : List Str} {l : Str} (h : ¬ k.head l) :
    k.InChanged (pre ++ [l]) ↔ k.InChanged pre := by
  unfold SectionKind.InChanged
  constructor
  · rintro ⟨p, x, q, e, hx, hq, hr⟩
    rcases List.eq_nil_or_concat q with rfl | ⟨q', z, rfl⟩
    · obtain ⟨e1, e2⟩ := List.append_inj' e rfl
      simp at e2; subst e2; exact absurd hx h
    · refine ⟨p, x, q', ?_, hx, fun y hy => hq y (by simp [hy]), hr⟩
      have : pre ++ [l] = (p ++ x :: q') ++ [z] := by rw [e]; simp
      exact (List.append_inj' this rfl).1
  · rintro ⟨p, x, q, e, hx, hq, hr⟩
    refine ⟨p, x, q ++ [l], by rw [e]; simp, hx, ?_, hr⟩
    intro y hy
    rcases List.mem_append.1 hy with hy | hy
    · exact hq y hy
    · simp at hy; subst hy; exact h

theorem inChanged_snoc_head {k : SectionKind} {pre : List Str} {l : Str} (h : k.head l) :
    k.InChanged (pre ++ [l]) ↔ (∃ i, k.Begins pre l i) ∨ k.removed l := by
  unfold SectionKind.InChanged
  constructor
  · rintro ⟨p, x, q, e, hx, hq, hr⟩
    rcases List.eq_nil_or_concat q with rfl | ⟨q', z, rfl⟩
    · obtain ⟨e1, e2⟩ := List.append_inj' e rfl
      simp at e2; subst e1 e2; exact hr
    · have : pre ++ [l] = (p ++ x :: q') ++ [z] := by rw [e]; simp
      have := (List.append_inj' this rfl).2
      simp at this; subst this
      exact absurd h (hq _ (by simp))
  · intro hr
    exact ⟨pre, l, [], rfl, h, by simp, hr⟩

theorem hasSection_snoc {k : SectionKind} {pre : List Str} {l : Str} {i : Nat} :
    k.HasSection (pre ++ [l]) i ↔ k.HasSection pre i ∨ (k.head l ∧ k.means l i) := by
  unfold SectionKind.HasSection
  constructor
  · rintro ⟨h, hm, h1, h2⟩
    rcases List.mem_append.1 hm with hm | hm
    · exact .inl ⟨h, hm, h1, h2⟩
    · simp at hm; subst hm; exact .inr ⟨h1, h2⟩
  · rintro (⟨h, hm, h1, h2⟩ | ⟨h1, h2⟩)
    · exact ⟨h, by simp [hm], h1, h2⟩
    · exact ⟨l, by simp, h1, h2⟩

/-! ## The loop -/

structure UpdInv (cfg : Config) (pre : List Str) (u : Upd) : Prop where
  same : SameMarks cfg u.cfg
  skipArea : u.skipArea = true ↔ (areaKind cfg).InChanged pre
  skipNode : u.skipNode = true ↔ (nodeKind cfg).InChanged pre
  areas : ∀ i a, cfg.areas[i]? = some a → ∃ m, u.cfg.areas[i]? = some { a with changed := m } ∧
    (m = true ↔ a.changed = true ∧ ¬ (areaKind cfg).HasSection pre i)
  nodes : ∀ i a, cfg.nodes[i]? = some a → ∃ m, u.cfg.nodes[i]? = some { a with changed := m } ∧
    (m = true ↔ a.changed = true ∧ ¬ (nodeKind cfg).HasSection pre i)

theorem isAreaWord_iff (l : Str) : isAreaWord (jbstrcpy 30 l).1 = true ↔ AreaLine l := by
  unfold isAreaWord AreaLine keyword
  simp only [Bool.or_eq_true]
  exact or_assoc

theorem argument_some {l : Str} (h : (jbstrcpy 100 (jbstrcpy 30 l).2.1).2.2 = true) :
    argument l = some (jbstrcpy 100 (jbstrcpy 30 l).2.1).1 := by unfold argument; rw [if_pos h]

theorem argument_none {l : Str} (h : ¬ (jbstrcpy 100 (jbstrcpy 30 l).2.1).2.2 = true) : argument l = none := by
  unfold argument; rw [if_neg h]

theorem TagOf.unique {cfg : Config} {t : Str} {i j : Nat} (h : TagOf cfg t i) (h' : TagOf cfg t j) : i = j := by
  rw [← findArea_tagOf] at h h'
  rw [h] at h'; exact Option.some.inj h'

theorem AddrOf.unique {cfg : Config} {t : Node4D} {i j : Nat} (h : AddrOf cfg t i) (h' : AddrOf cfg t j) : i = j := by
  rw [← findNode_addrOf] at h h'
  rw [h] at h'; exact Option.some.inj h'

/-- The part of the invariant about areas, after the line `l` (the rest before it). -/
theorem updArea_inv {cfg : Config} {pre : List Str} {u v : Upd} (hi : UpdInv cfg pre u) (l : Str) (hl : AreaLine l)
    (h : updArea u (jbstrcpy 30 l).2.1 = .ok v) :
    SameMarks cfg v.cfg ∧ (v.skipArea = true ↔ (areaKind cfg).InChanged (pre ++ [l])) ∧ v.skipNode = u.skipNode ∧
    v.cfg.nodes = u.cfg.nodes ∧
    (∀ i a, cfg.areas[i]? = some a → ∃ m, v.cfg.areas[i]? = some { a with changed := m } ∧
      (m = true ↔ a.changed = true ∧ ¬ (areaKind cfg).HasSection (pre ++ [l]) i)) ∧
    ∃ t, v.out = u.out ++ t ∧ (((∀ i, ¬ (areaKind cfg).Begins pre l i) ∧ t = []) ∨
      ∃ i a x, (areaKind cfg).Begins pre l i ∧ cfg.areas[i]? = some a ∧ areaText cfg a = .ok x ∧ t = x ++ [10]) := by
  unfold updArea at h
  dsimp only at h
  have hk : (areaKind cfg).head l := hl
  by_cases hc : (jbstrcpy 100 (jbstrcpy 30 l).2.1).2.2 = true
  · have harg := argument_some hc
    rw [if_pos hc, hi.same.findArea] at h
    cases hf : cfg.areas.findIdx? (fun a => eqi (jbstrcpy 100 (jbstrcpy 30 l).2.1).1 a.tag) with
    | none =>
      rw [hf] at h
      dsimp only at h
      injection h with h; subst h
      rw [List.findIdx?_eq_none_iff] at hf
      have nm : ∀ i, ¬ (areaKind cfg).means l i := by
        rintro i ⟨t, h1, a, h2, h3, -⟩
        rw [harg] at h1; injection h1 with h1; subst h1
        have := hf a (List.mem_of_getElem? h2)
        rw [this] at h3; cases h3
      refine ⟨hi.same, ?_, rfl, rfl, ?_, [], (List.append_nil _).symm, .inl ⟨fun i h => nm i h.2.1, rfl⟩⟩
      · rw [inChanged_snoc_head hk]
        simp only [true_iff]
        exact .inr ⟨_, harg, fun a ha => hf a ha⟩
      · intro i a ha
        obtain ⟨m, h1, h2⟩ := hi.areas i a ha
        refine ⟨m, h1, ?_⟩
        rw [h2, hasSection_snoc]
        simp [nm i]
    | some i =>
      rw [hf] at h
      dsimp only at h
      have ht := (findArea_tagOf _ _ _).1 hf
      have hm : (areaKind cfg).means l i := ⟨_, harg, ht⟩
      have um : ∀ j, (areaKind cfg).means l j → j = i := by
        rintro j ⟨t, h1, h2⟩
        rw [harg] at h1; injection h1 with h1; subst h1
        exact h2.unique ht
      have nr : ¬ (areaKind cfg).removed l := by
        rintro ⟨t, h1, h2⟩
        rw [harg] at h1; injection h1 with h1; subst h1
        obtain ⟨a, h3, h4, -⟩ := ht
        rw [h2 a (List.mem_of_getElem? h3)] at h4; cases h4
      obtain ⟨a, ha, -, -⟩ := id ht
      obtain ⟨m, h1, h2⟩ := hi.areas i a ha
      rw [h1] at h
      dsimp only at h
      cases m with
      | true =>
        rw [if_pos rfl, areaText_same hi.same] at h
        have hb : (areaKind cfg).Begins pre l i := ⟨hk, hm, ⟨a, ha, (h2.1 rfl).1⟩, (h2.1 rfl).2⟩
        cases hx : areaText cfg a with
        | error e => rw [hx] at h; cases h
        | ok x =>
          rw [hx] at h
          injection h with h; subst h
          refine ⟨⟨hi.same.akas, hi.same.packers, hi.same.nodes, ?_⟩, ?_, rfl, rfl, ?_, x ++ [10], by simp, .inr ⟨i, a, x, hb, ha, hx, rfl⟩⟩
          · dsimp only
            rw [← hi.same.areas]
            apply List.ext_getElem?
            intro j
            simp only [List.getElem?_map, List.getElem?_modify]
            cases u.cfg.areas[j]? with
            | none => simp
            | some b => by_cases hj : i = j <;> simp [hj]
          · rw [inChanged_snoc_head hk]
            simp only [true_iff]
            exact .inl ⟨i, hb⟩
          · intro j b hb'
            obtain ⟨m', g1, g2⟩ := hi.areas j b hb'
            dsimp only
            rw [List.getElem?_modify, g1]
            by_cases hj : i = j
            · subst hj
              refine ⟨false, by simp, ?_⟩
              simp only [Bool.false_eq_true, false_iff, not_and]
              intro _ hn
              exact hn (hasSection_snoc.2 (.inr ⟨hk, hm⟩))
            · refine ⟨m', by simp [hj], ?_⟩
              rw [g2, hasSection_snoc]
              have : ¬ (areaKind cfg).means l j := fun h => hj (um j h).symm
              simp [this]
      | false =>
        rw [if_neg (by decide)] at h
        injection h with h; subst h
        have nb : ∀ j, ¬ (areaKind cfg).Begins pre l j := by
          intro j hb
          have := um j hb.2.1; subst this
          obtain ⟨a', e1, e2⟩ := hb.2.2.1
          rw [ha] at e1; injection e1 with e1; subst e1
          have := h2.2 ⟨e2, hb.2.2.2⟩
          cases this
        refine ⟨hi.same, ?_, rfl, rfl, ?_, [], (List.append_nil _).symm, .inl ⟨nb, rfl⟩⟩
        · rw [inChanged_snoc_head hk]
          simp only [Bool.false_eq_true, false_iff, not_or, not_exists]
          exact ⟨nb, nr⟩
        · intro j b hb'
          obtain ⟨m', g1, g2⟩ := hi.areas j b hb'
          refine ⟨m', g1, ?_⟩
          rw [g2, hasSection_snoc]
          by_cases hj : j = i
          · subst hj
            rw [ha] at hb'; injection hb' with hb'; subst hb'
            constructor
            · rintro ⟨e1, e2⟩
              have := h2.2 ⟨e1, e2⟩; cases this
            · rintro ⟨e1, e2⟩
              exact absurd (.inr ⟨hk, hm⟩) e2
          · have : ¬ (areaKind cfg).means l j := fun h => hj (um j h)
            simp [this]
  · have harg := argument_none hc
    rw [if_neg hc] at h
    injection h with h; subst h
    have nm : ∀ i, ¬ (areaKind cfg).means l i := by
      rintro i ⟨t, h1, -⟩
      rw [harg] at h1; cases h1
    refine ⟨hi.same, ?_, rfl, rfl, ?_, [], (List.append_nil _).symm, .inl ⟨fun i h => nm i h.2.1, rfl⟩⟩
    · rw [inChanged_snoc_head hk]
      simp only [Bool.false_eq_true, false_iff, not_or, not_exists]
      refine ⟨fun i h => nm i h.2.1, ?_⟩
      rintro ⟨t, h1, -⟩
      rw [harg] at h1; cases h1
    · intro i a ha
      obtain ⟨m, h1, h2⟩ := hi.areas i a ha
      refine ⟨m, h1, ?_⟩
      rw [h2, hasSection_snoc]
      simp [nm i]

/-- The part of the invariant about nodes, after the line `l` (the rest before it). -/
theorem updNode_inv {cfg : Config} {pre : List Str} {u v : Upd} (hi : UpdInv cfg pre u) (l : Str) (hl : NodeLine l)
    (h : updNode u (jbstrcpy 30 l).2.1 = .ok v) :
    SameMarks cfg v.cfg ∧ (v.skipNode = true ↔ (nodeKind cfg).InChanged (pre ++ [l])) ∧ v.skipArea = u.skipArea ∧
    v.cfg.areas = u.cfg.areas ∧
    (∀ i a, cfg.nodes[i]? = some a → ∃ m, v.cfg.nodes[i]? = some { a with changed := m } ∧
      (m = true ↔ a.changed = true ∧ ¬ (nodeKind cfg).HasSection (pre ++ [l]) i)) ∧
    ∃ t, v.out = u.out ++ t ∧ (((∀ i, ¬ (nodeKind cfg).Begins pre l i) ∧ t = []) ∨
      ∃ i a x, (nodeKind cfg).Begins pre l i ∧ cfg.nodes[i]? = some a ∧ nodeText cfg a = .ok x ∧ t = x ++ [10]) := by
  unfold updNode at h
  dsimp only at h
  have hk : (nodeKind cfg).head l := hl
  have skip : (∀ i, ¬ (nodeKind cfg).means l i) → v = { u with skipNode := false } → _ := fun nm h => by
    subst h
    refine (⟨hi.same, ?_, rfl, rfl, ?_, [], (List.append_nil _).symm, .inl ⟨fun i h => nm i h.2.1, rfl⟩⟩ :
      SameMarks cfg u.cfg ∧ (false = true ↔ (nodeKind cfg).InChanged (pre ++ [l])) ∧ u.skipArea = u.skipArea ∧
      u.cfg.areas = u.cfg.areas ∧
      (∀ i a, cfg.nodes[i]? = some a → ∃ m, u.cfg.nodes[i]? = some { a with changed := m } ∧
        (m = true ↔ a.changed = true ∧ ¬ (nodeKind cfg).HasSection (pre ++ [l]) i)) ∧
      ∃ t, u.out = u.out ++ t ∧ (((∀ i, ¬ (nodeKind cfg).Begins pre l i) ∧ t = []) ∨
        ∃ i a x, (nodeKind cfg).Begins pre l i ∧ cfg.nodes[i]? = some a ∧ nodeText cfg a = .ok x ∧ t = x ++ [10]))
    · rw [inChanged_snoc_head hk]
      simp only [Bool.false_eq_true, false_iff, not_or, not_exists]
      exact ⟨fun i h => nm i h.2.1, fun h => h⟩
    · intro i a ha
      obtain ⟨m, h1, h2⟩ := hi.nodes i a ha
      refine ⟨m, h1, ?_⟩
      rw [h2, hasSection_snoc]
      simp [nm i]
  by_cases hc : (jbstrcpy 100 (jbstrcpy 30 l).2.1).2.2 = true
  · have harg := argument_some hc
    rw [if_pos hc] at h
    cases hp : parse4D (jbstrcpy 100 (jbstrcpy 30 l).2.1).1 with
    | none =>
      rw [hp] at h
      dsimp only at h
      injection h with h; subst h
      refine skip ?_ rfl
      rintro i ⟨t, d, h1, h2, -⟩
      rw [harg] at h1; injection h1 with h1; subst h1
      rw [hp] at h2; cases h2
    | some d =>
    rw [hp] at h
    dsimp only at h
    rw [hi.same.findNode] at h
    cases hf : cfg.nodes.findIdx? (fun n => compare4D d n.node == 0) with
    | none =>
      rw [hf] at h
      dsimp only at h
      injection h with h; subst h
      rw [List.findIdx?_eq_none_iff] at hf
      refine skip ?_ rfl
      rintro i ⟨t, d', h1, h2, a, h3, h4, -⟩
      rw [harg] at h1; injection h1 with h1; subst h1
      rw [hp] at h2; injection h2 with h2; subst h2
      have := hf a (List.mem_of_getElem? h3)
      simp [h4] at this
    | some i =>
      rw [hf] at h
      dsimp only at h
      have ht := (findNode_addrOf _ _ _).1 hf
      have hm : (nodeKind cfg).means l i := ⟨_, _, harg, hp, ht⟩
      have um : ∀ j, (nodeKind cfg).means l j → j = i := by
        rintro j ⟨t, d', h1, h2, h3⟩
        rw [harg] at h1; injection h1 with h1; subst h1
        rw [hp] at h2; injection h2 with h2; subst h2
        exact h3.unique ht
      obtain ⟨a, ha, -, -⟩ := id ht
      obtain ⟨m, h1, h2⟩ := hi.nodes i a ha
      rw [h1] at h
      dsimp only at h
      cases m with
      | true =>
        rw [if_pos rfl, nodeText_same hi.same] at h
        have hb : (nodeKind cfg).Begins pre l i := ⟨hk, hm, ⟨a, ha, (h2.1 rfl).1⟩, (h2.1 rfl).2⟩
        cases hx : nodeText cfg a with
        | error e => rw [hx] at h; cases h
        | ok x =>
          rw [hx] at h
          injection h with h; subst h
          refine ⟨⟨hi.same.akas, hi.same.packers, ?_, hi.same.areas⟩, ?_, rfl, rfl, ?_, x ++ [10], by simp, .inr ⟨i, a, x, hb, ha, hx, rfl⟩⟩
          · dsimp only
            rw [← hi.same.nodes]
            apply List.ext_getElem?
            intro j
            simp only [List.getElem?_map, List.getElem?_modify]
            cases u.cfg.nodes[j]? with
            | none => simp
            | some b => by_cases hj : i = j <;> simp [hj]
          · rw [inChanged_snoc_head hk]
            simp only [true_iff]
            exact .inl ⟨i, hb⟩
          · intro j b hb'
            obtain ⟨m', g1, g2⟩ := hi.nodes j b hb'
            dsimp only
            rw [List.getElem?_modify, g1]
            by_cases hj : i = j
            · subst hj
              refine ⟨false, by simp, ?_⟩
              simp only [Bool.false_eq_true, false_iff, not_and]
              intro _ hn
              exact hn (hasSection_snoc.2 (.inr ⟨hk, hm⟩))
            · refine ⟨m', by simp [hj], ?_⟩
              rw [g2, hasSection_snoc]
              have : ¬ (nodeKind cfg).means l j := fun h => hj (um j h).symm
              simp [this]
      | false =>
        rw [if_neg (by decide)] at h
        injection h with h; subst h
        have nb : ∀ j, ¬ (nodeKind cfg).Begins pre l j := by
          intro j hb
          have := um j hb.2.1; subst this
          obtain ⟨a', e1, e2⟩ := hb.2.2.1
          rw [ha] at e1; injection e1 with e1; subst e1
          have := h2.2 ⟨e2, hb.2.2.2⟩
          cases this
        refine ⟨hi.same, ?_, rfl, rfl, ?_, [], (List.append_nil _).symm, .inl ⟨nb, rfl⟩⟩
        · rw [inChanged_snoc_head hk]
          simp only [Bool.false_eq_true, false_iff, not_or, not_exists]
          exact ⟨nb, fun h => h⟩
        · intro j b hb'
          obtain ⟨m', g1, g2⟩ := hi.nodes j b hb'
          refine ⟨m', g1, ?_⟩
          rw [g2, hasSection_snoc]
          by_cases hj : j = i
          · subst hj
            rw [ha] at hb'; injection hb' with hb'; subst hb'
            constructor
            · rintro ⟨e1, e2⟩
              have := h2.2 ⟨e1, e2⟩; cases this
            · rintro ⟨e1, e2⟩
              exact absurd (.inr ⟨hk, hm⟩) e2
          · have : ¬ (nodeKind cfg).means l j := fun h => hj (um j h)
            simp [this]
  · have harg := argument_none hc
    rw [if_neg hc] at h
    injection h with h; subst h
    refine skip ?_ rfl
    rintro i ⟨t, d, h1, -⟩
    rw [harg] at h1; cases h1

theorem any_words {ks ws : List Str} (h1 : ∀ w ∈ ks, w ∈ ws) (h2 : ∀ w ∈ ws, w ∈ ks) (x : Str) :
    ks.any (eqi x) = true ↔ ∃ w ∈ ws, eqi x w = true := by
  rw [List.any_eq_true]
  exact ⟨fun ⟨w, hw, h⟩ => ⟨w, h1 w hw, h⟩, fun ⟨w, hw, h⟩ => ⟨w, h2 w hw, h⟩⟩

theorem dontWrite_iff {cfg : Config} {pre : List Str} {l : Str} {sa sn : Bool} (ha : sa = true ↔ (areaKind cfg).InChanged (pre ++ [l]))
    (hn : sn = true ↔ (nodeKind cfg).InChanged (pre ++ [l])) :
    dontWrite sa sn (jbstrcpy 30 l).2.2 (jbstrcpy 30 l).1 = true ↔ Dropped cfg pre l := by
  have e1 := any_words (by decide : ∀ w ∈ areaKeywords, w ∈ areaWords) (by decide) (jbstrcpy 30 l).1
  have e2 := any_words (by decide : ∀ w ∈ nodeKeywords, w ∈ nodeWords) (by decide) (jbstrcpy 30 l).1
  unfold dontWrite Dropped BlankLine keyword
  rw [Bool.or_eq_true, Bool.and_eq_true, Bool.and_eq_true, Bool.or_eq_true, Bool.or_eq_true, Bool.not_eq_true', e1, e2, ha, hn]

theorem area_not_node {l : Str} (h : AreaLine l) : ¬ NodeLine l := by
  unfold AreaLine NodeLine at *
  simp only [eqi_iff] at *
  intro h'
  rw [h'] at h
  revert h
  decide

theorem updHead_inv {cfg : Config} {pre : List Str} {u v : Upd} (hi : UpdInv cfg pre u) (l : Str)
    (h : updHead u (jbstrcpy 30 l).1 (jbstrcpy 30 l).2.1 = .ok v) :
    UpdInv cfg (pre ++ [l]) v ∧ ∃ t, Inserted cfg pre l t ∧ v.out = u.out ++ t := by
  unfold updHead at h
  by_cases ha : AreaLine l
  · have hnn := area_not_node ha
    rw [if_pos ((isAreaWord_iff l).2 ha)] at h
    obtain ⟨h1, h2, h3, h4, h5, t, h6, h7⟩ := updArea_inv hi l ha h
    refine ⟨⟨h1, h2, by rw [h3, hi.skipNode, inChanged_snoc_other (k := nodeKind cfg) hnn], h5, ?_⟩, t, ?_, h6⟩
    · intro i a hia
      obtain ⟨m, g1, g2⟩ := hi.nodes i a hia
      refine ⟨m, by rw [h4]; exact g1, ?_⟩
      rw [g2, hasSection_snoc]
      have : ¬ (nodeKind cfg).head l := hnn
      simp [this]
    · rcases h7 with ⟨g1, g2⟩ | g
      · exact .inl ⟨g1, fun i h => hnn h.1, g2⟩
      · exact .inr (.inl g)
  · rw [if_neg (fun h => ha ((isAreaWord_iff l).1 h))] at h
    have na : ∀ i, ¬ (areaKind cfg).Begins pre l i := fun i h => ha h.1
    have ars : ∀ i a, cfg.areas[i]? = some a → ∃ m, u.cfg.areas[i]? = some { a with changed := m } ∧
        (m = true ↔ a.changed = true ∧ ¬ (areaKind cfg).HasSection (pre ++ [l]) i) := by
      intro i a hia
      obtain ⟨m, g1, g2⟩ := hi.areas i a hia
      refine ⟨m, g1, ?_⟩
      rw [g2, hasSection_snoc]
      have : ¬ (areaKind cfg).head l := ha
      simp [this]
    by_cases hn : NodeLine l
    · rw [if_pos (show eqi (jbstrcpy 30 l).1 b!"NODE" = true from hn)] at h
      obtain ⟨h1, h2, h3, h4, h5, t, h6, h7⟩ := updNode_inv hi l hn h
      refine ⟨⟨h1, by rw [h3, hi.skipArea, inChanged_snoc_other (k := areaKind cfg) ha], h2, by rw [h4]; exact ars, h5⟩, t, ?_, h6⟩
      rcases h7 with ⟨g1, g2⟩ | g
      · exact .inl ⟨na, g1, g2⟩
      · exact .inr (.inr g)
    · rw [if_neg (show ¬ eqi (jbstrcpy 30 l).1 b!"NODE" = true from hn)] at h
      injection h with h; subst h
      refine ⟨⟨hi.same, ?_, ?_, ars, ?_⟩, [], .inl ⟨na, fun i h => hn h.1, rfl⟩, (List.append_nil _).symm⟩
      · rw [hi.skipArea, inChanged_snoc_other (k := areaKind cfg) ha]
      · rw [hi.skipNode, inChanged_snoc_other (k := nodeKind cfg) hn]
      · intro i a hia
        obtain ⟨m, g1, g2⟩ := hi.nodes i a hia
        refine ⟨m, g1, ?_⟩
        rw [g2, hasSection_snoc]
        have : ¬ (nodeKind cfg).head l := hn
        simp [this]

theorem updLine_inv {cfg : Config} {pre : List Str} {u v : Upd} (hi : UpdInv cfg pre u) (l : Str) (h : updLine u l = .ok v) :
    UpdInv cfg (pre ++ [l]) v ∧ ∃ t, Inserted cfg pre l t ∧
      ((Dropped cfg pre l ∧ v.out = u.out ++ t) ∨ (¬ Dropped cfg pre l ∧ v.out = u.out ++ (t ++ l))) := by
  unfold updLine at h
  dsimp only at h
  cases hx : updHead u (jbstrcpy 30 l).1 (jbstrcpy 30 l).2.1 with
  | error e => rw [hx] at h; cases h
  | ok w =>
    rw [hx] at h
    injection h with h
    obtain ⟨h1, t, h2, h3⟩ := updHead_inv hi l hx
    have hd := dontWrite_iff (l := l) h1.skipArea h1.skipNode
    unfold updCopy at h
    by_cases hw : dontWrite w.skipArea w.skipNode (jbstrcpy 30 l).2.2 (jbstrcpy 30 l).1 = true
    · rw [if_pos hw] at h; subst h
      exact ⟨h1, t, h2, .inl ⟨hd.1 hw, h3⟩⟩
    · rw [if_neg hw] at h; subst h
      exact ⟨⟨h1.same, h1.skipArea, h1.skipNode, h1.areas, h1.nodes⟩, t, h2,
        .inr ⟨fun h => hw (hd.2 h), by dsimp only; rw [h3, List.append_assoc]⟩⟩

theorem updLoop_inv {cfg : Config} (ls : List Str) {pre : List Str} {u v : Upd} (hi : UpdInv cfg pre u) (h : ls.foldlM updLine u = .ok v) :
    UpdInv cfg (pre ++ ls) v ∧ ∃ out, Rewritten cfg pre ls out ∧ v.out = u.out ++ out := by
  induction ls generalizing pre u with
  | nil =>
    injection h with h; subst h
    exact ⟨by rw [List.append_nil]; exact hi, [], .nil _, (List.append_nil _).symm⟩
  | cons l ls ih =>
    rw [List.foldlM_cons] at h
    cases hx : updLine u l with
    | error e => rw [hx] at h; cases h
    | ok w =>
      rw [hx] at h
      obtain ⟨h1, t, h2, h3⟩ := updLine_inv hi l hx
      obtain ⟨h4, out, h5, h6⟩ := ih h1 h
      refine ⟨by rw [List.append_assoc] at h4; exact h4, ?_⟩
      rcases h3 with ⟨g1, g2⟩ | ⟨g1, g2⟩
      · exact ⟨t ++ out, .drop h2 g1 h5, by rw [h6, g2, List.append_assoc]⟩
      · exact ⟨t ++ l ++ out, .keep h2 g1 h5, by rw [h6, g2]; simp only [List.append_assoc]⟩

theorem updNew_appended {cfg d : Config} (hs : SameMarks cfg d) (ls : List Str) (q p : List Area) (q' : List Area) (x : Str)
    (hq : ∀ i a, q[i]? = some a → ∃ m, q'[i]? = some { a with changed := m } ∧
      (m = true ↔ a.changed = true ∧ ¬ (areaKind cfg).HasSection ls (p.length + i)))
    (hl : q'.length = q.length) (h : updNew d q' = .ok x) : Appended cfg ls p.length q x := by
  induction q generalizing p q' x with
  | nil =>
    cases q' with
    | cons b q' => simp at hl
    | nil => injection h with h; subst h; exact .nil _
  | cons a q ih =>
    cases q' with
    | nil => simp at hl
    | cons b q' =>
      obtain ⟨m, h1, h2⟩ := hq 0 a rfl
      simp only [List.getElem?_cons_zero, Option.some.injEq] at h1
      subst h1
      have ih' : ∀ y, updNew d q' = .ok y → Appended cfg ls (p.length + 1) q y := by
        intro y hy
        have := ih (p ++ [a]) q' y (by
          intro i c hc
          obtain ⟨m, g1, g2⟩ := hq (i + 1) c (by simpa using hc)
          refine ⟨m, by simpa using g1, ?_⟩
          rw [g2]
          simp only [List.length_append, List.length_cons, List.length_nil, Nat.add_assoc, Nat.zero_add, Nat.add_comm 1 i]) (by simpa using hl) hy
        simpa using this
      unfold updNew at h
      cases m with
      | false =>
        rw [if_neg (by simp)] at h
        cases hy : updNew d q' with
        | error e => rw [hy] at h; cases h
        | ok y =>
          rw [hy] at h
          injection h with h; subst h
          refine .old ?_ (ih' y hy)
          by_cases hc : a.changed = true
          · right
            refine Classical.byContradiction fun hn => ?_
            have := h2.2 ⟨hc, hn⟩
            cases this
          · left; simpa using hc
      | true =>
        rw [if_pos rfl, areaText_same hs] at h
        cases ht : areaText cfg a with
        | error e => rw [ht] at h; cases h
        | ok z =>
          rw [ht] at h
          cases hy : updNew d q' with
          | error e => rw [hy] at h; cases h
          | ok y =>
            rw [hy] at h
            injection h with h; subst h
            exact .new (h2.1 rfl).1 (h2.1 rfl).2 ht (ih' y hy)

/-- The configuration file is a text: no NUL bytes, and no line fills the buffer. -/
def ConfigText (file : Str) : Prop := NoNul file ∧ ∀ l ∈ linesOf file, l.length < 4000

/-- A line as it is copied: CR LF becomes LF. -/
def copied (l : Str) : Str := fixCrLf l

/-- The first line of a text. -/
theorem linesOf_first (file : Str) (h : file ≠ []) : ∃ l ls rest, linesOf file = l :: ls ∧ file = l ++ rest ∧ linesOf rest = ls ∧
    ((∃ t, l = t ++ [10] ∧ (10 : UInt8) ∉ t) ∨ (rest = [] ∧ (10 : UInt8) ∉ l ∧ l ≠ [])) := by
  induction file with
  | nil => exact absurd rfl h
  | cons c r ih =>
    rw [linesOf]
    by_cases hc : c = 10
    · subst hc
      rw [if_pos rfl]
      exact ⟨[10], linesOf r, r, rfl, rfl, rfl, .inl ⟨[], rfl, by simp⟩⟩
    · rw [if_neg hc]
      by_cases hr : r = []
      · subst hr
        exact ⟨[c], [], [], rfl, rfl, rfl, .inr ⟨rfl, by simpa using fun e => hc e.symm, by simp⟩⟩
      · obtain ⟨l, ls, rest, h1, h2, h3, h4⟩ := ih hr
        rw [h1]
        refine ⟨c :: l, ls, rest, rfl, by rw [h2]; rfl, h3, ?_⟩
        rcases h4 with ⟨t, e1, e2⟩ | ⟨e1, e2, e3⟩
        · exact .inl ⟨c :: t, by rw [e1]; rfl, by simp only [List.mem_cons, not_or]; exact ⟨fun e => hc e.symm, e2⟩⟩
        · exact .inr ⟨e1, by simp only [List.mem_cons, not_or]; exact ⟨fun e => hc e.symm, e2⟩, by simp⟩

theorem fixCrLf_ne_nil (l : Str) (h : l ≠ []) : fixCrLf l ≠ [] := by
  unfold fixCrLf
  split
  · simp
  · exact h

theorem fileLines_go (n : Nat) (file : Str) (hn : file.length ≤ n) (h : ConfigText file) : fileLines 4000 n file = (linesOf file).map copied := by
  induction n generalizing file with
  | zero =>
    have : file = [] := List.length_eq_zero_iff.1 (by omega)
    subst this; rfl
  | succ n ih =>
    unfold fileLines
    by_cases hf : file = []
    · subst hf; rfl
    · obtain ⟨l, ls, rest, h1, h2, h3, h4⟩ := linesOf_first file hf
      have hl : l.length < 4000 := h.2 l (by rw [h1]; simp)
      have hr : ConfigText rest := by
        refine ⟨fun hm => h.1 (by rw [h2]; simp [hm]), fun x hx => h.2 x (by rw [h1, ← h3]; simp [hx])⟩
      have nn : NoNul l := fun hm => h.1 (by rw [h2]; simp [hm])
      have e : osFGets 4000 file = some (fixCrLf l, rest) := by
        unfold osFGets
        rw [if_neg hf]
        have : fgetsRaw (4000 - 1) file = (l, rest) := by
          rcases h4 with ⟨t, e1, e2⟩ | ⟨e1, e2, e3⟩
          · rw [h2, e1, List.append_assoc]
            subst e1
            simp only [List.length_append, List.length_cons, List.length_nil] at hl
            exact fgetsRaw_line t rest _ e2 (by omega)
          · rw [h2, e1, List.append_nil]
            exact fgetsRaw_last l _ e2 (by omega)
        rw [this]
        dsimp only
        rw [cstr_all _ nn]
      have hne : l ≠ [] := by
        rcases h4 with ⟨t, e1, e2⟩ | ⟨e1, e2, e3⟩
        · rw [e1]; simp
        · exact e3
      have hlen : file.length = l.length + rest.length := by rw [h2]; simp
      have : 0 < l.length := List.length_pos_iff.2 hne
      rw [e]
      dsimp only
      rw [if_neg (fixCrLf_ne_nil l hne), h1, ih rest (by omega) hr, h3]
      rfl

theorem fileLines_text (file : Str) (h : ConfigText file) : fileLines 4000 file.length file = (linesOf file).map copied :=
  fileLines_go _ file (Nat.le_refl _) h

/-- **C32 (partial).** Every line of the file is copied unchanged and in order, except for lines that
describe a changed or removed area or a changed node (and blank lines there); the new text of an area or
node is written once, where its first section began; new areas come at the end. What is missing for the
full claim: blank lines after a changed section, CR before LF, NUL bytes and lines of 4000 bytes or more
are not preserved (see the concrete cases below). -/
theorem config_rewritten_partial (cfg : Config) (file out : Str) (ht : ConfigText file) (h : updateText cfg file = .ok out) :
    ∃ old new, Rewritten cfg [] ((linesOf file).map copied) old ∧ Appended cfg ((linesOf file).map copied) 0 cfg.areas new ∧ out = old ++ new := by
  unfold updateText at h
  rw [fileLines_text file ht] at h
  cases hx : ((linesOf file).map copied).foldlM updLine { cfg := cfg } with
  | error e => rw [hx] at h; cases h
  | ok u =>
    rw [hx] at h
    have h0 : UpdInv cfg [] { cfg := cfg } := by
      have nI : ∀ k : SectionKind, ¬ k.InChanged [] := by
        rintro k ⟨p, x, q, e, -⟩
        simp at e
      have nH : ∀ (k : SectionKind) i, ¬ k.HasSection [] i := by
        rintro k i ⟨x, h, -⟩
        cases h
      refine ⟨⟨rfl, rfl, rfl, rfl⟩, by simp [nI], by simp [nI], ?_, ?_⟩
      · intro i a ha; exact ⟨a.changed, ha, by simp [nH]⟩
      · intro i a ha; exact ⟨a.changed, ha, by simp [nH]⟩
    obtain ⟨h1, old, h2, h3⟩ := updLoop_inv _ h0 hx
    cases hy : updNew u.cfg u.cfg.areas with
    | error e =>
      simp only [bind, Except.bind, hy] at h
      cases h
    | ok new =>
      simp only [bind, Except.bind, hy, pure, Except.pure] at h
      injection h with h; subst h
      refine ⟨old, new, h2, ?_, by rw [h3]; rfl⟩
      refine updNew_appended h1.same _ cfg.areas [] u.cfg.areas new ?_ ?_ hy
      · intro i a ha
        simpa using h1.areas i a ha
      · have := congrArg List.length h1.same.areas
        simpa using this

/-- A rewritten text can be cut at every line. -/
theorem Rewritten.split {cfg : Config} : ∀ {pre ls ls' : List Str} {out : Str}, Rewritten cfg pre (ls ++ ls') out →
    ∃ a b, Rewritten cfg pre ls a ∧ Rewritten cfg (pre ++ ls) ls' b ∧ out = a ++ b
  | pre, [], ls', out, h => ⟨[], out, .nil _, by simpa using h, rfl⟩
  | pre, l :: ls, ls', _, h => by
    cases h with
    | keep hi hk r =>
      obtain ⟨a, b, h1, h2, rfl⟩ := Rewritten.split r
      exact ⟨_, b, .keep hi hk h1, by simpa using h2, by simp⟩
    | drop hi hd r =>
      obtain ⟨a, b, h1, h2, rfl⟩ := Rewritten.split r
      exact ⟨_, b, .drop hi hd h1, by simpa using h2, by simp⟩

/-- A line that is neither blank nor describes an area or a node stands in the new file, byte for byte,
between what became of the lines before it and what became of the lines after it. So does every line
that is outside the sections of changed and removed areas and nodes. -/
theorem config_line_kept (cfg : Config) (file : Str) (h : ConfigText file) {out : Str} (hu : updateText cfg file = .ok out)
    {pre post : List Str} {l : Str} (hl : (linesOf file).map copied = pre ++ l :: post)
    (hk : (¬ BlankLine l ∧ ∀ w ∈ areaWords ++ nodeWords, eqi (keyword l) w = false) ∨
      (¬ (areaKind cfg).InChanged (pre ++ [l]) ∧ ¬ (nodeKind cfg).InChanged (pre ++ [l]))) :
    ∃ a t b new, Rewritten cfg [] pre a ∧ Inserted cfg pre l t ∧ Rewritten cfg (pre ++ [l]) post b ∧
      out = a ++ t ++ l ++ b ++ new := by
  obtain ⟨old, new, h1, -, rfl⟩ := config_rewritten_partial cfg file out h hu
  rw [hl] at h1
  obtain ⟨a, b, h2, h3, rfl⟩ := h1.split
  cases h3 with
  | keep hi hk r => exact ⟨a, _, _, new, h2, hi, r, by simp⟩
  | drop hi hd r =>
    exfalso
    rcases hk with ⟨hb, hw⟩ | ⟨ha, hn⟩
    · rcases hd with ⟨-, ⟨w, hm, e⟩ | e⟩ | ⟨-, ⟨w, hm, e⟩ | e⟩
      · have := hw w (by simp [hm]); rw [this] at e; cases e
      · exact hb e
      · have := hw w (by simp [hm]); rw [this] at e; cases e
      · exact hb e
    · rcases hd with ⟨e, -⟩ | ⟨e, -⟩
      · exact ha e
      · exact hn e

/-- The lines of a text make up the text. -/
theorem linesOf_flatten (t : Str) : (linesOf t).flatten = t := by
  induction t with
  | nil => rfl
  | cons c r ih =>
    rw [linesOf]
    by_cases hc : c = 10
    · rw [if_pos hc, List.flatten_cons, ih, hc]; rfl
    · rw [if_neg hc]
      cases hr : linesOf r with
      | nil => rw [hr] at ih; rw [← ih]; rfl
      | cons l ls => rw [hr] at ih; rw [← ih]; rfl

/-- Nothing was changed or removed: the new file is the old one, apart from CR before LF. -/
theorem config_untouched (cfg : Config) (file : Str) (h : ConfigText file) {out : Str} (hu : updateText cfg file = .ok out)
    (ha : ∀ a ∈ cfg.areas, a.changed = false) (hn : ∀ n ∈ cfg.nodes, n.changed = false)
    (hr : ∀ l ∈ (linesOf file).map copied, AreaLine l → ∀ t, argument l = some t → ∃ a ∈ cfg.areas, eqi t a.tag = true) :
    out = ((linesOf file).map copied).flatten := by
  obtain ⟨old, new, h1, h2, rfl⟩ := config_rewritten_partial cfg file out h hu
  have key : ∀ (ls pre : List Str) (o : Str), (∀ l ∈ pre ++ ls, AreaLine l → ∀ t, argument l = some t → ∃ a ∈ cfg.areas, eqi t a.tag = true) →
      Rewritten cfg pre ls o → o = ls.flatten := by
    intro ls
    have nb : ∀ pre l i, ¬ (areaKind cfg).Begins pre l i := by
      rintro pre l i ⟨-, -, ⟨a, e, hc⟩, -⟩
      rw [ha a (List.mem_of_getElem? e)] at hc; cases hc
    have nb' : ∀ pre l i, ¬ (nodeKind cfg).Begins pre l i := by
      rintro pre l i ⟨-, -, ⟨a, e, hc⟩, -⟩
      rw [hn a (List.mem_of_getElem? e)] at hc; cases hc
    have ins : ∀ {pre l t}, Inserted cfg pre l t → t = [] := by
      rintro pre l t (⟨-, -, e⟩ | ⟨i, a, x, e, -⟩ | ⟨i, a, x, e, -⟩)
      · exact e
      · exact absurd e (nb _ _ _)
      · exact absurd e (nb' _ _ _)
    induction ls with
    | nil => intro pre o _ h; cases h; rfl
    | cons l ls ih =>
      intro pre o hm h
      cases h with
      | keep hi hk r =>
        rw [ins hi, ih _ _ (by simpa using hm) r]; rfl
      | drop hi hd r =>
        exfalso
        rcases hd with ⟨⟨p, x, q, e, hx, -, ⟨i, e2⟩ | e2⟩, -⟩ | ⟨⟨p, x, q, e, hx, -, ⟨i, e2⟩ | e2⟩, -⟩
        · exact nb _ _ _ e2
        · obtain ⟨t, e3, e4⟩ := e2
          have : x ∈ pre ++ [l] := by rw [e]; simp
          obtain ⟨a, m, e5⟩ := hm x (by simp only [List.mem_append, List.mem_cons, List.not_mem_nil, or_false] at this ⊢; rcases this with h | h <;> simp [h]) hx t e3
          rw [e4 a m] at e5; cases e5
        · exact nb' _ _ _ e2
        · exact e2
  have e1 := key _ [] _ (by simpa using hr) h1
  have e2 : ∀ (as : List Area) i n, (∀ a ∈ as, a.changed = false) → Appended cfg ((linesOf file).map copied) i as n → n = [] := by
    intro as
    induction as with
    | nil => intro i n _ h; cases h; rfl
    | cons a q ih =>
      intro i n hc h
      cases h with
      | new e => rw [hc a (by simp)] at e; cases e
      | old _ r => exact ih _ _ (fun b hb => hc b (by simp [hb])) r
  rw [e1, e2 _ _ _ ha h2, List.append_nil]

namespace Ex

/-- A configuration file with two nodes and two areas, a comment and lines of other kinds. -/
def confFile : Str :=
  b!"SYSOP \"Any One\"\n\nNODE 1:2/4 \"\" \"pw\"\n; a comment\nDEFAULTGROUP A\n\nNODE 1:2/5 \"\" \"\"\nAREA ONE 1:2/3\nEXPORT 1:2/4\n; kept\nAREA TWO 1:2/3\nEXPORT 1:2/5\n"

/-- The area ONE got a link to 1:2/5 and the area NEW was added. -/
def confChanged : Config :=
  { cfg [{ tag := b!"ONE", aka := some 0, tossNodes := [{ node := 0 }, { node := 1 }], changed := true },
      { tag := b!"TWO", aka := some 0, tossNodes := [{ node := 1 }] },
      { tag := b!"NEW", aka := some 0, tossNodes := [{ node := 0, flags := TOSSNODE_READONLY }], changed := true }] with
    flags := 0 }

example : ConfigText confFile := by
  refine ⟨by decide +kernel, by decide +kernel⟩

/-- The section of ONE is rewritten, NEW is appended, everything else is copied. -/
theorem conf_rewritten : updateText confChanged confFile = .ok
    b!"SYSOP \"Any One\"\n\nNODE 1:2/4 \"\" \"pw\"\n; a comment\nDEFAULTGROUP A\n\nNODE 1:2/5 \"\" \"\"\nAREA \"ONE\" 1:2/3.0\nEXPORT 1:2/4.0 1:2/5.0\n\n; kept\nAREA TWO 1:2/3\nEXPORT 1:2/5\n\nAREA \"NEW\" 1:2/3.0\nEXPORT !1:2/4.0\n" := by
  decide +kernel

/-- Every blank line after the section of a changed area is lost until the next area begins, also among
lines that do not belong to the area. -/
theorem blank_lines_lost : updateText { confChanged with areas := confChanged.areas.take 1 }
      b!"AREA ONE 1:2/3\n\nSYSOP X\n\n; the end\n" = .ok
    b!"AREA \"ONE\" 1:2/3.0\nEXPORT 1:2/4.0 1:2/5.0\n\nSYSOP X\n; the end\n" := by
  decide +kernel

/-- A NUL byte at the beginning of a line ends the file: the rest of the configuration is deleted. -/
theorem nul_truncates : updateText { confChanged with areas := [] } (b!"SYSOP X\n" ++ [0, 10] ++ b!"INBOUND y\n") = .ok b!"SYSOP X\n" := by
  decide +kernel

/-- A tag of 80 characters: when the configuration is read 79 of them are kept, when it is rewritten 99
are compared, so the area counts as removed and its section is deleted. -/
theorem long_tag_deleted : updateText
      { confChanged with areas := [{ tag := List.replicate 79 65, aka := some 0, tossNodes := [{ node := 0 }] }] }
      (b!"AREA " ++ List.replicate 80 65 ++ b!" 1:2/3\nEXPORT 1:2/4\n") = .ok [] := by
  decide +kernel

end Ex

end CM
