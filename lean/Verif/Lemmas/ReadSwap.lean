import Verif.Lemmas.ReadNode
/-! # Lines that do not depend on the areas and nodes read before -/
set_option linter.unusedSimpArgs false

namespace CM

/-- The state with other areas and nodes. -/
def swap (A : List Area) (N : List ConfigNode) (s : RdSt) : RdSt := { s with cfg := { s.cfg with areas := A, nodes := N } }

theorem rdKnown_swap {M N : List ConfigNode} (h : M.map (·.node) = N.map (·.node)) (n : Node4D) : rdKnown M n = rdKnown N n := by
  have e : ∀ L : List ConfigNode, L.findIdx? (fun c => compare4D n c.node == 0) = (L.map (·.node)).findIdx? (fun k => compare4D n k == 0) := by
    intro L; rw [List.findIdx?_map]; rfl
  unfold rdKnown
  rw [e, e, h]

theorem rdArealist_swap {M N : List ConfigNode} (h : M.map (·.node) = N.map (·.node)) (r : Str) : rdArealist M r = rdArealist N r := by
  unfold rdArealist
  simp only [rdKnown_swap h]

theorem rdExport_swap {M N : List ConfigNode} (h : M.map (·.node) = N.map (·.node)) :
    ∀ (ws : List Str) (tpl : Node4D), rdExport M tpl ws = rdExport N tpl ws := by
  intro ws
  induction ws with
  | nil => intro; rfl
  | cons w ws ih => intro tpl; rw [rdExport, rdExport]; simp only [rdKnown_swap h, ih]

theorem rdBanned_swap {M N : List ConfigNode} (h : M.map (·.node) = N.map (·.node)) :
    ∀ (ws : List Str), rdBanned M ws = rdBanned N ws := by
  intro ws
  induction ws with
  | nil => rfl
  | cons w ws ih => rw [rdBanned, rdBanned]; simp only [rdKnown_swap h, ih]

theorem rdAreaCmd_swap {M N : List ConfigNode} (h : M.map (·.node) = N.map (·.node)) (w r : Str) (a : Area) :
    rdAreaCmd M w r a = rdAreaCmd N w r a := by
  unfold rdAreaCmd
  simp only [rdExport_swap h, rdBanned_swap h]

theorem pathSettings_swap : ∀ p ∈ pathSettings, ∀ (s : RdSt) (v : Str),
    (p.2.2 s v).cfg.areas = s.cfg.areas ∧ (p.2.2 s v).cfg.nodes = s.cfg.nodes ∧ (p.2.2 s v).cfg.akas = s.cfg.akas ∧
    (p.2.2 s v).cfg.packers = s.cfg.packers ∧ ∀ A N, p.2.2 (swap A N s) v = swap A N (p.2.2 s v) := by
  intro p hp s v
  simp only [pathSettings, List.mem_cons, List.not_mem_nil, or_false] at hp
  rcases hp with rfl | rfl | rfl | rfl | rfl | rfl | rfl | rfl | rfl | rfl | rfl <;> exact ⟨rfl, rfl, rfl, rfl, fun _ _ => rfl⟩

theorem emap_bind {α : Type} (x : Except RdErr α) (f g : α → Except RdErr RdSt) (k : RdSt → RdSt) (h : ∀ a, f a = (g a).map k) :
    (x >>= f) = (x >>= g).map k := by
  cases x with
  | error e => rfl
  | ok a => exact h a

theorem emap_ite {c : Prop} [Decidable c] {x y x' y' : Except RdErr RdSt} {k : RdSt → RdSt} (h : x = x'.map k) (h' : y = y'.map k) :
    (if c then x else y) = (if c then x' else y').map k := by
  split <;> assumption

theorem omap_ite {c : Prop} [Decidable c] {x x' : Except RdErr RdSt} {y y' : Option (Except RdErr RdSt)} {k : RdSt → RdSt} (h : x = x'.map k)
    (h' : y = y'.map (Except.map k)) : (if c then some x else y) = (if c then some x' else y').map (Except.map k) := by
  split
  · rw [h]; rfl
  · exact h'

theorem rdOther_swap (s : RdSt) (w rest : Str) (A : List Area) (N : List ConfigNode) (h : N.map (·.node) = s.cfg.nodes.map (·.node)) :
    rdOther (swap A N s) w rest = (rdOther s w rest).map (Except.map (swap A N)) := by
  have e : rdArealist (swap A N s).cfg.nodes rest = rdArealist s.cfg.nodes rest := rdArealist_swap h rest
  unfold rdOther
  rw [e]
  refine omap_ite (emap_bind _ _ _ _ fun _ => rfl) ?_
  refine omap_ite (emap_bind _ _ _ _ fun _ => rfl) ?_
  refine omap_ite (emap_bind _ _ _ _ fun _ => rfl) ?_
  refine omap_ite (emap_bind _ _ _ _ fun _ => rfl) ?_
  refine omap_ite (emap_bind _ _ _ _ fun _ => emap_bind _ _ _ _ fun k => ?_) ?_
  · cases nodelistOf k.1 <;> rfl
  refine omap_ite (emap_bind _ _ _ _ fun _ => emap_ite rfl rfl) ?_
  refine omap_ite (emap_bind _ _ _ _ fun _ => emap_bind _ _ _ _ fun _ => rfl) ?_
  refine omap_ite (emap_bind _ _ _ _ fun _ => emap_ite rfl (emap_ite rfl (emap_ite rfl rfl))) ?_
  refine omap_ite (emap_bind _ _ _ _ fun _ => emap_ite rfl (emap_ite rfl (emap_ite rfl rfl))) ?_
  refine omap_ite (emap_bind _ _ _ _ fun _ => rfl) ?_
  refine omap_ite (emap_bind _ _ _ _ fun _ => rfl) ?_
  refine omap_ite (emap_bind _ _ _ _ fun _ => rfl) ?_
  refine omap_ite (emap_bind _ _ _ _ fun _ => rfl) ?_
  refine omap_ite (emap_bind _ _ _ _ fun _ => rfl) ?_
  refine omap_ite (emap_bind _ _ _ _ fun _ => rfl) ?_
  refine omap_ite (emap_bind _ _ _ _ fun _ => rfl) ?_
  refine omap_ite (emap_bind _ _ _ _ fun _ => rfl) ?_
  refine omap_ite (emap_bind _ _ _ _ fun _ => rfl) ?_
  refine omap_ite (emap_bind _ _ _ _ fun _ => rfl) ?_
  rfl

/-- What the line leaves alone. -/
def Apart (s t : RdSt) : Prop :=
  t.cfg.areas = s.cfg.areas ∧ t.cfg.nodes = s.cfg.nodes ∧ (s.cfg.akas.map (·.node) <+: t.cfg.akas.map (·.node)) ∧
    (s.cfg.packers <+: t.cfg.packers)

def AllApart (s : RdSt) (r : Except RdErr RdSt) : Prop := ∀ t, r = .ok t → Apart s t

theorem allApart_bind {α : Type} {s : RdSt} {x : Except RdErr α} {f : α → Except RdErr RdSt} (h : ∀ a, AllApart s (f a)) : AllApart s (x >>= f) := by
  cases x with
  | error e => intro t ht; cases ht
  | ok a => exact h a

theorem allApart_ite {c : Prop} [Decidable c] {s : RdSt} {x y : Except RdErr RdSt} (h : AllApart s x) (h' : AllApart s y) :
    AllApart s (if c then x else y) := by
  split <;> assumption

theorem allApart_error {s : RdSt} (e : RdErr) : AllApart s (.error e) := by intro t ht; cases ht

theorem allApart_ok {s t : RdSt} (h : Apart s t) : AllApart s (.ok t) := by rintro _ ⟨⟩; exact h

def AllApart' (s : RdSt) (r : Option (Except RdErr RdSt)) : Prop := ∀ x, r = some x → AllApart s x

theorem allApart'_ite {c : Prop} [Decidable c] {s : RdSt} {x : Except RdErr RdSt} {y : Option (Except RdErr RdSt)} (h : AllApart s x) (h' : AllApart' s y) :
    AllApart' s (if c then some x else y) := by
  split
  · rintro _ ⟨⟩; exact h
  · exact h'

theorem rdOther_apart (s : RdSt) (w rest : Str) : AllApart' s (rdOther s w rest) := by
  have R : ∀ {t : RdSt}, t.cfg.areas = s.cfg.areas → t.cfg.nodes = s.cfg.nodes → t.cfg.akas = s.cfg.akas → t.cfg.packers = s.cfg.packers →
      AllApart s (.ok t) := by
    intro t h1 h2 h3 h4
    exact allApart_ok ⟨h1, h2, by rw [h3]; exact List.prefix_refl _, by rw [h4]; exact List.prefix_refl _⟩
  unfold rdOther
  refine allApart'_ite (allApart_bind fun _ => R rfl rfl rfl rfl) ?_
  refine allApart'_ite (allApart_bind fun _ => R rfl rfl rfl rfl) ?_
  refine allApart'_ite (allApart_bind fun _ => R rfl rfl rfl rfl) ?_
  refine allApart'_ite (allApart_bind fun _ => R rfl rfl rfl rfl) ?_
  refine allApart'_ite (allApart_bind fun _ => allApart_bind fun k => ?_) ?_
  · cases nodelistOf k.1
    · exact allApart_error _
    · exact R rfl rfl rfl rfl
  refine allApart'_ite (allApart_bind fun _ => allApart_ite (allApart_error _) (R rfl rfl rfl rfl)) ?_
  refine allApart'_ite (allApart_bind fun _ => allApart_bind fun _ => R rfl rfl rfl rfl) ?_
  refine allApart'_ite (allApart_bind fun _ => allApart_ite (R rfl rfl rfl rfl) (allApart_ite (R rfl rfl rfl rfl) (allApart_ite (R rfl rfl rfl rfl) (allApart_error _)))) ?_
  refine allApart'_ite (allApart_bind fun _ => allApart_ite (R rfl rfl rfl rfl) (allApart_ite (R rfl rfl rfl rfl) (allApart_ite (R rfl rfl rfl rfl) (allApart_error _)))) ?_
  refine allApart'_ite (allApart_bind fun p => allApart_ok ⟨rfl, rfl, List.prefix_refl _, ⟨[p], rfl⟩⟩) ?_
  refine allApart'_ite (allApart_bind fun _ => R rfl rfl rfl rfl) ?_
  refine allApart'_ite (allApart_bind fun _ => R rfl rfl rfl rfl) ?_
  refine allApart'_ite (allApart_bind fun _ => R rfl rfl rfl rfl) ?_
  refine allApart'_ite (allApart_bind fun _ => R rfl rfl rfl rfl) ?_
  refine allApart'_ite (allApart_bind fun _ => R rfl rfl rfl rfl) ?_
  refine allApart'_ite (allApart_bind fun _ => R rfl rfl rfl rfl) ?_
  refine allApart'_ite (allApart_bind fun _ => R rfl rfl rfl rfl) ?_
  refine allApart'_ite (allApart_bind fun _ => R rfl rfl rfl rfl) ?_
  refine allApart'_ite (allApart_bind fun _ => R rfl rfl rfl rfl) ?_
  intro x hx; cases hx

theorem rdAkaCmd_node {w rest : Str} {k m : Aka} (h : rdAkaCmd w rest k = .ok m) : m.node = k.node := by
  unfold rdAkaCmd at h
  rcases iteq.1 h with ⟨-, h⟩ | ⟨-, h⟩
  · obtain ⟨t, h1, h⟩ := ebind_ok.1 h
    rw [epure_ok] at h; subst h; rfl
  rcases iteq.1 h with ⟨-, h⟩ | ⟨-, h⟩
  · obtain ⟨t, h1, h⟩ := ebind_ok.1 h
    rw [epure_ok] at h; subst h; rfl
  obtain ⟨t, h1, h⟩ := ebind_ok.1 h
  obtain ⟨d, h2, h⟩ := ebind_ok.1 h
  rw [epure_ok] at h; subst h; rfl

theorem map_relast {α β : Type} (f : α → β) {l : List α} {a b : α} (h : l.getLast? = some a) (e : f b = f a) :
    (l.dropLast ++ [b]).map f = l.map f := by
  have := List.dropLast_concat_getLast (l := l) (by rintro rfl; cases h)
  have ha : l.getLast (by rintro rfl; cases h) = a := by
    rw [List.getLast?_eq_some_getLast (by rintro rfl; cases h)] at h; exact Option.some.inj h
  rw [ha] at this
  conv => rhs; rw [← this]
  simp [e]

theorem rdRest_apart (s : RdSt) (w rest : Str) : AllApart s (rdRest s w rest) := by
  unfold rdRest
  refine allApart_ite (allApart_bind fun k => allApart_ok ⟨rfl, rfl, ?_, List.prefix_refl _⟩) (allApart_ite ?_ (allApart_ite ?_ ?_))
  · exact ⟨[k.node], by simp⟩
  · cases h : s.cfg.akas.getLast? with
    | none => exact allApart_error _
    | some k =>
      intro t ht
      obtain ⟨m, h1, ht⟩ := ebind_ok.1 ht
      rw [epure_ok] at ht; subst ht
      refine ⟨rfl, rfl, ?_, List.prefix_refl _⟩
      dsimp only
      rw [map_relast _ h (rdAkaCmd_node h1)]
      exact List.prefix_refl _
  · cases h : s.cfg.filters.getLast? with
    | none => exact allApart_error _
    | some k => exact allApart_bind fun _ => allApart_ok ⟨rfl, rfl, List.prefix_refl _, List.prefix_refl _⟩
  · cases switchOf cfgSwitches w with
    | some v => exact allApart_ok ⟨rfl, rfl, List.prefix_refl _, List.prefix_refl _⟩
    | none =>
      cases switchOf msgSwitches w with
      | some v => exact allApart_ok ⟨rfl, rfl, List.prefix_refl _, List.prefix_refl _⟩
      | none =>
        cases switchOf jamSwitches w with
        | some v => exact allApart_ok ⟨rfl, rfl, List.prefix_refl _, List.prefix_refl _⟩
        | none =>
          dsimp only
          cases hp : pathSettings.find? fun p => eqi w p.1 with
          | some p =>
            refine allApart_bind fun t => allApart_ok ?_
            obtain ⟨h1, h2, h3, h4, -⟩ := pathSettings_swap p (List.mem_of_find?_eq_some hp) s t.1
            exact ⟨h1, h2, by rw [h3]; exact List.prefix_refl _, by rw [h4]; exact List.prefix_refl _⟩
          | none =>
            dsimp only
            cases ho : rdOther s w rest with
            | some r => exact rdOther_apart s w rest r ho
            | none => exact allApart_ite (allApart_error _) (allApart_ok ⟨rfl, rfl, List.prefix_refl _, List.prefix_refl _⟩)

theorem rdRest_swap (s : RdSt) (w rest : Str) (A : List Area) (N : List ConfigNode) (h : N.map (·.node) = s.cfg.nodes.map (·.node)) :
    rdRest (swap A N s) w rest = (rdRest s w rest).map (swap A N) := by
  unfold rdRest
  rw [rdOther_swap s w rest A N h]
  refine emap_ite (emap_bind _ _ _ _ fun _ => rfl) (emap_ite ?_ (emap_ite ?_ ?_))
  · show (match s.cfg.akas.getLast? with | none => _ | some k => _) = _
    cases s.cfg.akas.getLast? with
    | none => rfl
    | some k => exact emap_bind _ _ _ _ fun _ => rfl
  · show (match s.cfg.filters.getLast? with | none => _ | some k => _) = _
    cases s.cfg.filters.getLast? with
    | none => rfl
    | some k => exact emap_bind _ _ _ _ fun _ => rfl
  · cases switchOf cfgSwitches w with
    | some v => rfl
    | none =>
      cases switchOf msgSwitches w with
      | some v => rfl
      | none =>
        cases switchOf jamSwitches w with
        | some v => rfl
        | none =>
          dsimp only
          cases hp : pathSettings.find? fun p => eqi w p.1 with
          | some p =>
            refine emap_bind _ _ _ _ fun t => ?_
            rw [(pathSettings_swap p (List.mem_of_find?_eq_some hp) s t.1).2.2.2.2]
            rfl
          | none =>
            dsimp only
            cases rdOther s w rest with
            | some r => rfl
            | none => exact emap_ite rfl rfl

end CM
