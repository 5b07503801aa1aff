import Verif.Lemmas.ReadSwap
import Verif.Props.ConfigFile
/-! # What reading a line keeps, and reading words with other limits -/
set_option linter.unusedSimpArgs false

namespace CM

theorem tokLoop_limit (q : Bool) (m m' d : Nat) (s : Str) (h : (tokLoop q m d s).1.length + d < m - 1)
    (h' : (tokLoop q m d s).1.length + d ≤ m' - 1) : tokLoop q m' d s = tokLoop q m d s := by
  fun_induction tokLoop q m d s with
  | case1 d => rw [tokLoop]
  | case2 d c r hs => rw [tokLoop.eq_def]; dsimp only; rw [if_pos hs]
  | case3 d hs =>
    rw [tokLoop.eq_def]; dsimp only
    rw [if_neg hs, if_pos rfl]
    have : d < m - 1 := by simp at h; omega
    rw [if_pos this] at h' ⊢
    rw [if_pos (by simp at h'; omega)]
  | case4 d r hs =>
    rw [tokLoop.eq_def]; dsimp only
    rw [if_neg hs, if_pos rfl, if_pos rfl]
    have : d < m - 1 := by simp at h; omega
    rw [if_pos this] at h' ⊢
    rw [if_pos (by simp at h'; omega)]
  | case5 d x r hs hd hx ih =>
    dsimp only at h h'
    rw [tokLoop.eq_def]; dsimp only
    simp only [List.length_cons] at h h'
    rw [if_neg hs, if_pos rfl, if_neg (by assumption), if_pos (by omega), ih (by omega) (by omega)]
  | case6 d x r hs hx hd ih => omega
  | case7 d c r hs hc hd ih =>
    rw [tokLoop.eq_def]; dsimp only
    simp only [List.length_cons] at h h'
    rw [if_neg hs, if_neg hc, if_pos (by omega), ih (by omega) (by omega)]
  | case8 d c r hs hc hd ih => omega

theorem jbstrcpy_limit (m m' : Nat) (s : Str) (h : (jbstrcpy m s).1.length < m - 1) (h' : (jbstrcpy m s).1.length ≤ m' - 1) :
    jbstrcpy m' s = jbstrcpy m s := by
  unfold jbstrcpy at h h' ⊢
  dsimp only at h h' ⊢
  rw [tokLoop_limit _ m m' 0 _ (by simpa using h) (by simpa using h')]

/-! ## What stays the same -/

/-- What a line of an area does not change. -/
def areaKey (a : Area) : Str × AreaType × Option Nat := (a.tag, a.type, a.aka)

/-- What a line of a node does not change. -/
def cnodeKey (n : ConfigNode) : Node4D × Option Nat := (n.node, n.packer)

theorem rdAreaCmd_key {N : List ConfigNode} {w rest : Str} {a b : Area} (h : rdAreaCmd N w rest a = .ok b) : areaKey b = areaKey a := by
  unfold rdAreaCmd at h
  rcases iteq.1 h with ⟨-, h⟩ | ⟨-, h⟩
  · cases h; rfl
  rcases iteq.1 h with ⟨-, h⟩ | ⟨-, h⟩
  · cases h; rfl
  rcases iteq.1 h with ⟨-, h⟩ | ⟨-, h⟩
  · cases h; rfl
  rcases iteq.1 h with ⟨-, h⟩ | ⟨-, h⟩
  · cases h; rfl
  rcases iteq.1 h with ⟨-, h⟩ | ⟨-, h⟩
  · cases h; rfl
  rcases iteq.1 h with ⟨-, h⟩ | ⟨-, h⟩
  · rcases iteq.1 h with ⟨-, h⟩ | ⟨-, h⟩
    · cases h
    · obtain ⟨t, -, h⟩ := ebind_ok.1 h
      rw [epure_ok] at h; subst h; rfl
  rcases iteq.1 h with ⟨-, h⟩ | ⟨-, h⟩
  · rcases iteq.1 h with ⟨-, h⟩ | ⟨-, h⟩
    · cases h
    · obtain ⟨t, -, h⟩ := ebind_ok.1 h
      rw [epure_ok] at h; subst h; rfl
  rcases iteq.1 h with ⟨-, h⟩ | ⟨-, h⟩
  · obtain ⟨t, -, h⟩ := ebind_ok.1 h
    rw [epure_ok] at h; subst h; rfl
  rcases iteq.1 h with ⟨-, h⟩ | ⟨-, h⟩
  · obtain ⟨t, -, h⟩ := ebind_ok.1 h
    rw [epure_ok] at h; subst h; rfl
  rcases iteq.1 h with ⟨-, h⟩ | ⟨-, h⟩
  · obtain ⟨t, -, h⟩ := ebind_ok.1 h
    obtain ⟨t, -, h⟩ := ebind_ok.1 h
    rw [epure_ok] at h; subst h; rfl
  rcases iteq.1 h with ⟨-, h⟩ | ⟨-, h⟩
  · obtain ⟨t, -, h⟩ := ebind_ok.1 h
    rw [epure_ok] at h; subst h; rfl
  obtain ⟨t, -, h⟩ := ebind_ok.1 h
  rw [epure_ok] at h; subst h; rfl

/-- What was read before is kept. -/
structure Grows (s t : RdSt) : Prop where
  areas : s.cfg.areas.map areaKey <+: t.cfg.areas.map areaKey
  nodes : s.cfg.nodes.map cnodeKey <+: t.cfg.nodes.map cnodeKey
  akas : s.cfg.akas.map (·.node) <+: t.cfg.akas.map (·.node)
  packers : s.cfg.packers <+: t.cfg.packers

theorem Grows.refl (s : RdSt) : Grows s s := ⟨List.prefix_refl _, List.prefix_refl _, List.prefix_refl _, List.prefix_refl _⟩

theorem Grows.trans {s t u : RdSt} (h : Grows s t) (k : Grows t u) : Grows s u :=
  ⟨h.areas.trans k.areas, h.nodes.trans k.nodes, h.akas.trans k.akas, h.packers.trans k.packers⟩

theorem Grows.addresses {s t : RdSt} (h : Grows s t) : s.cfg.nodes.map (·.node) <+: t.cfg.nodes.map (·.node) := by
  have := h.nodes.map Prod.fst
  simpa [List.map_map, Function.comp_def, cnodeKey] using this

/-- The cases of a line: which part of the state it changes. -/
inductive LineCase (s t : RdSt) (l : Str) : Prop
  | area (a : Area) (hw : isAreaWord (keyword l) = true) (h : rdArea s.cfg.akas (keyword l) (jbstrcpy 30 l).2.1 = .ok a)
      (e : t = withArea s s.cfg.areas a)
  | areaCmd (A : List Area) (a b : Area) (hw : isAreaWord (keyword l) = false) (hc : areaCmdWords.any (eqi (keyword l)) = true)
      (hA : s.cfg.areas = A ++ [a]) (h : rdAreaCmd s.cfg.nodes (keyword l) (jbstrcpy 30 l).2.1 a = .ok b) (e : t = withArea s A b)
  | node (n : ConfigNode) (hw : isAreaWord (keyword l) = false) (hc : areaCmdWords.any (eqi (keyword l)) = false)
      (hn : eqi (keyword l) b!"NODE" = true) (h : rdNodeLine s.cfg.packers (jbstrcpy 30 l).2.1 = .ok n) (e : t = withNode s s.cfg.nodes n)
  | nodeCmd (N : List ConfigNode) (m n : ConfigNode) (hw : isAreaWord (keyword l) = false) (hc : areaCmdWords.any (eqi (keyword l)) = false)
      (hn : eqi (keyword l) b!"NODE" = false) (hd : nodeCmdWords.any (eqi (keyword l)) = true) (hN : s.cfg.nodes = N ++ [m])
      (h : rdNodeCmd (keyword l) (jbstrcpy 30 l).2.1 m = .ok n) (e : t = withNode s N n)
  | rest (hw : isAreaWord (keyword l) = false) (hc : areaCmdWords.any (eqi (keyword l)) = false) (hn : eqi (keyword l) b!"NODE" = false)
      (hd : nodeCmdWords.any (eqi (keyword l)) = false) (h : rdRest s (keyword l) (jbstrcpy 30 l).2.1 = .ok t)

theorem rdLine_cases {s t : RdSt} {l : Str} (h : rdLine s l = .ok t) : LineCase s t l := by
  unfold rdLine at h
  dsimp only at h
  rcases iteq.1 h with ⟨c1, h⟩ | ⟨c1, h⟩
  · obtain ⟨a, h1, h⟩ := ebind_ok.1 h
    rw [epure_ok] at h
    exact .area a c1 h1 h.symm
  have c1 : isAreaWord (keyword l) = false := Bool.eq_false_iff.2 c1
  rcases iteq.1 h with ⟨c2, h⟩ | ⟨c2, h⟩
  · cases hl : s.cfg.areas.getLast? with
    | none => rw [hl] at h; cases h
    | some a =>
      rw [hl] at h
      obtain ⟨b, h1, h⟩ := ebind_ok.1 h
      rw [epure_ok] at h
      exact .areaCmd s.cfg.areas.dropLast a b c1 c2 (getLast_split hl) h1 h.symm
  have c2 : areaCmdWords.any (eqi (keyword l)) = false := Bool.eq_false_iff.2 c2
  rcases iteq.1 h with ⟨c3, h⟩ | ⟨c3, h⟩
  · obtain ⟨a, h1, h⟩ := ebind_ok.1 h
    rw [epure_ok] at h
    exact .node a c1 c2 c3 h1 h.symm
  have c3 : eqi (keyword l) b!"NODE" = false := Bool.eq_false_iff.2 c3
  rcases iteq.1 h with ⟨c4, h⟩ | ⟨c4, h⟩
  · cases hl : s.cfg.nodes.getLast? with
    | none => rw [hl] at h; cases h
    | some a =>
      rw [hl] at h
      obtain ⟨b, h1, h⟩ := ebind_ok.1 h
      rw [epure_ok] at h
      exact .nodeCmd s.cfg.nodes.dropLast a b c1 c2 c3 c4 (getLast_split hl) h1 h.symm
  exact .rest c1 c2 c3 (Bool.eq_false_iff.2 c4) h

theorem rdLine_grows {s t : RdSt} {l : Str} (h0 : rdLine s l = .ok t) : Grows s t := by
  rcases rdLine_cases h0 with ⟨a, -, h, rfl⟩ | ⟨A, a, b, -, -, hA, h, rfl⟩ | ⟨n, -, -, -, h, rfl⟩ | ⟨N, m, n, -, -, -, -, hN, h, rfl⟩ |
    ⟨-, -, -, -, h⟩
  · exact ⟨⟨[areaKey a], by simp [withArea]⟩, List.prefix_refl _, List.prefix_refl _, List.prefix_refl _⟩
  · refine ⟨?_, List.prefix_refl _, List.prefix_refl _, List.prefix_refl _⟩
    rw [hA]
    simp only [withArea, List.map_append, List.map_cons, rdAreaCmd_key h]
    exact List.prefix_refl _
  · exact ⟨List.prefix_refl _, ⟨[cnodeKey n], by simp [withNode]⟩, List.prefix_refl _, List.prefix_refl _⟩
  · refine ⟨List.prefix_refl _, ?_, List.prefix_refl _, List.prefix_refl _⟩
    obtain ⟨e1, e2⟩ := rdNodeCmd_same h
    rw [hN]
    simp only [withNode, List.map_append, List.map_cons, cnodeKey, e1, e2]
    exact List.prefix_refl _
  · obtain ⟨e1, e2, e3, e4⟩ := rdRest_apart s _ _ t h
    exact ⟨by rw [e1]; exact List.prefix_refl _, by rw [e2]; exact List.prefix_refl _, e3, e4⟩

theorem rdLines_cons {s t : RdSt} {l : Str} {ls : List Str} (h : rdLines s (l :: ls) = .ok t) :
    ∃ u, rdLine s l = .ok u ∧ rdLines u ls = .ok t := by
  unfold rdLines at h
  rw [List.foldlM_cons] at h
  exact ebind_ok.1 h

theorem rdLines_grows {s t : RdSt} : ∀ {ls : List Str}, rdLines s ls = .ok t → Grows s t := by
  intro ls
  induction ls generalizing s with
  | nil => intro h; cases h; exact .refl _
  | cons l ls ih =>
    intro h
    obtain ⟨u, h1, h2⟩ := rdLines_cons h
    exact (rdLine_grows h1).trans (ih h2)

/-! ## Only PACKER lines add packers -/

def AllP (P : RdSt → Prop) (r : Except RdErr RdSt) : Prop := ∀ t, r = .ok t → P t

theorem allP_bind {α : Type} {P : RdSt → Prop} {x : Except RdErr α} {f : α → Except RdErr RdSt} (h : ∀ a, AllP P (f a)) : AllP P (x >>= f) := by
  cases x with
  | error e => intro t ht; cases ht
  | ok a => exact h a

theorem allP_ite {c : Prop} [Decidable c] {P : RdSt → Prop} {x y : Except RdErr RdSt} (h : AllP P x) (h' : AllP P y) :
    AllP P (if c then x else y) := by
  split <;> assumption

theorem allP_error {P : RdSt → Prop} (e : RdErr) : AllP P (.error e) := by intro t ht; cases ht

theorem allP_ok {P : RdSt → Prop} {t : RdSt} (h : P t) : AllP P (.ok t) := by rintro _ ⟨⟩; exact h

def AllP' (P : RdSt → Prop) (r : Option (Except RdErr RdSt)) : Prop := ∀ x, r = some x → AllP P x

theorem allP'_ite {c : Prop} [Decidable c] {P : RdSt → Prop} {x : Except RdErr RdSt} {y : Option (Except RdErr RdSt)} (h : c → AllP P x) (h' : AllP' P y) :
    AllP' P (if c then some x else y) := by
  split
  · rename_i hc; rintro _ ⟨⟩; exact h hc
  · exact h'

theorem rdOther_packers (s : RdSt) (w rest : Str) (hw : eqi w b!"PACKER" = false) : AllP' (fun t => t.cfg.packers = s.cfg.packers) (rdOther s w rest) := by
  have R : ∀ {t : RdSt}, t.cfg.packers = s.cfg.packers → AllP (fun t => t.cfg.packers = s.cfg.packers) (.ok t) := fun h => allP_ok h
  unfold rdOther
  refine allP'_ite (fun _ => allP_bind fun _ => R rfl) ?_
  refine allP'_ite (fun _ => allP_bind fun _ => R rfl) ?_
  refine allP'_ite (fun _ => allP_bind fun _ => R rfl) ?_
  refine allP'_ite (fun _ => allP_bind fun _ => R rfl) ?_
  refine allP'_ite (fun _ => allP_bind fun _ => allP_bind fun k => ?_) ?_
  · cases nodelistOf k.1
    · exact allP_error _
    · exact R rfl
  refine allP'_ite (fun _ => allP_bind fun _ => allP_ite (allP_error _) (R rfl)) ?_
  refine allP'_ite (fun _ => allP_bind fun _ => allP_bind fun _ => R rfl) ?_
  refine allP'_ite (fun _ => allP_bind fun _ => allP_ite (R rfl) (allP_ite (R rfl) (allP_ite (R rfl) (allP_error _)))) ?_
  refine allP'_ite (fun _ => allP_bind fun _ => allP_ite (R rfl) (allP_ite (R rfl) (allP_ite (R rfl) (allP_error _)))) ?_
  refine allP'_ite (fun hc => by rw [hw] at hc; cases hc) ?_
  refine allP'_ite (fun _ => allP_bind fun _ => R rfl) ?_
  refine allP'_ite (fun _ => allP_bind fun _ => R rfl) ?_
  refine allP'_ite (fun _ => allP_bind fun _ => R rfl) ?_
  refine allP'_ite (fun _ => allP_bind fun _ => R rfl) ?_
  refine allP'_ite (fun _ => allP_bind fun _ => R rfl) ?_
  refine allP'_ite (fun _ => allP_bind fun _ => R rfl) ?_
  refine allP'_ite (fun _ => allP_bind fun _ => R rfl) ?_
  refine allP'_ite (fun _ => allP_bind fun _ => R rfl) ?_
  refine allP'_ite (fun _ => allP_bind fun _ => R rfl) ?_
  intro x hx; cases hx

theorem rdRest_packers (s : RdSt) (w rest : Str) (hw : eqi w b!"PACKER" = false) : AllP (fun t => t.cfg.packers = s.cfg.packers) (rdRest s w rest) := by
  unfold rdRest
  refine allP_ite (allP_bind fun k => allP_ok rfl) (allP_ite ?_ (allP_ite ?_ ?_))
  · cases h : s.cfg.akas.getLast? with
    | none => exact allP_error _
    | some k => exact allP_bind fun _ => allP_ok rfl
  · cases h : s.cfg.filters.getLast? with
    | none => exact allP_error _
    | some k => exact allP_bind fun _ => allP_ok rfl
  · cases switchOf cfgSwitches w with
    | some v => exact allP_ok rfl
    | none =>
      cases switchOf msgSwitches w with
      | some v => exact allP_ok rfl
      | none =>
        cases switchOf jamSwitches w with
        | some v => exact allP_ok rfl
        | none =>
          dsimp only
          cases hp : pathSettings.find? fun p => eqi w p.1 with
          | some p => exact allP_bind fun t => allP_ok (pathSettings_swap p (List.mem_of_find?_eq_some hp) s t.1).2.2.2.1
          | none =>
            dsimp only
            cases ho : rdOther s w rest with
            | some r => exact rdOther_packers s w rest hw r ho
            | none => exact allP_ite (allP_error _) (allP_ok rfl)

theorem rdLines_packers {s t : RdSt} : ∀ {ls : List Str}, (∀ l ∈ ls, eqi (keyword l) b!"PACKER" = false) → rdLines s ls = .ok t →
    t.cfg.packers = s.cfg.packers := by
  intro ls
  induction ls generalizing s with
  | nil => intro _ h; cases h; rfl
  | cons l ls ih =>
    intro hl h
    obtain ⟨u, h1, h2⟩ := rdLines_cons h
    rw [ih (fun x hx => hl x (by simp [hx])) h2]
    rcases rdLine_cases h1 with ⟨a, -, -, rfl⟩ | ⟨A, a, b, -, -, -, -, rfl⟩ | ⟨n, -, -, -, -, rfl⟩ | ⟨N, m, n, -, -, -, -, -, -, rfl⟩ |
      ⟨-, -, -, -, h⟩
    · rfl
    · rfl
    · rfl
    · rfl
    · exact rdRest_packers s _ _ (hl l (by simp)) u h

end CM
