import Verif.Spec.CrashMaint
import Verif.Lemmas.CrashExport
import Verif.Lemmas.Disk
/-! # CrashMaint and CrashMail read the same areas -/
set_option linter.unusedSimpArgs false

namespace CM

/-! ## Keywords -/

theorem keyword_short (l k : Str) (hk : k.length < 15) : eqi (jbstrcpy 20 l).1 k = eqi (keyword l) k := by
  have no : ∀ w : Str, 15 ≤ w.length → eqi w k = false := by
    intro w hw
    rw [Bool.eq_false_iff]
    intro h
    have := congrArg List.length ((eqi_iff _ _).1 h)
    simp only [List.length_map] at this
    omega
  unfold keyword
  by_cases h1 : (jbstrcpy 20 l).1.length < 19
  · rw [jbstrcpy_limit 20 30 l (by omega) (by omega)]
  by_cases h2 : (jbstrcpy 30 l).1.length ≤ 19
  · rw [jbstrcpy_limit 30 20 l (by omega) (by omega)]
  rw [no _ (by omega), no _ (by omega)]

theorem isAreaWord_short (l : Str) : isAreaWord (jbstrcpy 20 l).1 = isAreaWord (keyword l) := by
  unfold isAreaWord
  rw [keyword_short _ _ (by decide), keyword_short _ _ (by decide), keyword_short _ _ (by decide)]

theorem lower_upper (x y : UInt8) : lower x = lower y ↔ upper x = upper y := by
  have h : ∀ x : UInt8, lower (upper x) = lower x := by decide +kernel
  have h' : ∀ x : UInt8, upper (lower x) = upper x := by decide +kernel
  constructor
  · intro e; rw [← h' x, e, h']
  · intro e; rw [← h x, e, h]

theorem map_lower_upper : ∀ a b : Str, a.map lower = b.map lower ↔ a.map upper = b.map upper
  | [], [] => by simp
  | [], _ :: _ => by simp
  | _ :: _, [] => by simp
  | x :: a, y :: b => by simp [lower_upper x y, map_lower_upper a b]

theorem template_iff (tag : Str) : (!(eqi tag b!"DEFAULT") && !(eqin tag b!"DEFAULT_" 8)) = true ↔ ¬ TemplateName tag := by
  have h1 : eqi tag b!"DEFAULT" = true ↔ tag.map upper = b!"DEFAULT" := by
    rw [eqi_iff, map_lower_upper]; rfl
  have h2 : eqin tag b!"DEFAULT_" 8 = true ↔ b!"DEFAULT_" <+: tag.map upper := by
    have e : eqin tag b!"DEFAULT_" 8 = true ↔ (tag.take 8).map lower = (b!"DEFAULT_").map lower := by
      simp [eqin]
    rw [e, map_lower_upper, show (b!"DEFAULT_").map upper = b!"DEFAULT_" from rfl, List.map_take]
    constructor
    · intro h; rw [← h]; exact List.take_prefix _ _
    · rintro ⟨r, hr⟩; rw [← hr]; rfl
  unfold TemplateName
  rw [← h1, ← h2]
  simp

/-! ## Areas -/

/-- CrashMaint has the area. -/
structure SameMaint (a : Area) (m : MaintArea) : Prop where
  tag : m.tag = a.tag
  path : m.path = a.path
  base : maintBase m.base = a.base
  keepNum : m.keepNum = a.keepNum
  keepDays : m.keepDays = a.keepDays

inductive MaintAlike : List Area → List MaintArea → Prop
  | nil : MaintAlike [] []
  | skip {A M a} (t : MaintAlike A M) (h : ¬ HasMessages a) : MaintAlike (A ++ [a]) M
  | keep {A M a m} (t : MaintAlike A M) (h : HasMessages a) (e : SameMaint a m) : MaintAlike (A ++ [a]) (M ++ [m])

theorem MaintAlike.last {A : List Area} {a : Area} {M : List MaintArea} (h : MaintAlike (A ++ [a]) M) :
    (¬ HasMessages a ∧ MaintAlike A M) ∨ (HasMessages a ∧ ∃ M' m, M = M' ++ [m] ∧ MaintAlike A M' ∧ SameMaint a m) := by
  generalize e : A ++ [a] = B at h
  cases h with
  | nil => simp at e
  | skip t h =>
    obtain ⟨rfl, e2⟩ := List.append_inj' e rfl
    cases e2
    exact .inl ⟨h, t⟩
  | keep t h s =>
    obtain ⟨rfl, e2⟩ := List.append_inj' e rfl
    cases e2
    exact .inr ⟨h, _, _, rfl, t, s⟩

theorem maintBase_eq (s : Str) : maintBase s = baseOf s := by
  unfold maintBase baseOf
  by_cases h1 : eqi s b!"JAM" = true
  · rw [if_pos h1, if_neg (by rw [eqi_same h1]; decide), if_pos h1]
  · rw [if_neg h1]
    by_cases h2 : eqi s b!"MSG" = true
    · rw [if_pos h2, if_pos h2]
    · rw [if_neg h2, if_neg h2, if_neg h1]

theorem rdBase_maint {s : Str} {r : Option Nat × Str} (h : rdBase s = .ok r) :
    (r.1 = none → (jbstrcpy 20 s).2.2 = false) ∧
    (r.1 ≠ none → (jbstrcpy 20 s).2.2 = true ∧ maintBase (jbstrcpy 20 s).1 = r.1 ∧ (jbstrcpy 80 (jbstrcpy 20 s).2.1).1 = r.2) := by
  unfold rdBase at h
  dsimp only at h
  rcases iteq.1 h with ⟨c, h⟩ | ⟨c, h⟩
  · cases hb : baseOf (jbstrcpy 200 s).1 with
    | none => rw [hb] at h; cases h
    | some b =>
      rw [hb] at h
      obtain ⟨p, hp, h⟩ := ebind_ok.1 h
      rw [epure_ok] at h
      subst h
      have hlen : (jbstrcpy 200 s).1.length = 3 := by
        unfold baseOf at hb
        rcases iteq.1 hb with ⟨e, -⟩ | ⟨-, hb⟩
        · have := congrArg List.length ((eqi_iff _ _).1 e); simpa using this
        rcases iteq.1 hb with ⟨e, -⟩ | ⟨-, hb⟩
        · have := congrArg List.length ((eqi_iff _ _).1 e); simpa using this
        · cases hb
      rw [jbstrcpy_limit 200 20 s (by omega) (by omega)]
      refine ⟨(by simp), fun _ => ⟨c, by rw [maintBase_eq]; exact hb, ?_⟩⟩
      rw [rdArg_eq hp]
  · cases h
    have hnil : (jbstrcpy 200 s).1 = [] := by
      unfold jbstrcpy at c ⊢
      dsimp only at c ⊢
      simp only [ne_eq, Bool.or_eq_true, decide_eq_true_eq, not_or, Decidable.not_not] at c
      exact c.1
    rw [jbstrcpy_limit 200 20 s (by rw [hnil]; decide) (by rw [hnil]; decide)]
    exact ⟨fun _ => Bool.eq_false_iff.2 c, fun e => absurd rfl e⟩

theorem rdArea_maint {akas : List Aka} {w rest : Str} {a : Area} (h : rdArea akas w rest = .ok a) :
    (¬ HasMessages a → mrArea rest = none) ∧ (HasMessages a → ∃ m, mrArea rest = some m ∧ SameMaint a m) := by
  unfold rdArea at h
  obtain ⟨tag, h1, h⟩ := ebind_ok.1 h
  obtain ⟨adr, h2, h⟩ := ebind_ok.1 h
  obtain ⟨n, h3, h⟩ := ebind_ok.1 h
  cases hf : akas.findIdx? fun k => compare4D n k.node == 0 with
  | none => rw [hf] at h; cases h
  | some i =>
    rw [hf] at h
    obtain ⟨b, h4, h⟩ := ebind_ok.1 h
    obtain ⟨ty, h5, h⟩ := ebind_ok.1 h
    rw [epure_ok] at h
    subst h
    have e1 := rdArg_eq h1
    have e2 : (jbstrcpy 80 tag.2).2.1 = adr.2 := by rw [jbstrcpy_rest 200 80, rdArg_eq h2]
    obtain ⟨b1, b2⟩ := rdBase_maint h4
    unfold mrArea HasMessages
    dsimp only
    rw [e1]
    dsimp only
    rw [e2]
    constructor
    · intro hn
      by_cases ht : TemplateName tag.1
      · rw [if_neg (fun e => (template_iff _).1 e ht)]
      · rw [if_pos ((template_iff _).2 ht), if_neg]
        have : b.1 = none := Classical.byContradiction fun e => hn ⟨e, ht⟩
        rw [b1 this]; decide
    · rintro ⟨hb, ht⟩
      obtain ⟨c1, c2, c3⟩ := b2 hb
      rw [if_pos ((template_iff _).2 ht), if_pos c1]
      exact ⟨_, rfl, rfl, c3, c2, rfl, rfl⟩

/-! ## Limits -/

/-- What a line of an area does to the limits. -/
theorem rdAreaCmd_limits {N : List ConfigNode} {w rest : Str} {a b : Area} (h : rdAreaCmd N w rest a = .ok b)
    (hany : areaCmdWords.any (eqi w) = true) :
    (eqi w b!"KEEPNUM" = false ∧ eqi w b!"KEEPDAYS" = false ∧ b.keepNum = a.keepNum ∧ b.keepDays = a.keepDays) ∨
    (eqi w b!"KEEPNUM" = true ∧ ∃ t, rdArg 30 rest = .ok t ∧ b = { a with keepNum := UInt32.ofInt (atol t.1) }) ∨
    (eqi w b!"KEEPDAYS" = true ∧ ∃ t, rdArg 30 rest = .ok t ∧ b = { a with keepDays := UInt32.ofInt (atol t.1) }) := by
  have f : ∀ {k : Str}, eqi w k = true → ∀ y : Str, eqi k y = false → eqi w y = false := fun hk y hy => by rw [eqi_same hk, hy]
  unfold rdAreaCmd at h
  rcases iteq.1 h with ⟨c, h⟩ | ⟨c1, h⟩
  · cases h; exact .inl ⟨f c _ (by decide), f c _ (by decide), rfl, rfl⟩
  rcases iteq.1 h with ⟨c, h⟩ | ⟨c2, h⟩
  · cases h; exact .inl ⟨f c _ (by decide), f c _ (by decide), rfl, rfl⟩
  rcases iteq.1 h with ⟨c, h⟩ | ⟨c3, h⟩
  · cases h; exact .inl ⟨f c _ (by decide), f c _ (by decide), rfl, rfl⟩
  rcases iteq.1 h with ⟨c, h⟩ | ⟨c4, h⟩
  · cases h; exact .inl ⟨f c _ (by decide), f c _ (by decide), rfl, rfl⟩
  rcases iteq.1 h with ⟨c, h⟩ | ⟨c5, h⟩
  · cases h; exact .inl ⟨f c _ (by decide), f c _ (by decide), rfl, rfl⟩
  rcases iteq.1 h with ⟨c, h⟩ | ⟨c6, h⟩
  · rcases iteq.1 h with ⟨-, h⟩ | ⟨-, h⟩
    · cases h
    · obtain ⟨t, -, h⟩ := ebind_ok.1 h
      rw [epure_ok] at h; subst h
      exact .inl ⟨f c _ (by decide), f c _ (by decide), rfl, rfl⟩
  rcases iteq.1 h with ⟨c, h⟩ | ⟨c7, h⟩
  · rcases iteq.1 h with ⟨-, h⟩ | ⟨-, h⟩
    · cases h
    · obtain ⟨t, -, h⟩ := ebind_ok.1 h
      rw [epure_ok] at h; subst h
      exact .inl ⟨f c _ (by decide), f c _ (by decide), rfl, rfl⟩
  rcases iteq.1 h with ⟨c, h⟩ | ⟨c8, h⟩
  · obtain ⟨t, -, h⟩ := ebind_ok.1 h
    rw [epure_ok] at h; subst h
    exact .inl ⟨f c _ (by decide), f c _ (by decide), rfl, rfl⟩
  rcases iteq.1 h with ⟨c, h⟩ | ⟨c9, h⟩
  · obtain ⟨t, -, h⟩ := ebind_ok.1 h
    rw [epure_ok] at h; subst h
    exact .inl ⟨f c _ (by decide), f c _ (by decide), rfl, rfl⟩
  rcases iteq.1 h with ⟨c, h⟩ | ⟨c10, h⟩
  · obtain ⟨t, -, h⟩ := ebind_ok.1 h
    obtain ⟨g, -, h⟩ := ebind_ok.1 h
    rw [epure_ok] at h; subst h
    exact .inl ⟨f c _ (by decide), f c _ (by decide), rfl, rfl⟩
  rcases iteq.1 h with ⟨c, h⟩ | ⟨c11, h⟩
  · obtain ⟨t, ht, h⟩ := ebind_ok.1 h
    rw [epure_ok] at h
    exact .inr (.inl ⟨c, t, ht, h.symm⟩)
  obtain ⟨t, ht, h⟩ := ebind_ok.1 h
  rw [epure_ok] at h
  refine .inr (.inr ⟨?_, t, ht, h.symm⟩)
  simp only [areaCmdWords, List.any_cons, List.any_nil, Bool.or_false, Bool.or_eq_true] at hany
  rcases hany with h | h | h | h | h | h | h | h | h | h | h | h
  · exact absurd h c1
  · exact absurd h c2
  · exact absurd h c3
  · exact absurd h c4
  · exact absurd h c5
  · exact absurd h c6
  · exact absurd h c7
  · exact absurd h c8
  · exact absurd h c9
  · exact absurd h c10
  · exact absurd h c11
  · exact h

/-- A limit is not taken away again. -/
def LimitStays (a b : Area) : Prop :=
  b.tag = a.tag ∧ b.base = a.base ∧ (a.keepNum ≠ 0 → b.keepNum ≠ 0) ∧ (a.keepDays ≠ 0 → b.keepDays ≠ 0)

theorem LimitStays.refl (a : Area) : LimitStays a a := ⟨rfl, rfl, id, id⟩

theorem proper_value {l : Str} (hp : ProperLimit l) (hl : LimitLine l) {t : Str × Str} (ht : rdArg 30 (jbstrcpy 30 l).2.1 = .ok t) :
    t.1.length < 29 ∧ UInt32.ofInt (atol t.1) ≠ 0 := by
  have := hp hl
  rw [rdArg_eq ht] at this
  exact this

theorem rdAreaCmd_stays {N : List ConfigNode} {l : Str} {a b : Area} (h : rdAreaCmd N (keyword l) (jbstrcpy 30 l).2.1 a = .ok b)
    (hany : areaCmdWords.any (eqi (keyword l)) = true) (hp : ProperLimit l) : LimitStays a b := by
  have hl := rdAreaCmd_later h
  refine ⟨hl.tag, hl.base, ?_⟩
  rcases rdAreaCmd_limits h hany with ⟨-, -, e1, e2⟩ | ⟨c, t, ht, e⟩ | ⟨c, t, ht, e⟩
  · rw [e1, e2]; exact ⟨id, id⟩
  · subst e; exact ⟨fun _ => (proper_value hp (.inl c) ht).2, id⟩
  · subst e; exact ⟨id, fun _ => (proper_value hp (.inr c) ht).2⟩

def AllStay (A B : List Area) : Prop := ∀ (i : Nat) (a : Area), A[i]? = some a → ∃ b, B[i]? = some b ∧ LimitStays a b

theorem rdLine_stays {s t : RdSt} {l : Str} (h0 : rdLine s l = .ok t) (hp : ProperLimit l) : AllStay s.cfg.areas t.cfg.areas := by
  rcases rdLine_cases h0 with ⟨a, -, h, rfl⟩ | ⟨A, a, b, -, hany, hA, h, rfl⟩ | ⟨n, -, -, -, h, rfl⟩ | ⟨N, m, n, -, -, -, -, hN, h, rfl⟩ |
    ⟨-, -, -, -, h⟩
  · intro i x hx
    refine ⟨x, ?_, .refl x⟩
    simp only [withArea]
    rw [List.getElem?_append_left (by have := List.getElem?_eq_some_iff.1 hx; exact this.1)]
    exact hx
  · intro i x hx
    rw [hA] at hx
    simp only [withArea]
    by_cases hi : i < A.length
    · rw [List.getElem?_append_left hi] at hx ⊢
      exact ⟨x, hx, .refl x⟩
    · rw [List.getElem?_append_right (by omega)] at hx ⊢
      cases hk : i - A.length with
      | zero =>
        rw [hk] at hx
        simp only [List.getElem?_cons_zero, Option.some.injEq] at hx
        subst hx
        exact ⟨b, rfl, rdAreaCmd_stays h hany hp⟩
      | succ k => rw [hk] at hx; simp at hx
  · exact fun i a h => ⟨a, h, .refl a⟩
  · exact fun i a h => ⟨a, h, .refl a⟩
  · obtain ⟨e1, -, -, -⟩ := rdRest_apart s _ _ t h
    rw [e1]; exact fun i a h => ⟨a, h, .refl a⟩

theorem LimitStays.inPlace {A B : List Area} (h : AllStay A B) (hB : LimitsInPlace B) : LimitsInPlace A := by
  intro a ha hn
  obtain ⟨i, hi⟩ := List.mem_iff_getElem?.1 ha
  obtain ⟨b, hb, e1, e2, e3, e4⟩ := h i a hi
  have := hB b (List.mem_of_getElem? hb) (by unfold HasMessages at hn ⊢; rw [e1, e2]; exact hn)
  exact ⟨Classical.byContradiction fun e => e3 e this.1, Classical.byContradiction fun e => e4 e this.2⟩

theorem rdLines_inPlace {t : RdSt} (ht : LimitsInPlace t.cfg.areas) : ∀ {ls : List Str} {s : RdSt}, rdLines s ls = .ok t → (∀ l ∈ ls, ProperLimit l) →
    LimitsInPlace s.cfg.areas := by
  intro ls
  induction ls with
  | nil => intro s h _; cases h; exact ht
  | cons l ls ih =>
    intro s h hp
    obtain ⟨u, h1, h2⟩ := rdLines_cons h
    exact LimitStays.inPlace (rdLine_stays h1 (hp l (List.mem_cons_self ..))) (ih h2 fun l hl => hp l (List.mem_cons_of_mem _ hl))

/-! ## Lines -/

theorem mrKeep_other {w rest : Str} {m : MaintArea} (h1 : eqi w b!"KEEPNUM" = false) (h2 : eqi w b!"KEEPDAYS" = false) : mrKeep w rest m = m := by
  unfold mrKeep
  dsimp only
  rw [if_neg (by rw [h2]; simp), if_neg (by rw [h1]; simp)]

theorem mrLine_eq (M : List MaintArea) (l : Str) (h1 : eqi (keyword l) b!"KEEPNUM" = false) (h2 : eqi (keyword l) b!"KEEPDAYS" = false) :
    mrLine M l = if isAreaWord (keyword l) then M ++ (mrArea (jbstrcpy 30 l).2.1).toList else M := by
  unfold mrLine
  dsimp only
  rw [jbstrcpy_rest 30 20 l, isAreaWord_short]
  have : mrLast (jbstrcpy 20 l).1 (jbstrcpy 30 l).2.1 M = M := by
    unfold mrLast
    cases hl : M.getLast? with
    | none => rfl
    | some a =>
      dsimp only
      rw [mrKeep_other (by rw [keyword_short _ _ (by decide)]; exact h1) (by rw [keyword_short _ _ (by decide)]; exact h2)]
      obtain ⟨ys, rfl⟩ := List.getLast?_eq_some_iff.1 hl
      simp
  rw [this]
  split
  · cases mrArea (jbstrcpy 30 l).2.1 <;> simp
  · rfl

theorem mrLine_keep (M : List MaintArea) (m : MaintArea) (l : Str) (h : isAreaWord (keyword l) = false) :
    mrLine (M ++ [m]) l = M ++ [mrKeep (jbstrcpy 20 l).1 (jbstrcpy 30 l).2.1 m] := by
  unfold mrLine
  dsimp only
  rw [jbstrcpy_rest 30 20 l, isAreaWord_short, h]
  simp [mrLast]

theorem mrLine_alike {s t : RdSt} {M : List MaintArea} {l : Str} (h0 : rdLine s l = .ok t) (hs : MaintAlike s.cfg.areas M) (hp : ProperLimit l)
    (ht : LimitsInPlace t.cfg.areas) : MaintAlike t.cfg.areas (mrLine M l) := by
  have no : ∀ {k : Str}, eqi (keyword l) k = true → ∀ y : Str, eqi k y = false → eqi (keyword l) y = false := fun hk y hy => by rw [eqi_same hk, hy]
  have skip : isAreaWord (keyword l) = false → areaCmdWords.any (eqi (keyword l)) = false → mrLine M l = M := by
    intro h1 h2
    rw [List.any_eq_false] at h2
    rw [mrLine_eq _ _ (Bool.eq_false_iff.2 (h2 _ (by decide))) (Bool.eq_false_iff.2 (h2 _ (by decide))), h1]; rfl
  rcases rdLine_cases h0 with ⟨a, hwd, h, rfl⟩ | ⟨A, a, b, hwd, hc, hA, h, rfl⟩ | ⟨n, hwd, hc, -, h, rfl⟩ | ⟨N, m, n, hwd, hc, -, -, hN, h, rfl⟩ |
    ⟨hwd, hc, -, -, h⟩
  · have hk : eqi (keyword l) b!"KEEPNUM" = false ∧ eqi (keyword l) b!"KEEPDAYS" = false := by
      unfold isAreaWord at hwd
      simp only [Bool.or_eq_true] at hwd
      rcases hwd with (e | e) | e
      · exact ⟨no e _ (by decide), no e _ (by decide)⟩
      · exact ⟨no e _ (by decide), no e _ (by decide)⟩
      · exact ⟨no e _ (by decide), no e _ (by decide)⟩
    rw [mrLine_eq _ _ hk.1 hk.2, if_pos hwd]
    obtain ⟨q1, q2⟩ := rdArea_maint h
    simp only [withArea]
    by_cases hm : HasMessages a
    · obtain ⟨m, e, hs'⟩ := q2 hm
      rw [e]
      exact .keep hs hm hs'
    · rw [q1 hm]
      simpa using MaintAlike.skip hs hm
  · rw [hA] at hs
    have hl := rdAreaCmd_later h
    have hmsg : HasMessages b ↔ HasMessages a := by unfold HasMessages; rw [hl.tag, hl.base]
    have hbm : b ∈ (withArea s A b).cfg.areas := by simp [withArea]
    simp only [withArea]
    rcases hs.last with ⟨hn, ha⟩ | ⟨hm, M', m, rfl, ha, hsa⟩
    · have hb := ht b hbm (fun e => hn (hmsg.1 e))
      rcases rdAreaCmd_limits h hc with ⟨n1, n2, -, -⟩ | ⟨c, v, hv, e⟩ | ⟨c, v, hv, e⟩
      · rw [mrLine_eq _ _ n1 n2, hwd]
        exact .skip ha (fun e => hn (hmsg.1 e))
      · exact absurd (by rw [e] at hb; exact hb.1) (proper_value hp (.inl c) hv).2
      · exact absurd (by rw [e] at hb; exact hb.2) (proper_value hp (.inr c) hv).2
    · rw [mrLine_keep _ _ _ hwd]
      refine .keep ha (hmsg.2 hm) ?_
      obtain ⟨s1, s2, s3, s4, s5⟩ := hsa
      have k1 := keyword_short l b!"KEEPNUM" (by decide)
      have k2 := keyword_short l b!"KEEPDAYS" (by decide)
      rcases rdAreaCmd_limits h hc with ⟨n1, n2, e1, e2⟩ | ⟨c, v, hv, e⟩ | ⟨c, v, hv, e⟩
      · rw [mrKeep_other (by rw [k1, n1]) (by rw [k2, n2])]
        exact ⟨by rw [s1, hl.tag], by rw [s2, hl.path], by rw [s3, hl.base], by rw [s4, e1], by rw [s5, e2]⟩
      · have hw := rdArg_word (m' := 80) hv (by have := (proper_value hp (.inl c) hv).1; omega) (by omega)
        unfold mrKeep
        dsimp only
        rw [hw, if_neg (by rw [k2, no c _ (by decide)]; simp), if_pos ⟨by rw [k1, c], rfl⟩]
        subst e
        exact ⟨s1, s2, s3, rfl, s5⟩
      · have hw := rdArg_word (m' := 80) hv (by have := (proper_value hp (.inr c) hv).1; omega) (by omega)
        unfold mrKeep
        dsimp only
        rw [hw, if_pos ⟨by rw [k2, c], rfl⟩]
        subst e
        exact ⟨s1, s2, s3, s4, rfl⟩
  · rw [skip hwd hc]; exact hs
  · rw [skip hwd hc]; exact hs
  · obtain ⟨e1, -, -, -⟩ := rdRest_apart s _ _ t h
    rw [skip hwd hc, e1]; exact hs

theorem mrLines_alike {t : RdSt} (ht : LimitsInPlace t.cfg.areas) : ∀ {ls : List Str} {s : RdSt} {M : List MaintArea}, rdLines s ls = .ok t →
    MaintAlike s.cfg.areas M → (∀ l ∈ ls, ProperLimit l) → MaintAlike t.cfg.areas (ls.foldl mrLine M) := by
  intro ls
  induction ls with
  | nil => intro s M h hs _; cases h; exact hs
  | cons l ls ih =>
    intro s M h hs hp
    obtain ⟨u, h1, h2⟩ := rdLines_cons h
    have hp' := fun l hl => hp l (List.mem_cons_of_mem _ hl)
    rw [List.foldl_cons]
    exact ih h2 (mrLine_alike h1 hs (hp l (List.mem_cons_self ..)) (rdLines_inPlace ht h2 hp')) hp'

/-! ## Jobs -/

/-- The job for an area of CrashMaint. -/
def jobFor (args : MaintArgs) (a : MaintArea) : Option MaintJob :=
  if maintMatch args a.tag then
    (maintBase a.base).map fun b =>
      { base := b, tag := a.tag, path := a.path, opt := { maint := args.maint, pack := args.pack, keepNum := a.keepNum, keepDays := a.keepDays } }
  else none

theorem maintMatch_iff (args : MaintArgs) (a : Area) : maintMatch args a.tag = true ↔ AskedFor args.pattern a := by
  unfold maintMatch AskedFor
  cases args.pattern with
  | none => simp
  | some p => simp

theorem Jobs.snocJob {args : MaintArgs} {A : List Area} {J : List MaintJob} (t : Jobs args A J) {a : Area} {j : MaintJob} (h : HasMessages a)
    (h' : AskedFor args.pattern a) (e : JobOf args a j) : Jobs args (A ++ [a]) (J ++ [j]) := by
  induction t with
  | nil => exact .job h h' e .nil
  | job k k' f _ ih => exact .job k k' f ih
  | skip k _ ih => exact .skip k ih

theorem Jobs.snocSkip {args : MaintArgs} {A : List Area} {J : List MaintJob} (t : Jobs args A J) {a : Area}
    (h : ¬ (HasMessages a ∧ AskedFor args.pattern a)) : Jobs args (A ++ [a]) J := by
  induction t with
  | nil => exact .skip h .nil
  | job k k' f _ ih => exact .job k k' f ih
  | skip k _ ih => exact .skip k ih

theorem MaintAlike.jobs {args : MaintArgs} {A : List Area} {M : List MaintArea} (h : MaintAlike A M) : Jobs args A (M.filterMap (jobFor args)) := by
  induction h with
  | nil => exact .nil
  | skip _ h ih => exact ih.snocSkip fun e => h e.1
  | @keep A M a m _ h e ih =>
    rw [List.filterMap_append]
    by_cases hm : maintMatch args m.tag = true
    · have ha : AskedFor args.pattern a := (maintMatch_iff args a).1 (by rw [← e.tag]; exact hm)
      cases hb : a.base with
      | none => exact absurd hb h.1
      | some b =>
        have hj : jobFor args m = some { base := b, tag := m.tag, path := m.path, opt := { maint := args.maint, pack := args.pack, keepNum := m.keepNum, keepDays := m.keepDays } } := by
          unfold jobFor
          rw [if_pos hm, e.base, hb]; rfl
        rw [List.filterMap_cons, hj]
        refine ih.snocJob h ha ⟨hb, e.tag, e.path, ?_⟩
        rw [e.keepNum, e.keepDays]
    · have ha : ¬ AskedFor args.pattern a := fun k => hm (by rw [e.tag]; exact (maintMatch_iff args a).2 k)
      have hj : jobFor args m = none := by unfold jobFor; rw [if_neg hm]
      rw [List.filterMap_cons, hj]
      simpa using ih.snocSkip fun k => ha k.2

theorem Jobs.unique {args : MaintArgs} {A : List Area} {J K : List MaintJob} (h : Jobs args A J) (k : Jobs args A K) : J = K := by
  induction h generalizing K with
  | nil => cases k; rfl
  | @job a as j js h1 h2 e _ ih =>
    cases k with
    | @job _ _ q _ k1 k2 f t =>
      rw [ih t]
      congr 1
      obtain ⟨e1, e2, e3, e4⟩ := e
      obtain ⟨f1, f2, f3, f4⟩ := f
      have e1 := Option.some.inj (e1.symm.trans f1)
      cases j; cases q
      dsimp only at e1 e2 e3 e4 f2 f3 f4
      rw [e1, e2, e3, e4, f2, f3, f4]
    | skip k t => exact absurd ⟨h1, h2⟩ k
  | skip h _ ih =>
    cases k with
    | job k1 k2 f t => exact absurd ⟨k1, k2⟩ h
    | skip k t => exact ih t

/-! ## The run -/

theorem maintLoop_through {w : World} {I : FS → Prop} {P : Nat → FS → Prop} {proc : MaintJob → Prog Bool} {args : MaintArgs} {J : List MaintJob}
    (hI : ∀ i fs, P i fs → I fs)
    (hJ : ∀ (i : Nat) (j : MaintJob), J[i]? = some j → ∀ fs, P i fs → Through w I (fun r fs' => r = true → P (i + 1) fs') (proc j) fs) :
    ∀ (M : List MaintArea) (done : Nat) (fs : FS), J.drop done = M.filterMap (jobFor args) → done ≤ J.length → P done fs →
      Through w I (fun r fs' => r = .done → P J.length fs') (maintLoop proc args M) fs := by
  intro M
  induction M with
  | nil =>
    intro done fs h hd hp
    have : done = J.length := by
      have := congrArg List.length h
      simp only [List.length_drop, List.filterMap_nil, List.length_nil] at this
      omega
    subst this
    exact .ret (hI _ _ hp) fun _ => hp
  | cons a M ih =>
    intro done fs h hd hp
    unfold maintLoop
    simp only [Prog.bind_eq, Prog.bind, Prog.pure_eq, pollCtrlC]
    refine .sleep (hI _ _ hp) fun b => ?_
    cases b with
    | true => exact .ret (hI _ _ hp) fun e => by cases e
    | false =>
      simp only [Bool.false_eq_true, if_false]
      rw [List.filterMap_cons] at h
      by_cases hm : maintMatch args a.tag = true
      · rw [if_pos hm]
        cases hb : maintBase a.base with
        | none =>
          have hj : jobFor args a = none := by unfold jobFor; rw [if_pos hm, hb]; rfl
          rw [hj] at h
          exact ih done fs h hd hp
        | some b =>
          have hj : jobFor args a = some { base := b, tag := a.tag, path := a.path, opt := { maint := args.maint, pack := args.pack, keepNum := a.keepNum, keepDays := a.keepDays } } := by
            unfold jobFor; rw [if_pos hm, hb]; rfl
          rw [hj] at h
          dsimp only at h ⊢
          have hlt : done < J.length := by
            have := congrArg List.length h
            simp only [List.length_drop, List.length_cons] at this
            omega
          have hg := List.drop_eq_getElem_cons hlt
          rw [hg] at h
          obtain ⟨h1, h2⟩ := List.cons.inj h
          refine (hJ done _ (by rw [List.getElem?_eq_getElem hlt, h1]) fs hp).bind fun r fs' hi hr => ?_
          cases r with
          | true => exact ih (done + 1) fs' h2 hlt (hr rfl)
          | false => exact .ret hi fun e => by cases e
      · rw [if_neg hm]
        have hj : jobFor args a = none := by unfold jobFor; rw [if_neg hm]
        rw [hj] at h
        exact ih done fs h hd hp

end CM
