import Verif.Spec.FilterVar
import Verif.Props.Search
import Verif.Props.Pattern
import Verif.Props.Expr
import Verif.Lemmas.Says
/-! # Lemmas on filter statements -/

set_option linter.unusedSimpArgs false

namespace CM

/-! ## Searching -/

theorem has_iff (pat text : Str) : Has pat text ↔ ∃ i, OccursAt pat text i := by
  constructor
  · rintro ⟨u, d, v, rfl, hd⟩
    have hl : d.length = pat.length := by simpa using congrArg List.length hd
    refine ⟨u.length, by simp; omega, ?_⟩
    rw [List.append_assoc, List.drop_left, ← hl, List.take_left]
    exact hd
  · rintro ⟨i, _, h⟩
    refine ⟨text.take i, (text.drop i).take pat.length, (text.drop i).drop pat.length, ?_, h⟩
    rw [List.append_assoc, List.take_append_drop, List.take_append_drop]

theorem bmStep_le (pat : Str) (c : UInt8) (hl : pat.length < 65536) : bmStep pat c ≤ pat.length := by
  have gen : ∀ (l : Str) (i cur len : Nat), cur ≤ len → bmLast len c i l cur ≤ len := by
    intro l
    induction l with
    | nil => intro i cur len h; exact h
    | cons a l ih =>
      intro i cur len h
      rw [bmLast]
      apply ih
      split
      · exact Nat.le_trans (Nat.mod_le _ _) (by omega)
      · exact h
  unfold bmStep
  dsimp only
  split
  · exact Nat.mod_le _ _
  · exact gen _ _ _ _ (Nat.zero_le _)

theorem bmCompare_self_none {pat text : Str} {i : Nat} (h : i + pat.length ≤ text.length) :
    bmCompare pat text i pat.length = none ↔ OccursAt pat text i := by
  rw [bmCompare_none, occursAt_iff pat text i h]

/-- With a pattern whose last character occurs only there, the search skips no occurrence. -/
theorem bmStep_skips_none {pat text : Str} {i j d : Nat} {c : UInt8} (hf : Findable pat) (hl : pat.length < 65536)
    (hi : i + pat.length ≤ text.length) (hj : bmCompare pat text i pat.length = some j) (hc : text[i + j]? = some c)
    (hd : d < bmStep pat (lower c)) : ¬ OccursAt pat text (i + d) := by
  obtain ⟨p, x, hp, hx, _⟩ := hf
  obtain ⟨hj1, hj2, hj3⟩ := bmCompare_some _ _ _ _ _ hj
  have hpl : pat.length = p.length + 1 := by simp [hp]
  intro ho
  have hm := (occursAt_iff pat text (i + d) ho.1).1 ho
  have hstep := bmStep_le pat (lower c) hl
  by_cases hd0 : d = 0
  · subst hd0
    exact hj2 (hm j hj1)
  have hlast : pat[p.length]? = some x := by simp [hp]
  -- the character of the text under the end of the pattern
  have hk : pat.length - 1 - d < p.length := by omega
  have h1 := hm (pat.length - 1 - d) (by omega)
  rw [show i + d + (pat.length - 1 - d) = i + p.length by omega] at h1
  have hpk : pat[pat.length - 1 - d]? = some p[pat.length - 1 - d] := by
    conv => lhs; arg 1; rw [hp]
    rw [List.getElem?_append_left hk, List.getElem?_eq_getElem hk]
  by_cases hjl : j = p.length
  · -- mismatch at the end: the shift is right
    subst hjl
    rw [hc, hpk] at h1
    simp only [Option.map_some, Option.some.injEq] at h1
    have hkl : pat.length - 1 - d < pat.length := by omega
    have hpk' : pat[pat.length - 1 - d] = p[pat.length - 1 - d] := by
      have := List.getElem?_eq_getElem hkl
      rw [hpk] at this; exact (Option.some.inj this).symm
    have e1 := bmLast_le (lower c) pat 0 0 (by omega) _ hkl (by rw [hpk', h1])
    have e2 := bmLast_pos (lower c) pat 0 0 (by omega)
      (by
        intro y hy
        rw [hp] at hy; simp at hy; subst hy
        intro he
        apply hj2
        rw [hc, hlast]
        simp [he])
      (.inr ⟨_, List.getElem_mem hkl, by rw [hpk', h1]⟩)
    simp only [Nat.zero_add] at e1 e2
    unfold bmStep at hd
    dsimp only at hd
    rw [if_neg (by omega)] at hd
    omega
  · have h2 := hj3 p.length (by omega) (by omega)
    rw [h2, hlast, hpk] at h1
    simp only [Option.map_some, Option.some.injEq] at h1
    exact hx _ (List.getElem_mem hk) h1.symm

/-- With such a pattern the search finds the first occurrence, and there is none if it finds none. -/
theorem bmfind_first {pat text : Str} (start : Nat) (hf : Findable pat) (hl : pat.length < 65536) (ht : Ascii text) :
    (∃ p, bmfind pat text start = .at p ∧ start ≤ p ∧ OccursAt pat text p ∧ ∀ q, start ≤ q → q < p → ¬ OccursAt pat text q) ∨
    bmfind pat text start = .no ∧ ∀ q, start ≤ q → ¬ OccursAt pat text q := by
  have hp : ∀ c ∈ pat, c < 128 := hf.choose_spec.choose_spec.2.2
  have h0 : pat ≠ [] := by
    obtain ⟨p, x, rfl, _⟩ := hf
    simp
  have gen : ∀ (f s : Nat), 0 < f → text.length + 1 < f + s →
      (∃ p, bmfindLoop (bmStep pat) pat text f s = .at p ∧ s ≤ p ∧ OccursAt pat text p ∧ ∀ q, s ≤ q → q < p → ¬ OccursAt pat text q) ∨
      bmfindLoop (bmStep pat) pat text f s = .no ∧ ∀ q, s ≤ q → ¬ OccursAt pat text q := by
    intro f
    induction f with
    | zero => intro s h; omega
    | succ f ih =>
      intro s _ h
      rw [bmfindLoop]
      by_cases hs : s + pat.length ≤ text.length
      · rw [if_pos hs]
        cases hc : bmCompare pat text s pat.length with
        | none => exact .inl ⟨s, rfl, Nat.le_refl _, (bmCompare_self_none hs).1 hc, fun q h1 h2 => by omega⟩
        | some j =>
          have hj := (bmCompare_some _ _ _ _ _ hc).1
          have hlt : s + j < text.length := by omega
          have hg : text[s + j]? = some text[s + j] := List.getElem?_eq_getElem hlt
          dsimp only
          rw [hg]
          dsimp only
          have h128 : ¬ (128 ≤ text[s + j]) := by
            have := ht _ (List.getElem_mem hlt)
            simpa using this
          rw [if_neg h128]
          have hpos := bmStep_pos pat (lower text[s + j]) h0 hl
          have skip : ∀ q, s ≤ q → q < s + bmStep pat (lower text[s + j]) → ¬ OccursAt pat text q := by
            intro q h1 h2
            have := bmStep_skips_none (d := q - s) hf hl hs hc hg (by omega)
            rwa [show s + (q - s) = q by omega] at this
          by_cases hf0 : f = 0
          · subst hf0
            omega
          rcases ih (s + bmStep pat (lower text[s + j])) (by omega) (by omega) with ⟨p, e, h1, h2, h3⟩ | ⟨e, h1⟩
          · refine .inl ⟨p, e, by omega, h2, fun q a b => ?_⟩
            by_cases hq : q < s + bmStep pat (lower text[s + j])
            · exact skip q a hq
            · exact h3 q (by omega) b
          · refine .inr ⟨e, fun q a => ?_⟩
            by_cases hq : q < s + bmStep pat (lower text[s + j])
            · exact skip q a hq
            · exact h1 q (by omega)
      · rw [if_neg hs]
        exact .inr ⟨rfl, fun q a ho => by have := ho.1; omega⟩
  have hb : bminit pat = .ok (bmStep pat) := by
    unfold bminit
    rw [if_neg]
    simp only [List.any_eq_true, decide_eq_true_eq, not_exists, not_and]
    intro c hc; simpa using hp c hc
  unfold bmfind
  rw [hb]
  exact gen _ _ (by omega) (by omega)

/-- C35. A search for such a pattern is right. -/
theorem foundBool_iff {pat text : Str} (hf : Findable pat) (hl : pat.length < 65536) (ht : Ascii text) :
    ∃ b, foundBool (bmfind pat text 0) = .ok b ∧ (b = true ↔ Has pat text) := by
  rcases bmfind_first 0 hf hl ht with ⟨p, e, _, h, _⟩ | ⟨e, h⟩
  · exact ⟨true, by rw [e]; rfl, by simp [has_iff]; exact ⟨p, h⟩⟩
  · exact ⟨false, by rw [e]; rfl, by simp [has_iff]; exact fun q => h q (Nat.zero_le _)⟩

theorem findable_ne {pat : Str} (hf : Findable pat) : 0 < pat.length := by
  obtain ⟨p, x, rfl, _⟩ := hf
  simp

theorem searchChunk_iff (k : Bool) {pat text : Str} (hf : Findable pat) (hl : pat.length < 65536) (ht : Ascii text) :
    ∀ (f start : Nat), text.length < f + start →
    ∃ b, searchChunk k pat text f start = .ok b ∧
      (b = true ↔ ∃ p, start ≤ p ∧ OccursAt pat text p ∧ (scanBack text p == some 1) = k) := by
  have h0 := findable_ne hf
  intro f
  induction f with
  | zero =>
    intro start h
    refine ⟨false, rfl, ?_⟩
    simp only [Bool.false_eq_true, false_iff, not_exists]
    rintro p ⟨h1, h2, _⟩
    have := h2.1
    omega
  | succ f ih =>
    intro start h
    rw [searchChunk]
    rcases bmfind_first start hf hl ht with ⟨p, e, h1, h2, h3⟩ | ⟨e, h1⟩
    · rw [e]
      dsimp only
      have := h2.1
      rw [if_neg (by omega)]
      by_cases hk : (scanBack text p == some 1) = k
      · rw [if_pos (by rw [hk]; simp)]
        exact ⟨true, rfl, by simp only [true_iff]; exact ⟨p, h1, h2, hk⟩⟩
      · rw [if_neg (by simpa using hk)]
        obtain ⟨b, e1, e2⟩ := ih (p + 1) (by omega)
        refine ⟨b, e1, e2.trans ⟨?_, ?_⟩⟩
        · rintro ⟨q, a, b, c⟩
          exact ⟨q, by omega, b, c⟩
        · rintro ⟨q, a, b, c⟩
          refine ⟨q, ?_, b, c⟩
          by_cases hq : q < p
          · exact absurd b (h3 q a hq)
          · by_cases hq' : q = p
            · subst hq'; exact absurd c hk
            · omega
    · rw [e]
      refine ⟨false, rfl, ?_⟩
      simp only [Bool.false_eq_true, false_iff, not_exists]
      rintro p ⟨a, b, _⟩
      exact h1 p a b

/-! ## Lines -/

theorem scanBack_line {text a l b : Str} (ht : text = a ++ l ++ b) (hl : 13 ∉ l) (ha : a = [] ∨ a.getLast? = some 13)
    (hk : KludgesApart text) : ∀ i, i < l.length → (scanBack text (a.length + i) = some 1 ↔ l.head? = some 1) := by
  have at_ : ∀ i, i < l.length → text[a.length + i]? = l[i]? := by
    intro i hi
    rw [ht, List.append_assoc, List.getElem?_append_right (by omega), List.getElem?_append_left (by omega)]
    congr 1; omega
  intro i
  induction i with
  | zero =>
    intro hi
    have e0 := at_ 0 hi
    rw [Nat.add_zero] at e0 ⊢
    obtain ⟨c, r, rfl⟩ : ∃ c r, l = c :: r := by
      cases l with
      | nil => simp at hi
      | cons c r => exact ⟨c, r, rfl⟩
    simp only [List.getElem?_cons_zero, List.head?_cons, Option.some.injEq] at e0 ⊢
    rcases ha with rfl | ha
    · simp only [List.length_nil] at e0 ⊢
      rw [scanBack, e0]; simp
    · obtain ⟨q, rfl⟩ : ∃ q, a = q ++ [13] := by
        cases h : a.reverse with
        | nil => rw [List.reverse_eq_nil_iff.1 h] at ha; simp at ha
        | cons y ys =>
          have e : a = ys.reverse ++ [y] := by rw [← List.reverse_reverse a, h]; simp
          rw [e] at ha; simp at ha
          exact ⟨ys.reverse, by rw [e, ha]⟩
      simp only [List.length_append, List.length_cons, List.length_nil, Nat.zero_add] at e0 ⊢
      rw [scanBack, e0]
      by_cases hc : c = 1
      · simp [hc]
      · have h13 : c ≠ 13 := by
          intro h; apply hl; simp [h]
        rw [if_neg (by simp [hc, h13])]
        simp only [hc, iff_false]
        have e2 : text[q.length]? = some 13 := by
          rw [ht]; simp
        cases hq : q.length with
        | zero => rw [scanBack]; rw [hq] at e2; rw [e2]; simp
        | succ n => rw [scanBack]; rw [hq] at e2; rw [e2]; simp
  | succ i ih =>
    intro hi
    have h1 := at_ (i + 1) hi
    have h2 := at_ i (by omega)
    have e1 : l[i + 1]? = some l[i + 1] := List.getElem?_eq_getElem hi
    have e2 : l[i]? = some l[i] := List.getElem?_eq_getElem (by omega)
    have n13 : ∀ j, (hj : j < l.length) → l[j] ≠ 13 := fun j hj h => hl (h ▸ List.getElem_mem hj)
    have n1 : l[i + 1] ≠ 1 := by
      intro h
      have := hk (a.length + i) (by rw [← Nat.add_assoc] at h1; rw [h1, e1, h])
      rw [h2, e2] at this
      exact n13 i (by omega) (Option.some.inj this)
    rw [← Nat.add_assoc] at h1
    rw [← Nat.add_assoc, scanBack, h1, e1, if_neg (by simp [n1, n13 (i + 1) hi])]
    exact ih (by omega)

theorem split_last (x : UInt8) : ∀ u : Str, ∃ a r, u = a ++ r ∧ x ∉ r ∧ (a = [] ∨ a.getLast? = some x) := by
  intro u
  induction u with
  | nil => exact ⟨[], [], rfl, by simp, .inl rfl⟩
  | cons c u ih =>
    obtain ⟨a, r, rfl, h1, h2⟩ := ih
    rcases h2 with rfl | h2
    · by_cases hc : c = x
      · exact ⟨[c], r, rfl, h1, .inr (by simp [hc])⟩
      · exact ⟨[], c :: r, rfl, by simp [h1, Ne.symm hc], .inl rfl⟩
    · refine ⟨c :: a, r, rfl, h1, .inr ?_⟩
      cases a with
      | nil => simp at h2
      | cons y ys => simpa [List.getLast?_cons_cons] using h2

theorem split_first (x : UInt8) : ∀ u : Str, ∃ r b, u = r ++ b ∧ x ∉ r ∧ (b = [] ∨ b.head? = some x) := by
  intro u
  induction u with
  | nil => exact ⟨[], [], rfl, by simp, .inl rfl⟩
  | cons c u ih =>
    obtain ⟨r, b, rfl, h1, h2⟩ := ih
    by_cases hc : c = x
    · exact ⟨[], c :: (r ++ b), rfl, by simp, .inr (by simp [hc])⟩
    · exact ⟨c :: r, b, rfl, by simp [h1, Ne.symm hc], h2⟩

theorem lower_cr {a b : UInt8} (h : lower a = lower b) (hb : b ≠ 13) : a ≠ 13 := by
  rintro rfl
  have : ∀ b : UInt8, lower 13 = lower b → b = 13 := by decide +kernel
  exact hb (this b h)

theorem lineHas_iff (k : Bool) {pat text : Str} (hf : Findable pat) (h13 : 13 ∉ pat) (hk : KludgesApart text) :
    (∃ p, 0 ≤ p ∧ OccursAt pat text p ∧ (scanBack text p == some 1) = k) ↔ LineHas k pat text := by
  have h0 := findable_ne hf
  constructor
  · rintro ⟨p, _, ⟨hle, ho⟩, hs⟩
    obtain ⟨a, r, h1, h2, h3⟩ := split_last 13 (text.take p)
    obtain ⟨r', b, g1, g2, g3⟩ := split_first 13 ((text.drop p).drop pat.length)
    have hd13 : 13 ∉ (text.drop p).take pat.length := by
      intro hm
      obtain ⟨i, hi, he⟩ := List.getElem_of_mem hm
      have hi' : i < pat.length := by
        have := congrArg List.length ho; simp at this hi; omega
      have := congrArg (fun z => z[i]?) ho
      simp only [List.getElem?_map, List.getElem?_eq_getElem hi, List.getElem?_eq_getElem hi', Option.map_some, Option.some.injEq] at this
      exact lower_cr this (fun h => h13 (h ▸ List.getElem_mem hi')) he
    have ht : text = a ++ (r ++ (text.drop p).take pat.length ++ r') ++ b := by
      calc text = text.take p ++ ((text.drop p).take pat.length ++ (text.drop p).drop pat.length) := by
            rw [List.take_append_drop, List.take_append_drop]
        _ = _ := by rw [g1]; conv => { lhs; lhs; rw [h1] }; simp [List.append_assoc]
    have hl13 : 13 ∉ r ++ (text.drop p).take pat.length ++ r' := by
      simp only [List.mem_append, not_or]
      exact ⟨⟨h2, hd13⟩, g2⟩
    have hp : a.length + r.length = p := by
      have := congrArg List.length h1
      simp at this; omega
    have hdl : ((text.drop p).take pat.length).length = pat.length := by simp; omega
    refine ⟨_, ⟨a, b, ht, hl13, h3, g3⟩, ?_, ⟨r, _, r', rfl, ho⟩⟩
    rw [← scanBack_line ht hl13 h3 hk r.length (by simp only [List.length_append, hdl]; omega), hp, ← hs]
    simp
  · rintro ⟨l, ⟨a, b, ht, hl13, ha, hb⟩, hh, ⟨u, d, v, rfl, hd⟩⟩
    have hdl : d.length = pat.length := by simpa using congrArg List.length hd
    refine ⟨a.length + u.length, Nat.zero_le _, ⟨by simp [ht]; omega, ?_⟩, ?_⟩
    · rw [ht, show a ++ (u ++ d ++ v) ++ b = (a ++ u) ++ (d ++ (v ++ b)) by simp, ← List.length_append, List.drop_left, ← hdl, List.take_left]
      exact hd
    · have := scanBack_line ht hl13 ha hk u.length (by simp; omega)
      rw [Bool.eq_iff_iff, beq_iff_eq, this, hh]

theorem compareText_iff (k : Bool) {pat : Str} {chunks : List Str} (hf : Findable pat) (hl : pat.length < 65536) (h13 : 13 ∉ pat)
    (ht : ∀ c ∈ chunks, Ascii c ∧ KludgesApart c) :
    ∃ b, compareText k b!"|" pat chunks = .ok (some b) ∧ (b = true ↔ ∃ c ∈ chunks, LineHas k pat c) := by
  unfold compareText
  rw [if_neg (by simp)]
  induction chunks with
  | nil => exact ⟨false, rfl, by simp⟩
  | cons c cs ih =>
    obtain ⟨hc, hcs⟩ := List.forall_mem_cons.1 ht
    obtain ⟨b, e1, e2⟩ := searchChunk_iff k hf hl hc.1 (c.length + 2) 0 (by omega)
    rw [lineHas_iff k hf h13 hc.2] at e2
    rw [compareText.go, e1]
    cases b with
    | true =>
      refine ⟨true, rfl, ?_⟩
      simp only [true_iff] at e2 ⊢
      exact ⟨c, by simp, e2⟩
    | false =>
      obtain ⟨b, e3, e4⟩ := ih hcs
      refine ⟨b, e3, e4.trans ?_⟩
      simp only [List.mem_cons, exists_eq_or_imp]
      simp at e2
      simp [e2]

/-! ## The parts of a statement -/

theorem isAlpha_lower {a b : UInt8} (h : lower a = lower b) : isAlpha a = isAlpha b := by
  have : ∀ a : UInt8, isAlpha (lower a) = isAlpha a := by decide +kernel
  rw [← this a, ← this b, h]

theorem score_lower {a b : UInt8} (h : lower a = lower b) : (a == 95) = (b == 95) := by
  have : ∀ a : UInt8, (lower a == 95) = (a == 95) := by decide +kernel
  rw [← this a, ← this b, h]

/-- Letters and underscores only. -/
def NameChars (w : Str) : Prop := w.length ≤ 99 ∧ w.all (fun c => isAlpha c || c == 95) = true

theorem nameChars_ci {w n : Str} (h : Ci w n) (hn : NameChars n) : NameChars w := by
  obtain ⟨h1, h2⟩ := hn
  have hl : w.length = n.length := by simpa using congrArg List.length h
  refine ⟨by omega, ?_⟩
  clear h1 hl
  induction w generalizing n with
  | nil => rfl
  | cons a w ih =>
    cases n with
    | nil => cases h
    | cons b n =>
      simp only [Ci, List.map_cons, List.cons.injEq] at h
      simp only [List.all_cons, Bool.and_eq_true] at h2 ⊢
      rw [isAlpha_lower h.1, score_lower h.1]
      exact ⟨h2.1, ih h.2 h2.2⟩

theorem splitStmt_bare {w : Str} (h : NameChars w) : splitStmt w = (w, [], []) := by
  have e : w.takeWhile (fun c => isAlpha c || c == 95) = w := by
    have := List.takeWhile_append_of_pos (p := fun c => isAlpha c || c == 95) (l₁ := w) (l₂ := []) (by simpa [List.all_eq_true] using h.2)
    simpa using this
  unfold splitStmt
  rw [e, List.take_of_length_le h.1]
  simp [mystrncpy]

theorem splitStmt_op {w t pat : Str} {o : UInt8} (h : NameChars w) (ho : (isAlpha o || o == 95) = false) (ht : WrittenPat t pat) :
    splitStmt (w ++ [o] ++ t) = (w, [o], pat) := by
  have e : (w ++ [o] ++ t).takeWhile (fun c => isAlpha c || c == 95) = w := by
    rw [List.append_assoc, List.takeWhile_append_of_pos (by simpa [List.all_eq_true] using h.2)]
    simp only [List.singleton_append, List.takeWhile_cons, ho, Bool.false_eq_true, if_false, List.append_nil]
  unfold splitStmt
  dsimp only
  rw [e, List.take_of_length_le h.1, List.append_assoc, List.drop_left]
  simp only [List.singleton_append, List.take_succ_cons, List.take_zero, List.drop_succ_cons, List.drop_zero]
  cases ht with
  | plain =>
    rename_i h1 h2 h3
    rw [if_neg h1]
    unfold mystrncpy
    rw [List.take_of_length_le (by omega), if_neg h2]
  | quoted =>
    rename_i h1
    have e2 : (if (b!"\"" ++ pat ++ b!"\"").head? = some 34 then (b!"\"" ++ pat ++ b!"\"").tail else b!"\"" ++ pat ++ b!"\"") = pat ++ b!"\"" := by simp
    rw [e2]
    unfold mystrncpy
    rw [List.take_of_length_le (by simp; omega), if_pos (by simp), List.dropLast_concat]

theorem writtenPat_short {t pat : Str} (h : WrittenPat t pat) : pat.length < 65536 := by
  cases h <;> rename_i h1 <;> omega

/-! ## Expressions -/

section
open FExp

theorem atoms_strip1 (e : FExp) : ∀ a ∈ (strip1 e).atoms, a ∈ e.atoms := by
  intro a h
  unfold strip1 at h
  split at h
  all_goals first
    | exact h
    | simpa [FExp.atoms] using h

/-- What `expr_eval` computes if its statements can be evaluated. -/
theorem exprEval_atoms (ev' : Str → Except UB (Option Bool)) (ev : Str → Option Bool) (n : Nat) : ∀ (e : FExp) (f : Nat), e.text.length ≤ n →
    n < f → e.WF → e.NotSimple → (∀ a ∈ e.atoms, ev' a = .ok (ev a)) → exprEval ev' f e.text = .ok (some (e.rightVal ev)) := by
  induction n with
  | zero =>
    intro e f h _ hw _ _
    exact absurd (List.length_eq_zero_iff.1 (by omega)) (text_ne_nil e hw)
  | succ n ih =>
    intro e f hl hf hw hn ha
    obtain ⟨f, rfl⟩ : ∃ f', f = f' + 1 := ⟨f - 1, by omega⟩
    cases e with
    | atom neg s =>
      have hg := exprGet_operand (.atom neg s) hw rfl [] (.inl rfl)
      rw [List.append_nil] at hg
      have hst : stripped (.atom neg s) = (FExp.atom neg s).text := rfl
      rw [hst] at hg
      simp only [exprEval, hg, exprGet_nil, if_true]
      cases neg with
      | false =>
        have h2 : eqin (FExp.atom false s).text b!"NOT " 4 = false := by
          have := statement_not_not (s := s) (rest := []) hw (.inl rfl)
          simpa [text, notText] using this
        rw [h2]
        have := ha s (by simp [FExp.atoms])
        simp [text, notText, rightVal, sign, this, Except.map]
      | true =>
        have h2 : eqin (FExp.atom true s).text b!"NOT " 4 = true := by
          simp [text, notText, eqin, lower]
        rw [h2, if_pos rfl]
        have h3 : (FExp.atom true s).text.drop 4 = (FExp.atom false s).text := by simp [text, notText]
        have hlen : (FExp.atom false s).text.length ≤ n := by
          simp [text, notText] at hl ⊢; omega
        rw [h3, ih (.atom false s) f hlen (by omega) hw trivial (by simpa [FExp.atoms] using ha)]
        simp [exprNot_eq, rightVal, sign, Except.map]
    | group neg e =>
      have hg := exprGet_operand (.group neg e) hw rfl [] (.inl rfl)
      rw [List.append_nil] at hg
      obtain ⟨h1, h2, h3, h4, h5⟩ := strip1_spec ev (.group neg e) hw hn rfl
      have h5 : (strip1 (.group neg e)).text.length < (FExp.group neg e).text.length := by
        rcases h5 with ⟨_, _, _, h⟩ | h
        · cases h
        · exact h
      rw [← h1] at hg
      have hne : (strip1 (.group neg e)).text ≠ (FExp.group neg e).text := by
        intro h; rw [h] at h5; omega
      simp only [exprEval, hg, exprGet_nil, if_true, if_neg hne]
      rw [ih _ f (by omega) (by omega) h2 h3 (fun a h => ha a (atoms_strip1 _ a h)), h4]
    | chain isAnd l r =>
      obtain ⟨hwl, hwr, hop⟩ := hw
      obtain ⟨hnl, hnr⟩ := hn
      obtain ⟨h1, h2, h3, h4, h5⟩ := strip1_spec ev l hwl hnl hop
      have hlen : l.text.length + r.text.length < (FExp.chain isAnd l r).text.length := by
        cases isAnd <;> simp [text] <;> omega
      have hrl : 0 < r.text.length := List.length_pos_iff.2 (text_ne_nil r hwr)
      have h5 : (strip1 l).text.length ≤ l.text.length := by
        rcases h5 with ⟨h, _⟩ | h
        · rw [h]; omega
        · omega
      have hl1 := ih (strip1 l) f (by omega) (by omega) h2 h3 (fun a h => ha a (List.mem_append_left _ (atoms_strip1 _ a h)))
      have hr1 := ih r f (by omega) (by omega) hwr hnr (fun a h => ha a (List.mem_append_right _ h))
      have ht : (FExp.chain isAnd l r).text =
          l.text ++ ((if isAnd then b!" AND " else b!" OR ") ++ r.text) := rfl
      have hg := exprGet_operand l hwl hop ((if isAnd then b!" AND " else b!" OR ") ++ r.text)
        (.inr (by cases isAnd <;> rfl))
      rw [← ht, ← h1] at hg
      have hrn := text_ne_nil r hwr
      cases isAnd with
      | true =>
        have hg2 := exprGet_and r.text
        have : ((if true = true then b!" AND " else b!" OR ") ++ r.text) = 32 :: 65 :: 78 :: 68 :: 32 :: r.text := rfl
        rw [this] at hg
        simp only [exprEval, hg, hg2, exprRest_text r hwr]
        rw [if_neg (by simp), if_pos (by decide), if_neg hrn, hl1, hr1]
        simp only [rightVal, ← h4, exprPair_and]
      | false =>
        have hg2 := exprGet_or r.text
        have : ((if false = true then b!" AND " else b!" OR ") ++ r.text) = 32 :: 79 :: 82 :: 32 :: r.text := rfl
        rw [this] at hg
        simp only [exprEval, hg, hg2, exprRest_text r hwr]
        rw [if_neg (by simp), if_neg (by decide), if_pos (by decide), if_neg hrn, hl1, hr1]
        simp only [rightVal, ← h4, exprPair_or]

theorem evalExpr_atoms (ev' : Str → Except UB (Option Bool)) (ev : Str → Option Bool) (e : FExp) (ha : ∀ a ∈ e.atoms, ev' a = .ok (ev a))
    (hw : e.WF) (hn : e.NotSimple) : evalExpr ev' e.text = .ok (e.rightVal ev) := by
  unfold evalExpr
  rw [exprEval_atoms ev' ev e.text.length e _ (Nat.le_refl _) (by unfold exprFuel; omega) hw hn ha]
  rfl

end

end CM
