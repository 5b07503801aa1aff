import Verif.Model.Search
import Verif.Lemmas.Base
/-! # Text search (C35) and command line (C52) -/
set_option linter.unusedSimpArgs false

namespace CM

/-! ## C35 -/

/-- The pattern occurs at position `i` of the text, regardless of case. -/
def OccursAt (pat text : Str) (i : Nat) : Prop :=
  i + pat.length ≤ text.length ∧ ((text.drop i).take pat.length).map lower = pat.map lower

theorem bmCompare_none (pat text : Str) (i n : Nat) :
    bmCompare pat text i n = none ↔ ∀ j < n, (text[i + j]?).map lower = (pat[j]?).map lower := by
  induction n with
  | zero => simp [bmCompare]
  | succ n ih =>
    simp only [bmCompare]
    split
    · rename_i h
      simp only [reduceCtorEq, false_iff]
      intro h2; exact h (h2 n (by omega))
    · rename_i h
      rw [ih]
      constructor
      · intro h2 j hj
        rcases Nat.lt_succ_iff_lt_or_eq.1 hj with hj | rfl
        · exact h2 j hj
        · simpa using h
      · intro h2 j hj; exact h2 j (by omega)

theorem bmCompare_some (pat text : Str) (i n j : Nat) (h : bmCompare pat text i n = some j) :
    j < n ∧ (text[i + j]?).map lower ≠ (pat[j]?).map lower ∧
      ∀ k, j < k → k < n → (text[i + k]?).map lower = (pat[k]?).map lower := by
  induction n with
  | zero => simp [bmCompare] at h
  | succ n ih =>
    simp only [bmCompare] at h
    split at h
    · rename_i hne
      simp at h; subst h
      exact ⟨by omega, hne, fun k h1 h2 => by omega⟩
    · rename_i he
      obtain ⟨a, b, c⟩ := ih h
      refine ⟨by omega, b, fun k h1 h2 => ?_⟩
      rcases Nat.lt_succ_iff_lt_or_eq.1 h2 with h2 | rfl
      · exact c k h1 h2
      · simpa using he

theorem occursAt_iff (pat text : Str) (i : Nat) (h : i + pat.length ≤ text.length) :
    OccursAt pat text i ↔ ∀ j < pat.length, (text[i + j]?).map lower = (pat[j]?).map lower := by
  simp only [OccursAt, h, true_and]
  constructor
  · intro he j hj
    have := congrArg (fun l => l[j]?) he
    simpa [List.getElem?_map, List.getElem?_take, hj, List.getElem?_drop] using this
  · intro he
    apply List.ext_getElem?
    intro j
    by_cases hj : j < pat.length
    · have := he j hj
      simpa [List.getElem?_map, List.getElem?_take, hj, List.getElem?_drop] using this
    · simp [List.getElem?_map, List.getElem?_take, hj, List.getElem?_eq_none (Nat.le_of_not_lt hj)]

theorem bmStep_pos (pat : Str) (c : UInt8) (h0 : pat ≠ []) (hl : pat.length < 65536) : 0 < bmStep pat c := by
  simp only [bmStep]
  have := List.length_pos_iff.2 h0
  split
  · rw [Nat.mod_eq_of_lt hl]; omega
  · omega

/-- C35 (soundness). What is reported as found is a real occurrence at or after the start. -/
theorem bmfind_sound (pat text : Str) (start i : Nat) (h : bmfind pat text start = .at i) :
    start ≤ i ∧ OccursAt pat text i := by
  have gen : ∀ (step : UInt8 → Nat) (f s : Nat), bmfindLoop step pat text f s = .at i →
      s ≤ i ∧ OccursAt pat text i := by
    intro step f
    induction f with
    | zero => intro s h; simp [bmfindLoop] at h
    | succ f ih =>
      intro s h
      simp only [bmfindLoop] at h
      split at h
      · rename_i hle
        split at h
        · rename_i hc
          simp at h; subst h
          exact ⟨Nat.le_refl _, (occursAt_iff _ _ _ hle).2 ((bmCompare_none _ _ _ _).1 hc)⟩
        · split at h
          · simp at h
          · split at h
            · simp at h
            · obtain ⟨a, b⟩ := ih _ h
              exact ⟨by omega, b⟩
      · simp at h
  unfold bmfind at h
  split at h
  · simp at h
  · exact gen _ _ _ h

/-- C35 (termination and memory safety). The search of 7-bit text for a 7-bit pattern always ends
without reading outside the text or the table. -/
theorem bmfind_total (pat text : Str) (start : Nat) (hl : pat.length < 65536)
    (hp : ∀ c ∈ pat, c < 128) (ht : ∀ c ∈ text, c < 128) :
    bmfind pat text start = .no ∨ ∃ i, bmfind pat text start = .at i := by
  have gen : ∀ (f s : Nat), 0 < f → text.length + 1 < f + s →
      bmfindLoop (bmStep pat) pat text f s = .no ∨ ∃ i, bmfindLoop (bmStep pat) pat text f s = .at i := by
    intro f
    induction f with
    | zero =>
      intro s h; omega
    | succ f ih =>
      intro s _ h
      simp only [bmfindLoop]
      split
      · rename_i hle
        split
        · exact .inr ⟨_, rfl⟩
        · rename_i j hc
          obtain ⟨hj, _, _⟩ := bmCompare_some _ _ _ _ _ hc
          have hlt : s + j < text.length := by omega
          rw [List.getElem?_eq_getElem hlt]
          simp only
          have h128 : ¬ (128 ≤ text[s + j]) := by
            have := ht _ (List.getElem_mem hlt)
            simpa using this
          rw [if_neg h128]
          have h0 : pat ≠ [] := by intro h; simp [h] at hj
          have := bmStep_pos pat (lower text[s + j]) h0 hl
          exact ih _ (by omega) (by omega)
      · exact .inl rfl
  have hb : bminit pat = .ok (bmStep pat) := by
    unfold bminit
    rw [if_neg]
    simp only [List.any_eq_true, decide_eq_true_eq, not_exists, not_and]
    intro c hc; simpa using hp c hc
  unfold bmfind
  rw [hb]
  exact gen (text.length + 2) start (by omega) (by omega)

/-- The search ends for every text. -/
theorem bmfind_ends (pat text : Str) (start : Nat) (hl : pat.length < 65536) : bmfind pat text start ≠ .loop := by
  have gen : ∀ (f s : Nat), 0 < f → text.length + 1 < f + s → bmfindLoop (bmStep pat) pat text f s ≠ .loop := by
    intro f
    induction f with
    | zero => intro s h; omega
    | succ f ih =>
      intro s _ h
      simp only [bmfindLoop]
      split
      · rename_i hle
        split
        · simp
        · rename_i j hc
          obtain ⟨hj, _, _⟩ := bmCompare_some _ _ _ _ _ hc
          split
          · simp
          · split
            · simp
            · rename_i c _ _
              have h0 : pat ≠ [] := by intro h; simp [h] at hj
              have := bmStep_pos pat (lower c) h0 hl
              exact ih _ (by omega) (by omega)
      · simp
  unfold bmfind bminit
  split
  · simp
  · next h =>
    split at h
    · cases h
    · cases h; exact gen _ _ (by omega) (by omega)

/-- C35 (violated). The shift rule skips real occurrences: `abb` occurs in `babb` and is not found,
so a filter on that text silently does not apply. -/
theorem bmfind_misses : bmfind b!"abb" b!"babb" 0 = .no ∧ OccursAt b!"abb" b!"babb" 1 := by
  refine ⟨by decide, by unfold OccursAt; decide⟩

/-- C35 (violated). Searching for or in 8-bit text indexes the table with a negative number. -/
theorem bmfind_8bit (c : UInt8) (h : 128 ≤ c) :
    bmfind [c] b!"x" 0 = .ub .oobWrite ∧ bmfind b!"x" [c] 0 = .ub .oobRead := by
  have : ∀ c : UInt8, 128 ≤ c → lower c ≠ 120 := by decide +kernel
  constructor
  · simp [bmfind, bminit, h]
  · have e : bminit b!"x" = .ok (bmStep b!"x") := by simp [bminit]
    have h2 := this c h
    have : lower 120 = 120 := by decide
    simp [bmfind, e, bmfindLoop, bmCompare, this, h2, h]

theorem bmLast_le (c : UInt8) (ps : Str) : ∀ (i cur : Nat), i + ps.length < 65536 →
    ∀ k, (hk : k < ps.length) → lower ps[k] = c →
    bmLast (i + ps.length) c i ps cur ≤ ps.length - k - 1 := by
  induction ps with
  | nil => intro i cur _ k hk; simp at hk
  | cons p ps ih =>
    intro i cur hl k hk he
    simp only [List.length_cons] at *
    have e1 : i + (ps.length + 1) = (i + 1) + ps.length := by omega
    simp only [bmLast]
    by_cases hex : ∃ k', ∃ hk' : k' < ps.length, lower ps[k'] = c
    · cases k with
      | zero =>
        obtain ⟨k', hk', he'⟩ := hex
        rw [e1]
        have := ih (i + 1) (if lower p = c then (i + 1 + ps.length - i - 1) % 65536 else cur) (by omega) k' hk' he'
        omega
      | succ k =>
        rw [e1]
        have := ih (i + 1) (if lower p = c then (i + 1 + ps.length - i - 1) % 65536 else cur) (by omega) k (by simp at hk; omega) (by simpa using he)
        omega
    · cases k with
      | succ k => exact absurd ⟨k, by simp at hk; omega, by simpa using he⟩ hex
      | zero =>
        have hp : lower p = c := by simpa using he
        have none : ∀ (l : Str) (i cur len : Nat), (∀ k', ∀ hk' : k' < l.length, lower l[k'] ≠ c) → bmLast len c i l cur = cur := by
          intro l
          induction l with
          | nil => intros; rfl
          | cons a l ihl =>
            intro i cur len h
            have ha : lower a ≠ c := h 0 (by simp)
            simp only [bmLast, ha, if_false]
            exact ihl _ _ _ (fun k' hk' => h (k' + 1) (by simp; omega))
        rw [none ps _ _ _ (fun k' hk' he' => hex ⟨k', hk', he'⟩), if_pos hp]
        rw [Nat.mod_eq_of_lt (by omega)]; omega

theorem bmLast_pos (c : UInt8) (ps : Str) : ∀ (i cur : Nat), i + ps.length < 65536 →
    (∀ x, ps.getLast? = some x → lower x ≠ c) → (0 < cur ∨ ∃ x ∈ ps, lower x = c) →
    0 < bmLast (i + ps.length) c i ps cur := by
  induction ps with
  | nil => intro i cur _ _ h; simpa [bmLast] using h
  | cons p ps ih =>
    intro i cur hl hlast h
    simp only [List.length_cons] at *
    have e1 : i + (ps.length + 1) = (i + 1) + ps.length := by omega
    simp only [bmLast]
    cases ps with
    | nil =>
      have : lower p ≠ c := hlast p rfl
      simp [this] at h ⊢
      simpa [bmLast] using h
    | cons q qs =>
      rw [e1]
      apply ih (i + 1) _ (by simp at *; omega)
      · intro x hx; exact hlast x (by simpa [List.getLast?_cons_cons] using hx)
      · by_cases hp : lower p = c
        · left; rw [if_pos hp]; simp only [List.length_cons] at *
          rw [Nat.mod_eq_of_lt (by omega)]; omega
        · rw [if_neg hp]
          rcases h with h | ⟨x, hx, he⟩
          · exact .inl h
          · rcases List.mem_cons.1 hx with rfl | hx
            · exact absurd he hp
            · exact .inr ⟨x, hx, he⟩

/-- C35 (partial). An occurrence at `p` is found if the last pattern character does not occur in the
text before the end of that occurrence (in the part searched). The general claim is false, see
`bmfind_misses`. -/
theorem bmfind_complete_partial (pat text : Str) (start p : Nat) (x : UInt8) (hl : pat.length < 65536)
    (hp : ∀ c ∈ pat, c < 128) (ht : ∀ c ∈ text, c < 128) (hs : start ≤ p)
    (hx : pat.getLast? = some x) (hocc : OccursAt pat text p)
    (hno : ∀ k c, start + pat.length ≤ k + 1 → k + 1 < p + pat.length → text[k]? = some c → lower c ≠ lower x) :
    bmfind pat text start = .at p := by
  have h0 : pat ≠ [] := by intro h; simp [h] at hx
  have hlen := List.length_pos_iff.2 h0
  have hle := hocc.1
  have hmatch := (occursAt_iff pat text p hle).1 hocc
  have hlastidx : pat[pat.length - 1]? = some x := by rw [← hx, List.getLast?_eq_getElem?]
  have gen : ∀ (f s : Nat), text.length + 1 < f + s → start ≤ s → s ≤ p →
      bmfindLoop (bmStep pat) pat text f s = .at p := by
    intro f
    induction f with
    | zero => intro s h; omega
    | succ f ih =>
      intro s h hss hsp
      simp only [bmfindLoop]
      rw [if_pos (by omega)]
      by_cases hsp' : s = p
      · subst hsp'
        rw [(bmCompare_none pat text s pat.length).2 hmatch]
      · have hlt : s + (pat.length - 1) < text.length := by omega
        have hmis := hno (s + (pat.length - 1)) text[s + (pat.length - 1)] (by omega) (by omega)
          (List.getElem?_eq_getElem hlt)
        have hcmp : bmCompare pat text s pat.length = some (pat.length - 1) := by
          have : ∀ n, pat.length = n → bmCompare pat text s n = some (n - 1) := by
            intro n hn
            cases n with
            | zero => omega
            | succ n =>
              simp only [bmCompare]
              have e : n = pat.length - 1 := by omega
              rw [if_pos]
              · simp
              · rw [e, hlastidx, List.getElem?_eq_getElem hlt]
                simpa using hmis
          exact this _ rfl
        rw [hcmp]
        simp only
        rw [List.getElem?_eq_getElem hlt]
        simp only
        have h128 : ¬ (128 ≤ text[s + (pat.length - 1)]) := by
          have := ht _ (List.getElem_mem hlt)
          simpa using this
        rw [if_neg h128]
        generalize hc : text[s + (pat.length - 1)] = c at *
        have hpos := bmStep_pos pat (lower c) h0 hl
        have hstep : s + bmStep pat (lower c) ≤ p := by
          by_cases hin : s + (pat.length - 1) < p
          · have : bmStep pat (lower c) ≤ pat.length := by
              simp only [bmStep]
              split
              · exact Nat.mod_le _ _
              · rename_i hv
                by_cases hex : ∃ k, ∃ hk : k < pat.length, lower pat[k] = lower c
                · obtain ⟨k, hk, he⟩ := hex
                  have := bmLast_le (lower c) pat 0 0 (by omega) k hk he
                  simp only [Nat.zero_add] at this; omega
                · exfalso
                  have none : ∀ (l : Str) (i cur len : Nat), (∀ k', ∀ hk' : k' < l.length, lower l[k'] ≠ lower c) → bmLast len (lower c) i l cur = cur := by
                    intro l
                    induction l with
                    | nil => intros; rfl
                    | cons a l ihl =>
                      intro i cur len h
                      have ha : lower a ≠ lower c := h 0 (by simp)
                      simp only [bmLast, ha, if_false]
                      exact ihl _ _ _ (fun k' hk' => h (k' + 1) (by simp; omega))
                  exact hv (none pat 0 0 _ (fun k hk he => hex ⟨k, hk, he⟩))
            omega
          · have hkl : s + (pat.length - 1) - p < pat.length := by omega
            have hm := hmatch (s + (pat.length - 1) - p) hkl
            rw [show p + (s + (pat.length - 1) - p) = s + (pat.length - 1) by omega] at hm
            rw [List.getElem?_eq_getElem hlt, List.getElem?_eq_getElem hkl, hc] at hm
            simp only [Option.map_some, Option.some.injEq] at hm
            have h1 := bmLast_le (lower c) pat 0 0 (by omega) _ hkl hm.symm
            have h2 := bmLast_pos (lower c) pat 0 0 (by omega)
              (by intro y hy; rw [hx] at hy; simp at hy; subst hy; exact fun h => hmis h.symm)
              (.inr ⟨_, List.getElem_mem hkl, hm.symm⟩)
            simp only [Nat.zero_add] at h1 h2
            simp only [bmStep]
            rw [if_neg (by omega)]
            omega
        exact ih _ (by omega) (by omega) hstep
  have hb : bminit pat = .ok (bmStep pat) := by
    unfold bminit
    rw [if_neg]
    simp only [List.any_eq_true, decide_eq_true_eq, not_exists, not_and]
    intro c hc; simpa using hp c hc
  unfold bmfind
  rw [hb]
  by_cases h : text.length + 1 < text.length + 2 + start
  · exact gen _ _ h (Nat.le_refl _) hs
  · omega

example : bmfind b!"Spam" b!"buy sPAM now" 0 = .at 4 := by decide

/-! ## C52 -/

theorem setFirst_shape (p : Arg → Bool) (d : ArgData) (as bs : List Arg) (h : setFirst p d as = some bs) :
    ∃ pre a post, as = pre ++ a :: post ∧ p a = true ∧ (∀ x ∈ pre, p x = false) ∧
      bs = pre ++ { a with data := d } :: post := by
  induction as generalizing bs with
  | nil => simp [setFirst] at h
  | cons a as ih =>
    simp only [setFirst] at h
    by_cases hp : p a = true
    · rw [if_pos hp] at h; simp at h
      exact ⟨[], a, as, rfl, hp, by simp, by simp [← h]⟩
    · rw [if_neg hp] at h
      cases hs : setFirst p d as with
      | none => simp [hs] at h
      | some cs =>
        simp [hs] at h
        obtain ⟨pre, b, post, rfl, h1, h2, rfl⟩ := ih cs hs
        refine ⟨a :: pre, b, post, rfl, h1, ?_, by simp [← h]⟩
        intro x hx
        rcases List.mem_cons.1 hx with rfl | hx
        · simpa using hp
        · exact h2 x hx

theorem setFirst_find (p : Arg → Bool) (d : ArgData) (as : List Arg) (a : Arg) (h : as.find? p = some a) :
    ∃ bs, setFirst p d as = some bs := by
  induction as with
  | nil => simp at h
  | cons b as ih =>
    simp only [List.find?_cons] at h
    simp only [setFirst]
    split at h
    · rename_i hp; rw [if_pos hp]; exact ⟨_, rfl⟩
    · rename_i hp
      obtain ⟨bs, hb⟩ := ih h
      rw [if_neg (by simp [hp])]
      simp [hb]

/-- Everything but the value. -/
def Arg.decl (a : Arg) : ArgType × Option Str × Bool × Bool := (a.type, a.name, a.auto, a.mandatory)

theorem setFirst_decl (p : Arg → Bool) (d : ArgData) (as bs : List Arg) (h : setFirst p d as = some bs) :
    bs.map Arg.decl = as.map Arg.decl := by
  obtain ⟨pre, a, post, rfl, _, _, rfl⟩ := setFirst_shape p d as bs h
  simp [Arg.decl]

theorem parseLoop_inv (P : List Arg → Prop) (words : List Str)
    (hset : ∀ as bs p d, P as → (d = .flag ∨ ∃ w ∈ words, d = .str w) → setFirst p d as = some bs → P bs)
    (args res : List Arg) (ws : List Str) (hw : ∀ w ∈ ws, w ∈ words) (h0 : P args)
    (h : parseLoop args ws = some res) : P res := by
  fun_induction parseLoop args ws with
  | case1 => simp at h; subst h; exact h0
  | case2 => simp at h
  | case3 => simp at h
  | case4 args w a hf ht v ws bs hs ih =>
    exact ih (fun w hw' => hw w (by simp [hw'])) (hset _ _ _ _ h0 (.inr ⟨v, hw v (by simp), rfl⟩) hs) h
  | case5 => simp at h
  | case6 args w ws a hf ht bs hs ih =>
    exact ih (fun w hw' => hw w (by simp [hw'])) (hset _ _ _ _ h0 (.inl rfl) hs) h
  | case7 => simp at h
  | case8 args w ws hf bs hs ih =>
    exact ih (fun w hw' => hw w (by simp [hw'])) (hset _ _ _ _ h0 (.inr ⟨w, hw w (by simp), rfl⟩) hs) h

/-- C52. A successful parse leaves the declarations alone, gives every mandatory argument a value,
and every value is one it had before, a switch, or a word of the command line. -/
theorem parseArgs_sound (args res : List Arg) (argv : List Str) (h : parseArgs args argv = some res) :
    res.map Arg.decl = args.map Arg.decl ∧
    (∀ a ∈ res, a.mandatory = true → a.data ≠ .none) ∧
    (∀ a ∈ res, a.data = .flag ∨ (∃ w ∈ argv, a.data = .str w) ∨ a ∈ args) := by
  unfold parseArgs at h
  split at h
  · simp at h
  · rename_i bs hl
    split at h
    · simp at h
    · rename_i hm
      simp at h; subst h
      refine ⟨?_, ?_, ?_⟩
      · exact parseLoop_inv (fun as => as.map Arg.decl = args.map Arg.decl) argv
          (fun as bs p d h1 _ h2 => by rw [setFirst_decl p d as bs h2, h1]) args bs argv (fun _ h => h) rfl hl
      · intro a ha hman hd
        apply hm
        simp only [List.any_eq_true, Bool.and_eq_true, beq_iff_eq]
        exact ⟨a, ha, hman, hd⟩
      · refine parseLoop_inv
          (fun as => ∀ a ∈ as, a.data = .flag ∨ (∃ w ∈ argv, a.data = .str w) ∨ a ∈ args) argv
          ?_ args bs argv (fun _ h => h) (fun a ha => .inr (.inr ha)) hl
        intro as cs p d h1 hd h2 a ha
        obtain ⟨pre, b, post, rfl, _, _, rfl⟩ := setFirst_shape p d as cs h2
        simp only [List.mem_append, List.mem_cons] at ha
        rcases ha with ha | rfl | ha
        · exact h1 a (by simp [ha])
        · rcases hd with rfl | ⟨w, hw, rfl⟩
          · exact .inl rfl
          · exact .inr (.inl ⟨w, hw, rfl⟩)
        · exact h1 a (by simp [ha])

theorem parseLoop_append (args mid : List Arg) (xs ys : List Str) (h : parseLoop args xs = some mid) :
    parseLoop args (xs ++ ys) = parseLoop mid ys := by
  fun_induction parseLoop args xs with
  | case1 => simp at h; subst h; rfl
  | case2 => simp at h
  | case3 => simp at h
  | case4 args w a hf ht v ws bs hs ih => simp only [List.cons_append, parseLoop, hf, ht, hs]; exact ih h
  | case5 => simp at h
  | case6 args w ws a hf ht bs hs ih => 
    rw [List.cons_append, ← ih h]; conv => lhs; unfold parseLoop
    simp only [hf, ht, hs]
  | case7 => simp at h
  | case8 args w ws hf bs hs ih =>
    rw [List.cons_append, ← ih h]; conv => lhs; unfold parseLoop
    simp only [hf, hs]

/-- C52. A keyword followed by a value sets exactly that argument to that value, whatever came
before; a later setting overrides an earlier one. -/
theorem parseLoop_keyword (args mid : List Arg) (xs : List Str) (kw v : Str) (pre post : List Arg) (a : Arg)
    (h : parseLoop args xs = some mid) (hm : mid = pre ++ a :: post) (ha : a.isKeyword kw = true)
    (hpre : ∀ b ∈ pre, b.isKeyword kw = false) (ht : a.type = .string) :
    parseLoop args (xs ++ [kw, v]) = some (pre ++ { a with data := .str v } :: post) := by
  rw [parseLoop_append args mid xs _ h]
  have hf : mid.find? (·.isKeyword kw) = some a := by
    rw [List.find?_eq_some_iff_append]; exact ⟨ha, pre, post, hm, by simpa using hpre⟩
  obtain ⟨bs, hb⟩ := setFirst_find _ (.str v) _ _ hf
  obtain ⟨pre', a', post', e, h1, h2, rfl⟩ := setFirst_shape _ _ _ _ hb
  have : pre' = pre ∧ a' = a ∧ post' = post := by
    have hf2 : ∀ (p q : List Arg) (x y : Arg) (r s : List Arg), p ++ x :: r = q ++ y :: s →
        x.isKeyword kw = true → y.isKeyword kw = true → (∀ b ∈ p, b.isKeyword kw = false) →
        (∀ b ∈ q, b.isKeyword kw = false) → p = q ∧ x = y ∧ r = s := by
      intro p
      induction p with
      | nil =>
        intro q x y r s e hx hy hp hq
        cases q with
        | nil => simpa using e
        | cons z q => simp at e; have := hq z (by simp); rw [← e.1, hx] at this; simp at this
      | cons z p ihp =>
        intro q x y r s e hx hy hp hq
        cases q with
        | nil => simp at e; have := hp z (by simp); rw [e.1, hy] at this; simp at this
        | cons w q =>
          simp at e
          obtain ⟨a, b, c⟩ := ihp q x y r s e.2 hx hy (fun b hb => hp b (by simp [hb])) (fun b hb => hq b (by simp [hb]))
          exact ⟨by rw [e.1, a], b, c⟩
    exact hf2 pre' pre a' a post' post (by rw [← e, hm]) h1 ha h2 hpre
  obtain ⟨rfl, rfl, rfl⟩ := this
  simp [parseLoop, hf, ht, hb]

/-- C52. A keyword that needs a value, given as the last word, is an error; so is a bare word when no
free argument is left. -/
theorem parseArgs_rejects (args mid : List Arg) (xs : List Str) (w : Str) (h : parseLoop args xs = some mid)
    (hw : (∃ a, mid.find? (·.isKeyword w) = some a ∧ a.type = .string) ∨
      ((∀ a ∈ mid, a.isKeyword w = false) ∧ ∀ a ∈ mid, a.isFree = false)) :
    parseArgs args (xs ++ [w]) = none := by
  unfold parseArgs
  rw [parseLoop_append args mid xs _ h]
  rcases hw with ⟨a, ha, ht⟩ | ⟨h1, h2⟩
  · simp [parseLoop, ha, ht]
  · have hf : mid.find? (·.isKeyword w) = none := by simpa using h1
    have hs : setFirst Arg.isFree (.str w) mid = none := by
      cases hs : setFirst Arg.isFree (.str w) mid with
      | none => rfl
      | some bs =>
        obtain ⟨pre, a, post, rfl, ha, _, _⟩ := setFirst_shape _ _ _ _ hs
        have := h2 a (by simp)
        simp [ha] at this
    simp [parseLoop, hf, hs]

example : parseArgs [⟨.string, some b!"SETTINGS", true, false, .none⟩, ⟨.bool, some b!"VERSION", false, false, .none⟩]
    [b!"version", b!"my.cfg"] =
    some [⟨.string, some b!"SETTINGS", true, false, .str b!"my.cfg"⟩, ⟨.bool, some b!"VERSION", false, false, .flag⟩] := by
  decide

end CM
