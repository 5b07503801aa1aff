import Verif.Model.Pkt
import Verif.Spec.Pkt
import Verif.Lemmas.Base
import Verif.Lemmas.Bytes
import Verif.Props.Path

set_option linter.unusedSimpArgs false
namespace CM

theorem noNul_takeWhile {s : Str} (h : NoNul s) : s.takeWhile (· != 0) = s := by
  have := takeWhile_append_of_all (p := (· != (0 : UInt8))) s [] (fun x hx => by
    have : x ≠ 0 := fun e => h (e ▸ hx)
    simp [this])
  simpa using this

theorem takeWhile_nul {s : Str} (h : NoNul s) (r : List UInt8) : (s ++ 0 :: r).takeWhile (· != 0) = s := by
  rw [takeWhile_append_of_all]
  · simp
  · intro x hx
    have : x ≠ 0 := fun e => h (e ▸ hx)
    simp [this]

/-- Reading a terminated string that fits. -/
theorem readNull_ok (n : Nat) (s : Str) (r : List UInt8) (h : NoNul s) (hl : s.length ≤ n - 1) :
    readNull n (s ++ 0 :: r) = ⟨s, r, false, false⟩ := by
  have e : (s ++ 0 :: r).drop s.length = 0 :: r := by simp
  simp only [readNull, takeWhile_nul h, List.take_of_length_le hl, e]
  simp

theorem split_nul (s : List UInt8) : NoNul s ∨ ∃ t r, NoNul t ∧ s = t ++ 0 :: r := by
  induction s with
  | nil => left; simp [NoNul]
  | cons c s ih =>
    by_cases hc : c = 0
    · right; exact ⟨[], s, by simp [NoNul], by simp [hc]⟩
    · rcases ih with ih | ⟨t, r, h1, h2⟩
      · left
        simp only [NoNul, List.mem_cons, not_or] at ih ⊢
        exact ⟨fun e => hc e.symm, ih⟩
      · right
        refine ⟨c :: t, r, ?_, by simp [h2]⟩
        simp only [NoNul, List.mem_cons, not_or] at h1 ⊢
        exact ⟨fun e => hc e.symm, h1⟩

/-- A string read without `shortread` and `longread` was terminated and fits. -/
theorem readNull_inv (n : Nat) (s : List UInt8) (hs : (readNull n s).short = false)
    (hl : (readNull n s).long = false) :
    s = (readNull n s).str ++ 0 :: (readNull n s).rest ∧ NoNul (readNull n s).str ∧
      (readNull n s).str.length ≤ n - 1 := by
  rcases split_nul s with h | ⟨t, r, h, rfl⟩
  · exfalso
    simp only [readNull, noNul_takeWhile h] at hs hl
    by_cases hle : s.length ≤ n - 1
    · rw [List.take_of_length_le hle] at hs
      simp at hs
    · have hlen : (s.take (n - 1)).length = n - 1 := by simp; omega
      simp only [hlen] at hl
      cases hd : s.drop (n - 1) with
      | nil => have := congrArg List.length hd; simp at this; omega
      | cons c r =>
        rw [hd] at hl
        simp only [decide_true, Bool.and_true, bne_eq_false_iff_eq] at hl
        subst hl
        exact h (List.mem_of_mem_drop (by rw [hd]; simp))
  · by_cases hle : t.length ≤ n - 1
    · rw [readNull_ok n t r h hle]
      exact ⟨rfl, h, hle⟩
    · exfalso
      simp only [readNull, takeWhile_nul h] at hl
      have hlen : (t.take (n - 1)).length = n - 1 := by simp; omega
      have hd : (t ++ 0 :: r).drop (n - 1) = t.drop (n - 1) ++ 0 :: r := by
        rw [List.drop_append_of_le_length (by omega)]
      simp only [hlen, hd] at hl
      cases hd' : t.drop (n - 1) with
      | nil => have := congrArg List.length hd'; simp at this; omega
      | cons c q =>
        rw [hd'] at hl
        simp only [List.cons_append, decide_true, Bool.and_true, bne_eq_false_iff_eq] at hl
        subst hl
        exact h (List.mem_of_mem_drop (by rw [hd']; simp))

theorem readNull_str_le (n : Nat) (s : List UInt8) : (readNull n s).str.length ≤ n - 1 := by
  simp only [readNull]
  split <;> simp <;> omega

/-- What one `ReadCR` does on a NUL-terminated text. -/
theorem piecesFrom_step (cur t : Str) (hc : cur.length ≤ 197) :
    (piecesFrom cur t = (if cur ++ t = [] then [] else [cur ++ t]) ∧ (∀ c ∈ t, c ≠ 10 ∧ c ≠ 13) ∧
      cur.length + t.length ≤ 197) ∨
    ∃ l c r, t = l ++ c :: r ∧ (∀ c ∈ l, c ≠ 10 ∧ c ≠ 13) ∧ cur.length + l.length ≤ 197 ∧
      (c = 10 ∨ c = 13 ∨ cur.length + l.length = 197) ∧
      piecesFrom cur t = (cur ++ l ++ [c]) :: pieces r := by
  induction t generalizing cur with
  | nil => left; simp [piecesFrom, hc]
  | cons c t ih =>
    by_cases h : c = 10 ∨ c = 13 ∨ cur.length = 197
    · right
      refine ⟨[], c, t, rfl, by simp, by simpa using hc, by simpa using h, ?_⟩
      simp only [piecesFrom, if_pos h, List.append_nil, pieces]
    · have h' : cur.length ≤ 196 := by
        have : cur.length ≠ 197 := fun e => h (Or.inr (Or.inr e))
        omega
      have hc1 : c ≠ 10 ∧ c ≠ 13 := ⟨fun e => h (Or.inl e), fun e => h (Or.inr (Or.inl e))⟩
      rcases ih (cur ++ [c]) (by simp; omega) with ⟨h1, h2, h3⟩ | ⟨l, d, r, h1, h2, h3, h4, h5⟩
      · left
        refine ⟨?_, ?_, ?_⟩
        · simp only [piecesFrom, if_neg h, h1]
          simp
        · intro x hx
          simp only [List.mem_cons] at hx
          rcases hx with rfl | hx
          · exact hc1
          · exact h2 x hx
        · simp at h3 ⊢; omega
      · right
        refine ⟨c :: l, d, r, by simp [h1], ?_, by simp at h3 ⊢; omega, ?_, ?_⟩
        · intro x hx
          simp only [List.mem_cons] at hx
          rcases hx with rfl | hx
          · exact hc1
          · exact h2 x hx
        · simp only [List.length_append, List.length_cons, List.length_nil] at h4 ⊢
          rcases h4 with h4 | h4 | h4
          · exact Or.inl h4
          · exact Or.inr (Or.inl h4)
          · exact Or.inr (Or.inr (by omega))
        · simp only [piecesFrom, if_neg h, h5]
          simp

theorem takeWhile_line (l r : Str) (hl : ∀ c ∈ l, c ≠ 0 ∧ c ≠ 10 ∧ c ≠ 13) :
    (l ++ r).takeWhile (fun c => !lineStop c) = l ++ r.takeWhile (fun c => !lineStop c) := by
  rw [takeWhile_append_of_all]
  intro x hx
  obtain ⟨h1, h2, h3⟩ := hl x hx
  simp [lineStop, h1, h2, h3]

/-- `ReadCR` on a NUL-terminated text: either it returns the first piece and goes on with the rest,
or the text is a single (possibly empty) piece and the message ends. -/
theorem readCR_text (t : Str) (s : List UInt8) (h : NoNul t) :
    (readCR (t ++ 0 :: s) = ⟨t, s, true, false⟩ ∧ pieces t = if t = [] then [] else [t]) ∨
    ∃ l r, l ≠ [] ∧ t = l ++ r ∧ pieces t = l :: pieces r ∧
      readCR (t ++ 0 :: s) = ⟨l, r ++ 0 :: s, false, false⟩ := by
  have hn : ∀ c ∈ t, c ≠ 0 := fun c hc e => h (e ▸ hc)
  rcases piecesFrom_step [] t (by simp) with ⟨h1, h2, h3⟩ | ⟨l, c, r, h1, h2, h3, h4, h5⟩
  · left
    refine ⟨?_, by simpa [pieces] using h1⟩
    have htw : (t ++ 0 :: s).takeWhile (fun c => !lineStop c) = t := by
      rw [takeWhile_line t _ (fun c hc => ⟨hn c hc, h2 c hc⟩)]
      simp [lineStop]
    have hle : t.length ≤ 197 := by simpa using h3
    simp only [readCR, htw, List.take_of_length_le (show t.length ≤ 198 by omega)]
    rw [if_neg (by omega)]
    simp
  · right
    simp only [List.nil_append, List.length_nil, Nat.zero_add] at h3 h4 h5
    have hln : ∀ c ∈ l, c ≠ 0 ∧ c ≠ 10 ∧ c ≠ 13 := fun x hx => ⟨hn x (by rw [h1]; simp [hx]), h2 x hx⟩
    have hc0 : c ≠ 0 := hn c (by rw [h1]; simp)
    refine ⟨l ++ [c], r, by simp, by simp [h1], h5, ?_⟩
    by_cases hs : c = 10 ∨ c = 13
    · have htw : (t ++ 0 :: s).takeWhile (fun c => !lineStop c) = l := by
        rw [h1, List.append_assoc, takeWhile_line l _ hln]
        rcases hs with rfl | rfl <;> simp [lineStop]
      simp only [readCR, htw, List.take_of_length_le (show l.length ≤ 198 by omega)]
      rw [if_neg (by omega)]
      simp [h1, hc0]
    · have hlen : l.length = 197 := by
        rcases h4 with e | e | e
        · exact absurd (Or.inl e) hs
        · exact absurd (Or.inr e) hs
        · exact e
      have htw : ((t ++ 0 :: s).takeWhile (fun c => !lineStop c)).take 198 = l ++ [c] := by
        have : t ++ 0 :: s = (l ++ [c]) ++ (r ++ 0 :: s) := by simp [h1]
        rw [this, takeWhile_line (l ++ [c])]
        · rw [List.take_append_of_le_length (by simp [hlen]), List.take_of_length_le (by simp [hlen])]
        · intro x hx
          simp only [List.mem_append, List.mem_singleton] at hx
          rcases hx with hx | rfl
          · exact hln x hx
          · exact ⟨hc0, fun e => hs (Or.inl e), fun e => hs (Or.inr e)⟩
      have hd : (t ++ 0 :: s).drop 198 = r ++ 0 :: s := by
        have : t ++ 0 :: s = (l ++ [c]) ++ (r ++ 0 :: s) := by simp [h1]
        rw [this, List.drop_left' (by simp [hlen])]
      simp only [readCR, htw, hd]
      rw [if_pos (by simp [hlen])]

/-- `ReadCR` never ends the message when there is no NUL left; nothing appears from nowhere. -/
theorem readCR_noNul (s : List UInt8) (h : NoNul s) :
    (readCR s).ended = false ∧ NoNul (readCR s).rest := by
  simp only [readCR]
  generalize (s.takeWhile fun c => !lineStop c).take 198 = body
  split
  · exact ⟨rfl, fun hm => h (List.mem_of_mem_drop hm)⟩
  · split
    · exact ⟨rfl, by simp [NoNul]⟩
    · rename_i c r hd
      have hmem : ∀ x ∈ c :: r, x ∈ s := fun x hx => List.mem_of_mem_drop (by rw [hd]; exact hx)
      have hc : c ≠ 0 := fun e => h (e ▸ hmem c (by simp))
      rw [if_neg hc]
      exact ⟨rfl, fun hm => h (hmem 0 (by simp [hm]))⟩

theorem pieces_ne_nil {t l : Str} (h : l ∈ pieces t) : l ≠ [] := by
  have : ∀ (t cur l : Str), l ∈ piecesFrom cur t → l ≠ [] := by
    intro t
    induction t with
    | nil => intro cur l h; simp only [piecesFrom] at h; split at h <;> simp_all
    | cons c t ih =>
      intro cur l h
      simp only [piecesFrom] at h
      split at h
      · simp only [List.mem_cons] at h
        rcases h with rfl | h
        · simp
        · exact ih _ _ h
      · exact ih _ _ h
  exact this t [] l h

theorem pieces_flatten (t : Str) : (pieces t).flatten = t := by
  have : ∀ (t cur : Str), (piecesFrom cur t).flatten = cur ++ t := by
    intro t
    induction t with
    | nil => intro cur; simp only [piecesFrom]; split <;> simp_all
    | cons c t ih =>
      intro cur
      simp only [piecesFrom]
      split
      · simp [ih]
      · simp [ih]
  have := this t []
  simpa only [List.nil_append, pieces] using this

/-- A result together with the rest of the file. -/
def withRest (s : List UInt8) : Except UB (Option MemMsg) → Except UB (Option (Option (MemMsg × List UInt8)))
  | .error e => .error e
  | .ok none => .ok none
  | .ok (some m) => .ok (some (some (m, s)))

/-- The text loop feeds the pieces of the text, in order. -/
theorem readText_pieces (f : Nat) (m : MemMsg) (t : Str) (s : List UInt8) (h : NoNul t) (hf : t.length < f) :
    readText f m (t ++ 0 :: s) = withRest s (addLines m (pieces t)) := by
  induction f generalizing m t with
  | zero => omega
  | succ f ih =>
    rcases readCR_text t s h with ⟨h1, h2⟩ | ⟨l, r, hne, h1, h2, h3⟩
    · simp only [readText, h1, Bool.false_eq_true, if_false, if_true, addNonEmpty]
      rw [h2]
      by_cases ht : t = []
      · subst ht; rfl
      · rw [if_neg ht, if_neg ht]
        simp only [addLines]
        cases mmAddLine m t with
        | error e => rfl
        | ok o => cases o <;> rfl
    · simp only [readText, h3, Bool.false_eq_true, if_false, if_true, addNonEmpty, if_neg hne]
      rw [h2]
      simp only [addLines]
      cases hm : mmAddLine m l with
      | error e => rfl
      | ok o =>
        cases o with
        | none => rfl
        | some m' =>
          simp only
          have hr : NoNul r := fun hm => h (by rw [h1]; simp [hm])
          have hl : 0 < l.length := List.length_pos_iff.2 hne
          exact ih m' r hr (by have := congrArg List.length h1; simp at this; omega)

/-- Without a terminator the text loop cannot succeed. -/
theorem readText_noNul (f : Nat) (m : MemMsg) (s : List UInt8) (h : NoNul s) (x : MemMsg × List UInt8) :
    readText f m s ≠ .ok (some (some x)) := by
  induction f generalizing m s with
  | zero => simp [readText]
  | succ f ih =>
    obtain ⟨h1, h2⟩ := readCR_noNul s h
    simp only [readText]
    split
    · simp
    · rw [h1]
      cases addNonEmpty m (readCR s).line with
      | error e => simp
      | ok o =>
        cases o with
        | none => simp
        | some m' => simpa using ih m' _ h2

end CM
