import Verif.Base
/-! # Lemmas about bytes, decimal rendering and `atoi` -/

namespace CM

deriving instance DecidableEq for Except

/-- Deciding a property of all 256 byte values. -/
instance (priority := low) u8ForallDecidable (P : UInt8 → Prop) [DecidablePred P] : Decidable (∀ x, P x) :=
  decidable_of_iff (∀ n : Nat, n < 256 → P (UInt8.ofNat n)) ⟨fun h x => by
    have := h x.toNat x.toNat_lt
    simpa using this, fun h n _ => h _⟩


/-- Induction on lists from the right. -/
theorem snocInd {α} {P : List α → Prop} (nil : P [])
    (snoc : ∀ l a, P l → P (l ++ [a])) (l : List α) : P l := by
  have : ∀ r : List α, P r.reverse := by
    intro r
    induction r with
    | nil => simpa using nil
    | cons a r ih => simpa using snoc _ a ih
  simpa using this l.reverse

theorem mem_takeWhile {α} {p : α → Bool} {l : List α} {a : α} (h : a ∈ l.takeWhile p) : p a = true := by
  induction l with
  | nil => simp at h
  | cons b l ih =>
    simp only [List.takeWhile] at h
    split at h
    · rcases List.mem_cons.1 h with rfl | h
      · assumption
      · exact ih h
    · simp at h

theorem digit_toNat {n : Nat} (h : n < 10) : (digit n).toNat = 48 + n := by
  simp [digit]; omega

theorem u8_le (a b : UInt8) : a ≤ b ↔ a.toNat ≤ b.toNat := Iff.rfl
theorem u8_lt (a b : UInt8) : a < b ↔ a.toNat < b.toNat := Iff.rfl
theorem u8_eq (a b : UInt8) : a = b ↔ a.toNat = b.toNat := UInt8.toNat_inj.symm

theorem isDigit_iff (c : UInt8) : isDigit c = true ↔ 48 ≤ c.toNat ∧ c.toNat ≤ 57 := by
  simp [isDigit, u8_le]

theorem isDigit_digit {n : Nat} (h : n < 10) : isDigit (digit n) = true := by
  rw [isDigit_iff, digit_toNat h]; omega

theorem decAux_acc (f n : Nat) (acc : Str) : decAux f n acc = decAux f n [] ++ acc := by
  induction f generalizing n acc with
  | zero => simp [decAux]
  | succ f ih =>
    simp only [decAux]
    split
    · simp
    · rw [ih, ih (acc := [_])]; simp

theorem decAux_fuel {f g n : Nat} (hf : n < f) (hg : n < g) (acc : Str) :
    decAux f n acc = decAux g n acc := by
  induction f generalizing g n acc with
  | zero => omega
  | succ f ih =>
    cases g with
    | zero => omega
    | succ g =>
      simp only [decAux]
      split
      · rfl
      · exact ih (by omega) (by omega) _

theorem dec_lt {n : Nat} (h : n < 10) : dec n = [digit n] := by
  simp [dec, decAux, Nat.div_eq_of_lt h, Nat.mod_eq_of_lt h]

theorem dec_ge {n : Nat} (h : 10 ≤ n) : dec n = dec (n / 10) ++ [digit (n % 10)] := by
  have h0 : n / 10 ≠ 0 := by omega
  conv => lhs; simp only [dec, decAux]
  rw [if_neg h0, decAux_acc]
  congr 1
  exact decAux_fuel (by omega) (by omega) _

theorem dec_ind {P : Nat → Prop} (h1 : ∀ n, n < 10 → P n)
    (h2 : ∀ n, 10 ≤ n → P (n / 10) → P n) (n : Nat) : P n := by
  induction n using Nat.strongRecOn with
  | ind n ih =>
    by_cases h : n < 10
    · exact h1 n h
    · exact h2 n (by omega) (ih _ (by omega))

theorem dec_ne_nil (n : Nat) : dec n ≠ [] := by
  by_cases h : n < 10
  · simp [dec_lt h]
  · simp [dec_ge (Nat.le_of_not_lt h)]

theorem dec_digits (n : Nat) : ∀ c ∈ dec n, isDigit c = true := by
  induction n using dec_ind with
  | h1 n h => intro c hc; rw [dec_lt h] at hc; simp at hc; subst hc; exact isDigit_digit h
  | h2 n h ih =>
    intro c hc
    rw [dec_ge h] at hc
    rcases List.mem_append.1 hc with hc | hc
    · exact ih c hc
    · simp at hc; subst hc; exact isDigit_digit (by omega)

theorem decVal_append_one (s : Str) (c : UInt8) :
    decVal (s ++ [c]) = decVal s * 10 + (c.toNat - 48) := by simp [decVal]

theorem decVal_dec (n : Nat) : decVal (dec n) = n := by
  induction n using dec_ind with
  | h1 n h => rw [dec_lt h]; simp [decVal, digit_toNat h]
  | h2 n h ih =>
    rw [dec_ge h, decVal_append_one, ih, digit_toNat (by omega)]; omega

theorem dec_inj {a b : Nat} (h : dec a = dec b) : a = b := by
  rw [← decVal_dec a, ← decVal_dec b, h]

theorem dec_length_le {n k : Nat} (hk : 0 < k) (h : n < 10 ^ k) : (dec n).length ≤ k := by
  induction k generalizing n with
  | zero => omega
  | succ k ih =>
    by_cases h10 : n < 10
    · simp [dec_lt h10]
    · rw [dec_ge (by omega)]
      have hk' : 0 < k := by
        rcases Nat.eq_zero_or_pos k with rfl | hk'
        · simp at h; omega
        · exact hk'
      have := @ih (n / 10) hk' (by rw [Nat.pow_succ] at h; omega)
      simp; omega

theorem takeWhile_append_of_all {α} (p : α → Bool) (l r : List α) (h : ∀ x ∈ l, p x = true) :
    (l ++ r).takeWhile p = l ++ r.takeWhile p := by
  induction l with
  | nil => simp
  | cons a l ih =>
    simp [h a (by simp)]
    exact ih (fun x hx => h x (by simp [hx]))

theorem dropWhile_append_of_all {α} (p : α → Bool) (l r : List α) (h : ∀ x ∈ l, p x = true) :
    (l ++ r).dropWhile p = r.dropWhile p := by
  induction l with
  | nil => simp
  | cons a l ih =>
    simp [h a (by simp)]
    exact ih (fun x hx => h x (by simp [hx]))

theorem takeWhile_dec (n : Nat) (r : Str) (hr : ∀ c, r.head? = some c → isDigit c = false) :
    (dec n ++ r).takeWhile isDigit = dec n := by
  rw [takeWhile_append_of_all _ _ _ (dec_digits n)]
  cases r with
  | nil => simp
  | cons c r => simp [hr c rfl]

theorem dropWhile_dec (n : Nat) (r : Str) (hr : ∀ c, r.head? = some c → isDigit c = false) :
    (dec n ++ r).dropWhile isDigit = r := by
  rw [dropWhile_append_of_all _ _ _ (dec_digits n)]
  cases r with
  | nil => simp
  | cons c r => simp [hr c rfl]

theorem digit_not_space {c : UInt8} (h : isDigit c = true) : isSpace c = false := by
  rw [isDigit_iff] at h
  simp [isSpace, u8_le, u8_eq]
  omega

theorem atoi_dec (n : Nat) (r : Str) (hr : ∀ c, r.head? = some c → isDigit c = false) :
    atoi (dec n ++ r) = (n : Int) := by
  obtain ⟨c, t, hct⟩ := List.exists_cons_of_ne_nil (dec_ne_nil n)
  have hd : isDigit c = true := dec_digits n c (by simp [hct])
  have hdw : (dec n ++ r).dropWhile isSpace = dec n ++ r := by
    rw [hct]; simp [digit_not_space hd]
  unfold atoi
  simp only [hdw]
  have h1 : c ≠ 45 := by rintro rfl; simp [isDigit] at hd
  have h2 : c ≠ 43 := by rintro rfl; simp [isDigit] at hd
  have htw := takeWhile_dec n r hr
  rw [hct] at htw ⊢
  simp only [List.cons_append]
  split
  · rename_i h; simp at h; exact absurd h.1 h1
  · rename_i h; simp at h; exact absurd h.1 h2
  · rw [← List.cons_append, htw, ← hct, decVal_dec]

theorem dec_no_nul (n : Nat) : NoNul (dec n) := by
  intro h
  have := dec_digits n 0 h
  simp [isDigit] at this

end CM
