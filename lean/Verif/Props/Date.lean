import Verif.Model.Date
import Verif.Lemmas.Base
/-! # C54: FidoNet dates -/

namespace CM

/-- A broken-down time that the two-digit year can represent: 1980 to 2079. -/
structure FidoDate (t : Tm) : Prop where
  sec : 0 ≤ t.sec ∧ t.sec ≤ 61
  min : 0 ≤ t.min ∧ t.min ≤ 59
  hour : 0 ≤ t.hour ∧ t.hour ≤ 23
  mday : 1 ≤ t.mday ∧ t.mday ≤ 31
  mon : 0 ≤ t.mon ∧ t.mon ≤ 11
  year : 80 ≤ t.year ∧ t.year < 180

theorem dec2_two (n : Nat) (h : n < 100) : dec2 n = [digit (n / 10), digit (n % 10)] := by
  have : ∀ n : Fin 100, dec2 n.val = [digit (n.val / 10), digit (n.val % 10)] := by decide +kernel
  exact this ⟨n, h⟩

theorem atoi_two (n : Nat) (h : n < 100) (r : Str) (hr : ∀ c ∈ r.head?, isDigit c = false) :
    atoi (digit (n / 10) :: digit (n % 10) :: r) = n := by
  have key : ∀ n : Fin 100, isSpace (digit (n.val / 10)) = false ∧ digit (n.val / 10) ≠ 45 ∧ digit (n.val / 10) ≠ 43 ∧
      isDigit (digit (n.val / 10)) = true ∧ isDigit (digit (n.val % 10)) = true ∧
      decVal [digit (n.val / 10), digit (n.val % 10)] = n.val := by decide +kernel
  obtain ⟨h1, h2, h3, h4, h5, h6⟩ := key ⟨n, h⟩
  dsimp only at h1 h2 h3 h4 h5 h6
  have ht : r.takeWhile isDigit = [] := by
    cases r with
    | nil => rfl
    | cons c r => simp [hr c (by simp)]
  unfold atoi
  rw [List.dropWhile_cons, if_neg (by simp [h1])]
  dsimp only
  split
  · next e => injection e with e _; exact absurd e h2
  · next e => injection e with e _; exact absurd e h3
  · rw [List.takeWhile_cons, if_pos h4, List.takeWhile_cons, if_pos h5, ht, h6]

theorem month_found : ∀ (m : Fin 12) (a b c : UInt8) (r : Str), (monthNames ++ [b!"???"]).getD m.val [] = [a, b, c] →
    monthOf (a :: b :: c :: r) = some m.val := by
  intro m a b c r h
  have cut : ∀ x : Str, monthOf (a :: b :: c :: x) = monthOf [a, b, c] := by
    intro x
    unfold monthOf
    congr 1
  rw [cut, ← h]
  have all : ∀ m : Fin 12, monthOf ((monthNames ++ [b!"???"]).getD m.val []) = some m.val := by decide +kernel
  exact all m

theorem month_three : ∀ m : Fin 12, ∃ a b c, (monthNames ++ [b!"???"]).getD m.val [] = [a, b, c] := by
  intro m
  match m with
  | 0 | 1 | 2 | 3 | 4 | 5 | 6 | 7 | 8 | 9 | 10 | 11 => exact ⟨_, _, _, rfl⟩

/-- **C54.** A date between 1980 and 2079 that is formatted and parsed again is the same date. -/
theorem date_roundtrip (t : Tm) (h : FidoDate t) : fidoTm (makeFidoDate t) = .ok (some t) := by
  obtain ⟨⟨s1, s2⟩, ⟨m1, m2⟩, ⟨h1, h2⟩, ⟨d1, d2⟩, ⟨o1, o2⟩, ⟨y1, y2⟩⟩ := h
  obtain ⟨a, b, c, hm⟩ := month_three ⟨t.mon.toNat, by omega⟩
  have hf := month_found ⟨t.mon.toNat, by omega⟩ a b c
  dsimp only at hm hf
  have e : makeFidoDate t = [digit (t.mday.toNat / 10), digit (t.mday.toNat % 10), 32, a, b, c, 32,
      digit (t.year.toNat % 100 / 10), digit (t.year.toNat % 100 % 10), 32, 32,
      digit (t.hour.toNat / 10), digit (t.hour.toNat % 10), 58, digit (t.min.toNat / 10), digit (t.min.toNat % 10), 58,
      digit (t.sec.toNat / 10), digit (t.sec.toNat % 10)] := by
    unfold makeFidoDate
    rw [hm, dec2_two _ (by omega), dec2_two _ (by omega), dec2_two _ (by omega), dec2_two _ (by omega),
      dec2_two _ (by omega)]
    rfl
  rw [e]
  simp only [fidoTm, dateChar, dateAt, List.length_cons, List.length_nil, List.getD_cons_succ, List.getD_cons_zero,
    List.drop_succ_cons, List.drop_zero, Nat.reduceAdd, Nat.reduceLT, Nat.reduceLeDiff, if_true, bind, Except.bind,
    pure, Except.pure, beq_self_eq_true]
  rw [hf _ hm]
  dsimp only
  rw [atoi_two _ (by omega) _ (by simp), atoi_two _ (by omega) _ (by simp [isDigit]),
    atoi_two _ (by omega) _ (by simp [isDigit]), atoi_two _ (by omega) _ (by simp [isDigit]),
    atoi_two _ (by omega) _ (by simp [isDigit])]
  have hy : y2k ((t.year.toNat % 100 : Nat) : Int) = t.year := by unfold y2k; split <;> omega
  rw [hy, Int.toNat_of_nonneg s1, Int.toNat_of_nonneg m1, Int.toNat_of_nonneg h1, Int.toNat_of_nonneg (by omega),
    Int.toNat_of_nonneg o1]

/-- Hence a time survives, if the C library's conversions are inverse to each other at that time. -/
theorem time_roundtrip (mktime : Tm → Option Int) (localtime : Int → Tm) (now t : Int)
    (hl : mktime (localtime t) = some t) (h : FidoDate (localtime t)) :
    fidoToTime mktime now (makeFidoDate (localtime t)) = .ok t := by
  simp [fidoToTime, date_roundtrip _ h, bind, Except.bind, hl]

/-- The other date format that is read: `Wed 13 Jan 86 02:34`, for any name of a day that does not have
a space in third place. -/
theorem seadog_date (w : Str) (hw : w.length = 3) (hsp : w.getD 2 0 ≠ 32) (t : Tm) (h : FidoDate t) (hs : t.sec = 0) :
    fidoTm (w ++ b!" " ++ dec2 t.mday.toNat ++ b!" " ++ monthNames.getD t.mon.toNat [] ++ b!" " ++
      dec2 (t.year.toNat % 100) ++ b!" " ++ dec2 t.hour.toNat ++ b!":" ++ dec2 t.min.toNat) = .ok (some t) := by
  obtain ⟨⟨s1, s2⟩, ⟨m1, m2⟩, ⟨h1, h2⟩, ⟨d1, d2⟩, ⟨o1, o2⟩, ⟨y1, y2⟩⟩ := h
  match w, hw with
  | [x, y, z], _ =>
    obtain ⟨a, b, c, hm⟩ := month_three ⟨t.mon.toNat, by omega⟩
    have hf := month_found ⟨t.mon.toNat, by omega⟩ a b c
    dsimp only at hm hf
    have hm' : monthNames.getD t.mon.toNat [] = [a, b, c] := by
      rw [← hm, List.getD_eq_getElem?_getD, List.getD_eq_getElem?_getD, List.getElem?_append_left]
      simp [monthNames]; omega
    rw [hm', dec2_two _ (by omega), dec2_two _ (by omega), dec2_two _ (by omega), dec2_two _ (by omega)]
    have hz : (z == 32) = false := by simpa using hsp
    simp only [fidoTm, dateChar, dateAt, List.length_cons, List.length_nil, List.getD_cons_succ, List.getD_cons_zero,
      List.cons_append, List.nil_append, hz,
      List.drop_succ_cons, List.drop_zero, Nat.reduceAdd, Nat.reduceLT, Nat.reduceLeDiff, if_true, bind, Except.bind,
      pure, Except.pure, beq_self_eq_true, Bool.false_eq_true, if_false]
    rw [hf _ hm]
    dsimp only
    rw [atoi_two _ (by omega) _ (by simp), atoi_two _ (by omega) _ (by simp [isDigit]),
      atoi_two _ (by omega) _ (by simp [isDigit]), atoi_two _ (by omega) _ (by simp [isDigit])]
    have hy : y2k ((t.year.toNat % 100 : Nat) : Int) = t.year := by unfold y2k; split <;> omega
    rw [hy, Int.toNat_of_nonneg m1, Int.toNat_of_nonneg h1, Int.toNat_of_nonneg (by omega),
      Int.toNat_of_nonneg o1, ← hs]

namespace Ex

/-- A date that satisfies the hypotheses. -/
example : FidoDate ⟨33, 22, 11, 1, 0, 91⟩ ∧ makeFidoDate ⟨33, 22, 11, 1, 0, 91⟩ = b!"01 Jan 91  11:22:33" :=
  ⟨⟨by decide, by decide, by decide, by decide, by decide, by decide⟩, by decide +kernel⟩

/-- 2080 comes back as 1980, 1979 as 2079. -/
theorem year_window : fidoTm (makeFidoDate ⟨0, 0, 0, 1, 0, 180⟩) = .ok (some ⟨0, 0, 0, 1, 0, 80⟩) ∧
    fidoTm (makeFidoDate ⟨0, 0, 0, 1, 0, 79⟩) = .ok (some ⟨0, 0, 0, 1, 0, 179⟩) := by decide +kernel

example : fidoTm b!"Wed  3 jan 86 02:34" = .ok (some ⟨0, 34, 2, 3, 0, 86⟩) := by decide +kernel

end Ex

end CM
