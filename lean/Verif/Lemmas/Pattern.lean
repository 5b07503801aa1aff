import Verif.Spec.Pattern
import Verif.Lemmas.Base
/-! # Lemmas about node patterns -/

namespace CM

theorem dec_pos_of_mem (n : Nat) : ∀ c ∈ dec n, c ≠ 0 := by
  intro c hc h; subst h; exact dec_no_nul n hc

theorem nodeCompareLoop_iff (p t : Str) (ht : (0 : UInt8) ∉ t) (hp : (0 : UInt8) ∉ p) :
    nodeCompareLoop p t = true ↔ CompMatch p t := by
  induction p generalizing t with
  | nil =>
    cases t with
    | nil => simp [nodeCompareLoop]; exact CompMatch.nil
    | cons a t => simp [nodeCompareLoop]; intro h; cases h
  | cons a p ih =>
    have hp' : (0 : UInt8) ∉ p := fun h => hp (by simp [h])
    have ha : a ≠ 0 := fun h => hp (by simp [h])
    unfold nodeCompareLoop
    by_cases h42 : a = 42
    · subst h42; simp; exact CompMatch.star p t
    · simp only [h42, if_false]
      cases t with
      | nil =>
        simp [ha]
        intro h; cases h; exact h42 rfl
      | cons b t =>
        have ht' : (0 : UInt8) ∉ t := fun h => ht (by simp [h])
        by_cases h63 : a = 63
        · subst h63
          simp [ih t ht' hp']
          constructor
          · exact CompMatch.any p b t
          · intro h; cases h with
            | any _ _ _ h => exact h
            | lit _ _ _ h1 h2 h => exact absurd rfl h2
        · simp [h63]
          by_cases hab : a = b
          · subst hab
            simp [ih t ht' hp']
            constructor
            · exact CompMatch.lit a p t h42 h63
            · intro h; cases h with
              | star => exact absurd rfl h42
              | any => exact absurd rfl h63
              | lit _ _ _ _ _ h => exact h
          · simp [hab]
            intro h; cases h with
            | star => exact absurd rfl h42
            | any => exact absurd rfl h63
            | lit => exact absurd rfl hab

theorem compMatch_iff_shell (p t : Str) (h : StarLast p) : CompMatch p t ↔ ShellMatch p t := by
  induction p generalizing t with
  | nil => constructor <;> (intro h; cases h; constructor)
  | cons a p ih =>
    have hi := fun t => ih t h.2
    constructor
    · intro hm
      cases hm with
      | star =>
        have : p = [] := h.1 rfl
        subst this
        have := ShellMatch.star [] t [] ShellMatch.nil
        simpa using this
      | any _ c t hm => exact ShellMatch.any _ _ _ ((hi _).1 hm)
      | lit _ _ t h1 h2 hm => exact ShellMatch.lit _ _ _ h1 h2 ((hi _).1 hm)
    · intro hm
      cases hm with
      | star _ s t hm => exact CompMatch.star _ _
      | any _ c t hm => exact CompMatch.any _ _ _ ((hi _).2 hm)
      | lit _ _ t h1 h2 hm => exact CompMatch.lit _ _ _ h1 h2 ((hi _).2 hm)

theorem compMatch_literal (p t : Str) (h : ∀ c ∈ p, c ≠ 42 ∧ c ≠ 63) :
    CompMatch p t ↔ p = t := by
  induction p generalizing t with
  | nil => constructor
           · intro h; cases h; rfl
           · rintro rfl; constructor
  | cons a p ih =>
    have hi := fun t => ih t (fun c hc => h c (by simp [hc]))
    have ha := h a (by simp)
    constructor
    · intro hm
      cases hm with
      | star => exact absurd rfl ha.1
      | any => exact absurd rfl ha.2
      | lit _ _ t _ _ hm => rw [(hi _).1 hm]
    · rintro rfl
      exact CompMatch.lit _ _ _ ha.1 ha.2 ((hi _).2 rfl)

theorem dec_not_wild (n : Nat) : ∀ c ∈ dec n, c ≠ 42 ∧ c ≠ 63 := by
  intro c hc
  have := dec_digits n c hc
  constructor <;> (rintro rfl; revert this; decide)

/-! ## `rawParse4DPat` -/

theorem rpLoop_append (s : RP) (a b : Str) :
    rpLoop s (a ++ b) = match rpLoop s a with
      | .error e => .error e
      | .ok none => .ok none
      | .ok (some s') => rpLoop s' b := by
  induction a generalizing s with
  | nil => simp [rpLoop]
  | cons c a ih =>
    simp only [List.cons_append, rpLoop]
    cases h : rpStep s c with
    | error e => simp
    | ok o => cases o with
      | none => simp
      | some s' => simpa using ih s'

theorem patChar_not_sep {c : UInt8} (h : isPatChar c = true) : c ≠ 58 ∧ c ≠ 47 ∧ c ≠ 46 := by
  refine ⟨?_, ?_, ?_⟩ <;> (rintro rfl; revert h; decide)

theorem rpStep_char (s : RP) (c : UInt8) (h : isPatChar c = true) :
    rpStep s c = .ok (some (if s.tempc < 9 then
      { s with temp := some ((s.temp.getD []).take s.tempc ++ [c]), tempc := s.tempc + 1 } else s)) := by
  obtain ⟨h1, h2, h3⟩ := patChar_not_sep h
  simp only [rpStep, h1, h2, h3, if_false, h, if_true]
  split <;> rfl

/-- Reading a run of pattern characters: `temp` becomes the first 9 of them. -/
theorem rpLoop_run (s : RP) (d : Str) (hd : ∀ c ∈ d, isPatChar c = true) (hne : d ≠ [])
    (h0 : s.tempc = 0) :
    ∃ k, rpLoop s d = .ok (some { s with temp := some (d.take 9), tempc := k }) := by
  have gen : ∀ (d : Str) (done : Str), (∀ c ∈ d, isPatChar c = true) → done ≠ [] →
      ∀ s : RP, s.temp = some (done.take 9) → s.tempc = min done.length 9 →
      ∃ k, rpLoop s d = .ok (some { s with temp := some ((done ++ d).take 9), tempc := k }) := by
    intro d
    induction d with
    | nil => intro done _ _ s h1 h2; exact ⟨s.tempc, by cases s; simp_all [rpLoop]⟩
    | cons c d ih =>
      intro done hd hdn s h1 h2
      have hc := hd c (by simp)
      simp only [rpLoop, rpStep_char s c hc]
      by_cases hlt : s.tempc < 9
      · have hlen : done.length < 9 := by omega
        simp only [hlt, if_true]
        obtain ⟨k, hk⟩ := ih (done ++ [c]) (fun x hx => hd x (by simp [hx])) (by simp)
          { s with temp := some ((s.temp.getD []).take s.tempc ++ [c]), tempc := s.tempc + 1 }
          (by simp only [h1, h2, Option.getD_some]
              congr 1
              rw [List.take_of_length_le (l := done) (by omega),
                List.take_of_length_le (l := done) (by omega),
                List.take_of_length_le (by simp; omega)])
          (by simp; omega)
        exact ⟨k, by rw [hk]; simp⟩
      · simp only [hlt, if_false]
        have hlen : 9 ≤ done.length := by omega
        obtain ⟨k, hk⟩ := ih (done ++ [c]) (fun x hx => hd x (by simp [hx])) (by simp) s
          (by rw [h1, List.take_append_of_le_length hlen])
          (by simp; omega)
        exact ⟨k, by rw [hk]; simp⟩
  cases d with
  | nil => exact absurd rfl hne
  | cons c d =>
    have hc := hd c (by simp)
    simp only [rpLoop, rpStep_char s c hc, h0]
    obtain ⟨k, hk⟩ := gen d [c] (fun x hx => hd x (by simp [hx])) (by simp)
      { s with temp := some ((s.temp.getD []).take s.tempc ++ [c]), tempc := s.tempc + 1 }
      (by simp [h0]) (by simp [h0])
    simp only [h0, Nat.zero_add] at hk
    refine ⟨k, ?_⟩
    rw [if_pos (by omega)]
    simp only [Nat.zero_add]
    rw [hk]
    simp

theorem rpRunZ (s : RP) (d r : Str) (hd : ∀ c ∈ d, isPatChar c = true) (hne : d ≠ [])
    (h0 : s.tempc = 0) (g : s.gotZone = false ∧ s.gotNet = false ∧ s.gotNode = false) :
    rpLoop s (d ++ 58 :: r) = rpLoop
      { s with
        pat := { s.pat with zone := d.take 9 }
        temp := some (d.take 9)
        tempc := 0
        gotZone := true } r := by
  obtain ⟨k, hk⟩ := rpLoop_run s d hd hne h0
  rw [rpLoop_append, hk]
  simp [rpLoop, rpStep, useTemp, g, bind, Except.bind]

theorem rpRunN (s : RP) (d r : Str) (hd : ∀ c ∈ d, isPatChar c = true) (hne : d ≠ [])
    (h0 : s.tempc = 0) (g : s.gotNet = false ∧ s.gotNode = false) :
    rpLoop s (d ++ 47 :: r) = rpLoop
      { s with
        pat := { s.pat with net := d.take 9 }
        temp := some (d.take 9)
        tempc := 0
        gotNet := true } r := by
  obtain ⟨k, hk⟩ := rpLoop_run s d hd hne h0
  rw [rpLoop_append, hk]
  simp [rpLoop, rpStep, useTemp, g, bind, Except.bind]

theorem rpRunF (s : RP) (d r : Str) (hd : ∀ c ∈ d, isPatChar c = true) (hne : d ≠ [])
    (h0 : s.tempc = 0) (g : s.gotNode = false) :
    rpLoop s (d ++ 46 :: r) = rpLoop
      { s with
        pat := { s.pat with node := d.take 9, point := [] }
        temp := some (d.take 9)
        tempc := 0
        gotNode := true } r := by
  obtain ⟨k, hk⟩ := rpLoop_run s d hd hne h0
  rw [rpLoop_append, hk]
  simp [rpLoop, rpStep, useTemp, g, bind, Except.bind]

end CM
