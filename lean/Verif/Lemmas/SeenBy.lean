import Verif.Model.MemMessage
import Verif.Lemmas.Base
import Verif.Lemmas.Sort
/-! # Lemmas on SEEN-BY blocks -/
set_option linter.unusedSimpArgs false

namespace CM

/-- The block structure: only the last block may be less than full, none is empty. -/
def Blocks (bs : List (List N2)) : Prop :=
  (∀ b ∈ bs.dropLast, b.length = num2D) ∧ (∀ b ∈ bs, 1 ≤ b.length ∧ b.length ≤ num2D)

theorem any2_iff (bs : List (List N2)) (x : N2) :
    bs.any (fun b => b.any (fun e => e.1 == x.1 && e.2 == x.2)) = true ↔ x ∈ bs.flatten := by
  simp only [List.any_eq_true, Bool.and_eq_true, beq_iff_eq, List.mem_flatten]
  constructor
  · rintro ⟨b, hb, e, he, h1, h2⟩
    exact ⟨b, hb, by rw [show x = e from Prod.ext h1.symm h2.symm]; exact he⟩
  · rintro ⟨b, hb, he⟩; exact ⟨b, hb, x, he, rfl, rfl⟩

theorem mmAddNodes2D_flatten (bs : List (List N2)) (x : N2) :
    (mmAddNodes2D bs x).flatten = if x ∈ bs.flatten then bs.flatten else bs.flatten ++ [x] := by
  unfold mmAddNodes2D
  by_cases h : x ∈ bs.flatten
  · rw [if_pos ((any2_iff bs x).2 h), if_pos h]
  · rw [if_neg (fun h' => h ((any2_iff bs x).1 h')), if_neg h]
    cases hl : bs.getLast? with
    | none => simp
    | some b =>
      obtain ⟨ys, rfl⟩ := List.getLast?_eq_some_iff.1 hl
      simp only
      split <;> simp

theorem mmAddNodes2D_blocks (bs : List (List N2)) (x : N2) (h : Blocks bs) : Blocks (mmAddNodes2D bs x) := by
  obtain ⟨h1, h2⟩ := h
  unfold mmAddNodes2D
  split
  · exact ⟨h1, h2⟩
  · cases hl : bs.getLast? with
    | none =>
      simp at hl; subst hl
      exact ⟨by simp, by simp [num2D]⟩
    | some b =>
      obtain ⟨ys, rfl⟩ := List.getLast?_eq_some_iff.1 hl
      simp only [List.dropLast_concat] at h1 ⊢
      have hb := h2 b (by simp)
      split
      · rename_i hfull
        refine ⟨?_, ?_⟩
        · rw [List.dropLast_concat]
          intro c hc
          simp only [List.mem_append, List.mem_singleton] at hc
          rcases hc with hc | rfl
          · exact h1 c hc
          · exact hfull
        · intro c hc
          rw [List.mem_append, List.mem_singleton] at hc
          rcases hc with hc | rfl
          · exact h2 c hc
          · simp [num2D]
      · rename_i hnf
        refine ⟨?_, ?_⟩
        · rw [List.dropLast_concat]; exact h1
        · intro c hc
          rw [List.mem_append, List.mem_singleton] at hc
          rcases hc with hc | rfl
          · exact h2 c (by simp [hc])
          · simp only [List.length_append, List.length_singleton]; omega

theorem u16_lt' (a b : UInt16) : a < b ↔ a.toNat < b.toNat := Iff.rfl
theorem u16_eq' (a b : UInt16) : a = b ↔ a.toNat = b.toNat := UInt16.toNat_inj.symm

theorem compareSort_le_iff (a b : N2) :
    compareSort a b ≤ 0 ↔ a.1.toNat < b.1.toNat ∨ a.1.toNat = b.1.toNat ∧ a.2.toNat ≤ b.2.toNat := by
  unfold compareSort
  simp only [GT.gt, u16_lt']
  repeat' split
  all_goals (constructor <;> intro <;> first | omega | simp_all)

theorem compareSort_total (a b : N2) : compareSort a b ≤ 0 ∨ compareSort b a ≤ 0 := by
  simp only [compareSort_le_iff]; omega

theorem compareSort_trans (a b c : N2) (h1 : compareSort a b ≤ 0) (h2 : compareSort b c ≤ 0) :
    compareSort a c ≤ 0 := by
  simp only [compareSort_le_iff] at *; omega

theorem refill2D_spec (es : List N2) (cur : List N2) (rest : List (List N2)) (hcur : cur.length ≤ num2D)
    (hlo : num2D * rest.length < cur.length + es.length)
    (hhi : cur.length + es.length ≤ num2D * (rest.length + 1)) :
    ∃ r, refill2D cur rest es = .ok r ∧ r.flatten = cur ++ es ∧ Blocks r := by
  induction es generalizing cur rest with
  | nil =>
    have hr : rest = [] := by
      cases rest with
      | nil => rfl
      | cons a l => simp [num2D] at *; omega
    subst hr
    refine ⟨[cur], by simp [refill2D], by simp, by simp, ?_⟩
    intro b hb
    simp at hb; subst hb
    simp at hlo
    exact ⟨by omega, hcur⟩
  | cons e es ih =>
    simp only [List.length_cons] at hlo hhi
    unfold refill2D
    by_cases hf : cur.length = num2D
    · rw [if_pos hf]
      cases rest with
      | nil => simp at hhi; omega
      | cons a rest =>
        simp only [List.length_cons] at hlo hhi
        obtain ⟨r, h1, h2, h3, h4⟩ := ih [e] rest (by simp [num2D])
          (by simp; simp [num2D] at *; omega) (by simp; simp [num2D] at *; omega)
        refine ⟨cur :: r, by simp [h1, Except.map], by simp [h2], ?_, ?_⟩
        · have hr : r ≠ [] := by rintro rfl; simp at h2
          rw [List.dropLast_cons_of_ne_nil hr]
          intro b hb
          rcases List.mem_cons.1 hb with rfl | hb
          · exact hf
          · exact h3 b hb
        · intro b hb
          rcases List.mem_cons.1 hb with rfl | hb
          · exact ⟨by simp [hf, num2D], hcur⟩
          · exact h4 b hb
    · rw [if_neg hf]
      obtain ⟨r, h1, h2, h3⟩ := ih (cur ++ [e]) rest (by simp; omega) (by simp; omega) (by simp; omega)
      exact ⟨r, h1, by simp [h2], h3⟩

theorem blocks_length (bs : List (List N2)) (h : Blocks bs) (b : List N2) (rest : List (List N2))
    (e : bs = b :: rest) :
    num2D * rest.length < bs.flatten.length ∧ bs.flatten.length ≤ num2D * (rest.length + 1) := by
  induction rest generalizing bs b with
  | nil =>
    subst e
    have := h.2 b (by simp)
    simp; omega
  | cons c rest ih =>
    subst e
    have hb := h.1 b (by simp)
    have := ih (c :: rest) ⟨fun x hx => h.1 x (by
        rw [List.dropLast_cons_of_ne_nil (by simp)]; exact List.mem_cons_of_mem _ hx),
      fun x hx => h.2 x (List.mem_cons_of_mem _ hx)⟩ c rfl
    simp only [List.flatten_cons, List.length_append, List.length_cons, hb] at *
    simp only [num2D] at *
    omega

theorem mmSort_spec (bs : List (List N2)) (h : Blocks bs) :
    ∃ r, mmSortNodes2D bs = .ok r ∧ r.flatten = isort compareSort bs.flatten ∧ Blocks r := by
  unfold mmSortNodes2D
  cases bs with
  | nil => exact ⟨[], by simp, by simp [isort], h⟩
  | cons b rest =>
    obtain ⟨h1, h2⟩ := blocks_length (b :: rest) h b rest rfl
    rw [if_neg (by simp only [num2D] at *; omega)]
    have hlen : (isort compareSort (b :: rest).flatten).length = (b :: rest).flatten.length :=
      (isort_perm _ _).length_eq
    obtain ⟨r, h3, h4, h5⟩ := refill2D_spec (isort compareSort (b :: rest).flatten) [] rest
      (by simp) (by rw [hlen, List.length_nil]; omega) (by rw [hlen, List.length_nil]; omega)
    exact ⟨r, h3, by simpa using h4, h5⟩

theorem remPat_flatten (bs : List (List N2)) (p : Pat2) :
    (mmRemNodes2DPat bs p).flatten = bs.flatten.map fun e => if compare2DPat p e then (0, 0) else e := by
  simp [mmRemNodes2DPat, List.map_flatten]

theorem remPat_blocks (bs : List (List N2)) (p : Pat2) (h : Blocks bs) : Blocks (mmRemNodes2DPat bs p) := by
  refine ⟨?_, ?_⟩
  · intro b hb
    simp only [mmRemNodes2DPat, ← List.map_dropLast, List.mem_map] at hb
    obtain ⟨c, hc, rfl⟩ := hb
    simpa using h.1 c hc
  · intro b hb
    simp only [mmRemNodes2DPat, List.mem_map] at hb
    obtain ⟨c, hc, rfl⟩ := hb
    simpa using h.2 c hc

end CM
