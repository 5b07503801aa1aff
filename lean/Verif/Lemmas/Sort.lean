import Verif.Model.Sort
/-! # Insertion sort is a sorted permutation -/
namespace CM

theorem insertBy_perm {α} (cmp : α → α → Int) (x : α) (l : List α) : (insertBy cmp x l).Perm (x :: l) := by
  induction l with
  | nil => exact .refl _
  | cons y l ih =>
    simp only [insertBy]
    split
    · exact .refl _
    · exact (ih.cons y).trans (.swap x y l)

theorem isort_perm {α} (cmp : α → α → Int) (l : List α) : (isort cmp l).Perm l := by
  induction l with
  | nil => exact .refl _
  | cons x l ih => exact (insertBy_perm cmp x _).trans (ih.cons x)

theorem insertBy_sorted {α} (cmp : α → α → Int) (tot : ∀ a b, cmp a b ≤ 0 ∨ cmp b a ≤ 0)
    (tr : ∀ a b c, cmp a b ≤ 0 → cmp b c ≤ 0 → cmp a c ≤ 0) (x : α) (l : List α)
    (h : l.Pairwise (fun a b => cmp a b ≤ 0)) :
    (insertBy cmp x l).Pairwise (fun a b => cmp a b ≤ 0) := by
  induction l with
  | nil => simp [insertBy]
  | cons y l ih =>
    rw [List.pairwise_cons] at h
    simp only [insertBy]
    split
    · rename_i hxy
      rw [List.pairwise_cons, List.pairwise_cons]
      refine ⟨?_, h⟩
      intro z hz
      rcases List.mem_cons.1 hz with rfl | hz
      · exact hxy
      · exact tr _ _ _ hxy (h.1 z hz)
    · rename_i hxy
      rw [List.pairwise_cons]
      refine ⟨?_, ih h.2⟩
      intro z hz
      rcases List.mem_cons.1 ((insertBy_perm cmp x l).mem_iff.1 hz) with rfl | hz
      · exact (tot z y).resolve_left hxy
      · exact h.1 z hz

theorem isort_sorted {α} (cmp : α → α → Int) (tot : ∀ a b, cmp a b ≤ 0 ∨ cmp b a ≤ 0)
    (tr : ∀ a b c, cmp a b ≤ 0 → cmp b c ≤ 0 → cmp a c ≤ 0) (l : List α) :
    (isort cmp l).Pairwise (fun a b => cmp a b ≤ 0) := by
  induction l with
  | nil => exact List.Pairwise.nil
  | cons x l ih => exact insertBy_sorted cmp tot tr x _ ih

end CM
