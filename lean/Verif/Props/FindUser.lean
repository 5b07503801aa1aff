import Verif.Model.FindUser
import Verif.Spec.FindUser
import Verif.Lemmas.Jam
/-! # C128: messages to a user -/
set_option linter.unusedSimpArgs false

namespace CM

private theorem fuMsg_iff {f : Data} {u : UInt32} {k : Nat} (h : 8 * k + 8 ≤ f.length) :
    get32 f (8 * k) = u ↔ FuMsg f u k := by
  have e := le32_get32 (d := f) (off := 8 * k) (by omega)
  constructor
  · intro hu
    exact ⟨h, by rw [← e, hu]⟩
  · rintro ⟨-, hu⟩
    rw [← e] at hu
    have := rd32L_le32 (get32 f (8 * k)) []
    rw [hu, rd32L_le32] at this
    exact this.symm

private theorem fuScan_spec (u : UInt32) (f : Data) : ∀ n k, f.length < n + 8 * k →
    (∀ j, fuScan u f n k = some j → k ≤ j ∧ FuMsg f u j ∧ ∀ i, k ≤ i → i < j → ¬ FuMsg f u i) ∧
    (fuScan u f n k = none → ∀ i, k ≤ i → ¬ FuMsg f u i) := by
  intro n
  induction n with
  | zero =>
    intro k hn
    refine ⟨by intro j h; simp [fuScan] at h, ?_⟩
    rintro - i hi ⟨hl, -⟩
    omega
  | succ n ih =>
    intro k hn
    rw [fuScan]
    by_cases hl : 8 * k + 8 ≤ f.length
    · rw [if_pos hl]
      by_cases hu : get32 f (8 * k) = u
      · rw [if_pos hu]
        refine ⟨?_, by simp⟩
        intro j h
        have h := Option.some.inj h
        subst h
        exact ⟨Nat.le_refl _, (fuMsg_iff hl).1 hu, fun i h1 h2 => by omega⟩
      · rw [if_neg hu]
        obtain ⟨h1, h2⟩ := ih (k + 1) (by omega)
        have hk : ¬ FuMsg f u k := fun h => hu ((fuMsg_iff hl).2 h)
        refine ⟨?_, ?_⟩
        · intro j h
          obtain ⟨a, b, c⟩ := h1 j h
          refine ⟨by omega, b, fun i hi hj => ?_⟩
          by_cases e : i = k
          · rw [e]; exact hk
          · exact c i (by omega) hj
        · intro h i hi
          by_cases e : i = k
          · rw [e]; exact hk
          · exact h2 h i (by omega)
    · rw [if_neg hl]
      refine ⟨by intro j h; simp at h, ?_⟩
      rintro - i hi ⟨h, -⟩
      omega

/-- **C128.** The message found is the first one to the user from the start on; none is found only if
there is none. -/
theorem user_first (f : Data) (u : UInt32) (start : Nat) :
    (∃ j, findUser f u start = some j ∧ start ≤ j ∧ FuMsg f u j ∧ ∀ i, start ≤ i → i < j → ¬ FuMsg f u i) ∨
    (findUser f u start = none ∧ ∀ i, start ≤ i → ¬ FuMsg f u i) := by
  obtain ⟨h1, h2⟩ := fuScan_spec u f (f.length + 1) start (by omega)
  cases hs : findUser f u start with
  | none => exact Or.inr ⟨rfl, h2 hs⟩
  | some j => exact Or.inl ⟨j, rfl, h1 j hs⟩

private theorem fuWalk_spec (f : Data) (u : UInt32) : ∀ n k, f.length < n + k →
    (∀ j, j ∈ fuWalk f u n k ↔ k ≤ j ∧ FuMsg f u j) ∧ (fuWalk f u n k).Pairwise (· < ·) := by
  intro n
  induction n with
  | zero =>
    intro k hn
    refine ⟨fun j => ⟨by simp [fuWalk], ?_⟩, by simp [fuWalk]⟩
    rintro ⟨h, hl, -⟩
    omega
  | succ n ih =>
    intro k hn
    rw [fuWalk]
    rcases user_first f u k with ⟨j, e, hk, hj, hmin⟩ | ⟨e, hnone⟩
    · rw [e]
      obtain ⟨h1, h2⟩ := ih (j + 1) (by omega)
      refine ⟨fun i => ?_, ?_⟩
      · simp only [List.mem_cons, h1]
        constructor
        · rintro (rfl | ⟨a, b⟩)
          · exact ⟨hk, hj⟩
          · exact ⟨by omega, b⟩
        · rintro ⟨a, b⟩
          by_cases c : i < j
          · exact absurd b (hmin i a c)
          · by_cases d : i = j
            · exact Or.inl d
            · exact Or.inr ⟨by omega, b⟩
      · refine List.pairwise_cons.2 ⟨fun i hi => ?_, h2⟩
        have := ((h1 i).1 hi).1
        omega
    · rw [e]
      exact ⟨fun i => ⟨by simp, fun ⟨a, b⟩ => absurd b (hnone i a)⟩, List.Pairwise.nil⟩

/-- **C128.** A reader that goes from one message found to the next sees every message to the user, each
once and in order, and no erased one, if the checksum of the user's name is not that of erased records. -/
theorem walk_all_partial (f : Data) (u : UInt32) (hu : u ≠ 0xffffffff) :
    (∀ j, j ∈ fuWalk f u (f.length + 1) 0 ↔ FuMsg f u j ∧ ¬ FuErased f j) ∧
    (fuWalk f u (f.length + 1) 0).Pairwise (· < ·) := by
  obtain ⟨h1, h2⟩ := fuWalk_spec f u (f.length + 1) 0 (by omega)
  refine ⟨fun j => ?_, h2⟩
  rw [h1]
  constructor
  · rintro ⟨-, hj⟩
    refine ⟨hj, fun he => hu ?_⟩
    have h4 : (f.drop (8 * j)).take 4 = le32 0xffffffff := by
      have := congrArg (List.take 4) he
      rw [List.take_take] at this
      rw [show min 4 8 = 4 from rfl] at this
      rw [this]
      decide
    rw [hj.2] at h4
    have := rd32L_le32 u []
    rw [h4, rd32L_le32] at this
    exact this.symm
  · rintro ⟨hj, -⟩
    exact ⟨Nat.zero_le _, hj⟩

/-- **C128, where it fails.** For the user whose name has the checksum of erased records, which is the
empty name (`Ex.empty_name`), every erased record is reported as a message. -/
theorem erased_found (f : Data) (k : Nat) (h : FuErased f k) : k ∈ fuWalk f 0xffffffff (f.length + 1) 0 := by
  rw [(fuWalk_spec f 0xffffffff (f.length + 1) 0 (by omega)).1]
  refine ⟨Nat.zero_le _, ?_, ?_⟩
  · have := congrArg List.length h
    rw [List.length_take, List.length_drop, List.length_replicate] at this
    omega
  · have := congrArg (List.take 4) h
    rw [List.take_take, show min 4 8 = 4 from rfl] at this
    rw [this]
    decide

namespace Ex

/-- An index: messages to 5, erased, to 6, to 5. -/
def fuIndex : Data := le32 5 ++ le32 1024 ++ List.replicate 8 255 ++ le32 6 ++ le32 2000 ++ le32 5 ++ le32 3000

example : (5 : UInt32) ≠ 0xffffffff ∧ FuErased fuIndex 1 ∧ FuMsg fuIndex 5 3 := by
  exact ⟨by decide, rfl, by decide, rfl⟩

/-- The checksum of the empty name. -/
theorem empty_name (sc : Bool) : (jamCrc32 sc []).toOption = some 0xffffffff := rfl

/-- The messages to 5 and to 6, and an erased one. -/
theorem fu_case : fuWalk fuIndex 5 33 0 = [0, 3] ∧ fuWalk fuIndex 6 33 0 = [2] ∧ fuWalk fuIndex 7 33 0 = [] ∧
    fuWalk fuIndex 0xffffffff 33 0 = [1] ∧ findUser fuIndex 5 1 = some 3 ∧ findUser fuIndex 5 4 = none := by decide +kernel

end Ex
end CM
