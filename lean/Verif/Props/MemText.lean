import Verif.Model.MemMessage
import Verif.Lemmas.Base
/-! # C07: message text accumulation -/
set_option linter.unusedSimpArgs false

namespace CM

theorem lastCR_le (s : Str) (d : Nat) : lastCR s d ≤ d := by
  induction d with
  | zero => simp [lastCR]
  | succ d ih => simp only [lastCR]; split <;> omega

theorem lastCR_get (s : Str) (d : Nat) (h : lastCR s d ≠ 0) : s[lastCR s d]? = some 13 := by
  induction d with
  | zero => simp [lastCR] at h
  | succ d ih =>
    simp only [lastCR] at h ⊢
    split
    · assumption
    · rename_i hn; rw [if_neg hn] at h; exact ih h

theorem lastCR_zero (s : Str) (d : Nat) (h : lastCR s d = 0) : ∀ i, 1 ≤ i → i ≤ d → s[i]? ≠ some 13 := by
  induction d with
  | zero => intro i h1 h2; omega
  | succ d ih =>
    simp only [lastCR] at h
    split at h
    · omega
    · rename_i hn
      intro i h1 h2
      by_cases hi : i = d + 1
      · subst hi; exact hn
      · exact ih h i h1 (by omega)

/-- A chunk that may be followed by another one: it ends with a complete line, or consists of (the
beginning of) a single line, not counting a CR in first position. -/
def LineEnd (c : Str) : Prop := c.getLast? = some 13 ∨ 13 ∉ c.drop 1

theorem not_mem_drop_one {s : Str} (h : ∀ i, 1 ≤ i → i ≤ s.length - 1 → s[i]? ≠ some 13) : 13 ∉ s.drop 1 := by
  intro hm
  obtain ⟨i, hi⟩ := List.mem_iff_getElem?.1 hm
  rw [List.getElem?_drop] at hi
  have : 1 + i < s.length := (List.getElem?_eq_some_iff.1 hi).1
  exact h (1 + i) (by omega) (by omega) hi

theorem carryLine_flat (cs : List Str) :
    (carryLine cs).1.flatten ++ (carryLine cs).2 = cs.flatten := by
  unfold carryLine
  cases hl : cs.getLast? with
  | none => simp
  | some old =>
    have hcs : cs = cs.dropLast ++ [old] := by
      obtain ⟨hne, e⟩ := List.getLast?_eq_some_iff.1 hl
      simp [e]
    simp only
    split
    · split
      · simp only [List.flatten_append, List.flatten_cons, List.flatten_nil, List.append_nil,
          List.append_assoc, List.take_append_drop]
        conv => rhs; rw [hcs]
        simp
      · simp
    · simp

theorem carryLine_start (cs : List Str) (hc : ∀ c ∈ cs, c.length ≤ chunkLen) :
    (carryLine cs).2.length < chunkLen := by
  unfold carryLine
  cases hl : cs.getLast? with
  | none => simp [chunkLen]
  | some old =>
    have ho : old.length ≤ chunkLen := hc old (List.mem_of_getLast? hl)
    simp only
    split
    · split
      · simp only [List.length_drop]; unfold chunkLen at *; omega
      · simp [chunkLen]
    · simp [chunkLen]

theorem carryLine_mem (cs : List Str) (hc : ∀ c ∈ cs, c.length ≤ chunkLen)
    (hp : ∀ c ∈ cs.dropLast, LineEnd c) :
    ∀ c ∈ (carryLine cs).1, c.length ≤ chunkLen ∧ LineEnd c := by
  have key : ∀ (old : Str), cs.getLast? = some old → LineEnd old → ∀ c ∈ cs, c.length ≤ chunkLen ∧ LineEnd c := by
    intro old hl hle c hm
    refine ⟨hc c hm, ?_⟩
    obtain ⟨ys, e⟩ := List.getLast?_eq_some_iff.1 hl
    rw [e] at hm hp
    simp only [List.dropLast_concat] at hp
    rcases List.mem_append.1 hm with hm | hm
    · exact hp c hm
    · simp at hm; subst hm; exact hle
  unfold carryLine
  cases hl : cs.getLast? with
  | none => simp at hl; subst hl; simp
  | some old =>
    simp only
    have ho : old.length ≤ chunkLen := hc old (List.mem_of_getLast? hl)
    split
    · rename_i hcond
      split
      · rename_i hd
        intro c hm
        simp only [List.mem_append, List.mem_singleton] at hm
        rcases hm with hm | rfl
        · exact ⟨hc c (List.dropLast_subset _ hm), hp c hm⟩
        · refine ⟨by simp; omega, .inl ?_⟩
          have h1 := lastCR_get _ _ hd
          have h2 := lastCR_le old (old.length - 1)
          rw [List.getLast?_eq_getElem?, List.length_take, Nat.min_eq_left (by omega),
            Nat.add_sub_cancel, List.getElem?_take, if_pos (by omega), h1]
      · rename_i hd
        exact key old hl (.inr (not_mem_drop_one (lastCR_zero _ _ (by omega))))
    · rename_i hcond
      refine key old hl ?_
      by_cases h0 : old.length > 0
      · have hcr : old[old.length - 1]? = some 13 := by
          apply Classical.byContradiction; intro h; exact hcond ⟨h0, h⟩
        left; rw [List.getLast?_eq_getElem?, hcr]
      · right; have : old = [] := List.eq_nil_of_length_eq_zero (by omega); subst this; simp

theorem mmAddLoop_spec (f : Nat) (cs : List Str) (buf : Str) (hf : buf.length ≤ f)
    (hc : ∀ c ∈ cs, c.length ≤ chunkLen) (hp : ∀ c ∈ cs.dropLast, LineEnd c) :
    ∃ r, mmAddLoop f cs buf = some r ∧ r.flatten = cs.flatten ++ buf ∧
      (∀ c ∈ r, c.length ≤ chunkLen) ∧ (∀ c ∈ r.dropLast, LineEnd c) := by
  induction f generalizing cs buf with
  | zero =>
    have : buf = [] := List.eq_nil_of_length_eq_zero (by omega)
    subst this
    exact ⟨cs, by simp [mmAddLoop], by simp, hc, hp⟩
  | succ f ih =>
    cases buf with
    | nil => exact ⟨cs, by simp [mmAddLoop], by simp, hc, hp⟩
    | cons b buf =>
      have hs := carryLine_start cs hc
      have hm := carryLine_mem cs hc hp
      have hfl := carryLine_flat cs
      generalize hcl : carryLine cs = p at *
      obtain ⟨cs', start⟩ := p
      simp only at hs hm hfl
      simp only [mmAddLoop, hcl]
      generalize hn : min (b :: buf).length (chunkLen - start.length) = n
      have hn1 : 1 ≤ n := by simp at hn; omega
      obtain ⟨r, h1, h2, h3, h4⟩ := ih (cs' ++ [start ++ (b :: buf).take n]) ((b :: buf).drop n)
        (by simp at hf ⊢; omega)
        (by
          intro c hcm
          simp only [List.mem_append, List.mem_singleton] at hcm
          rcases hcm with hcm | rfl
          · exact (hm c hcm).1
          · simp only [List.length_append, List.length_take]; omega)
        (by
          rw [List.dropLast_concat]
          exact fun c hcm => (hm c hcm).2)
      refine ⟨r, h1, ?_, h3, h4⟩
      rw [h2, ← hfl]
      simp only [List.flatten_append, List.flatten_cons, List.flatten_nil, List.append_nil,
        List.append_assoc, List.take_append_drop]

/-- The buffer states that can occur: no chunk above capacity; only the last one can end in the
middle of a line (unless the line is too long for a chunk). -/
def TextOK (cs : List Str) : Prop :=
  (∀ c ∈ cs, c.length ≤ chunkLen) ∧ (∀ c ∈ cs.dropLast, LineEnd c)

/-- C07. Appending a string of any length below 4 GB to a text terminates, appends exactly the string,
and keeps every chunk within its capacity. -/
theorem mmAddBuf_appends (cs : List Str) (buf : Str) (h : TextOK cs) (hlen : buf.length + chunkLen < 2 ^ 32) :
    ∃ r, mmAddBuf cs buf = .ok (some r) ∧ r.flatten = cs.flatten ++ buf ∧ TextOK r := by
  obtain ⟨hc, hp⟩ := h
  unfold mmAddBuf
  by_cases h0 : buf.length = 0
  · have : buf = [] := List.eq_nil_of_length_eq_zero h0
    subst this
    exact ⟨cs, by simp, by simp, hc, hp⟩
  · rw [if_neg h0]
    cases hl : cs.getLast? with
    | none =>
      obtain ⟨r, h1, h2, h3, h4⟩ := mmAddLoop_spec _ cs buf (Nat.le_refl _) hc hp
      exact ⟨r, by simp only [h1], h2, h3, h4⟩
    | some c =>
      have hcl := hc c (List.mem_of_getLast? hl)
      have hmod : (c.length + buf.length) % 2 ^ 32 = c.length + buf.length := Nat.mod_eq_of_lt (by omega)
      simp only [hmod]
      by_cases hfit : c.length + buf.length ≤ chunkLen
      · obtain ⟨ys, e⟩ := List.getLast?_eq_some_iff.1 hl
        subst e
        refine ⟨ys ++ [c ++ buf], by simp [hfit], by simp, ?_, ?_⟩
        · intro x hx
          simp only [List.mem_append, List.mem_singleton] at hx
          rcases hx with hx | rfl
          · exact hc x (by simp [hx])
          · simpa using hfit
        · simpa using hp
      · obtain ⟨r, h1, h2, h3, h4⟩ := mmAddLoop_spec _ cs buf (Nat.le_refl _) hc hp
        exact ⟨r, by simp only [hfit, if_false, h1], h2, h3, h4⟩

/-- Appending a whole sequence of strings. -/
def mmAddBufs (cs : List Str) : List Str → Except UB (Option (List Str))
  | [] => .ok (some cs)
  | b :: bs => match mmAddBuf cs b with
    | .error e => .error e
    | .ok none => .ok none
    | .ok (some r) => mmAddBufs r bs

/-- C07. Every sequence of appended strings: the text is their concatenation. -/
theorem mmAddBufs_concat (bs : List Str) (cs : List Str) (h : TextOK cs)
    (hlen : ∀ b ∈ bs, b.length + chunkLen < 2 ^ 32) :
    ∃ r, mmAddBufs cs bs = .ok (some r) ∧ r.flatten = cs.flatten ++ bs.flatten ∧ TextOK r := by
  induction bs generalizing cs with
  | nil => exact ⟨cs, rfl, by simp, h⟩
  | cons b bs ih =>
    obtain ⟨r, h1, h2, h3⟩ := mmAddBuf_appends cs b h (hlen b (by simp))
    obtain ⟨r', h4, h5, h6⟩ := ih r h3 (fun x hx => hlen x (by simp [hx]))
    exact ⟨r', by simp only [mmAddBufs, h1, h4], by simp [h5, h2], h6⟩

/-- C07. Starting from a fresh message nothing is lost, added or reordered. -/
theorem mmAddBufs_fresh (bs : List Str) (hlen : ∀ b ∈ bs, b.length + chunkLen < 2 ^ 32) :
    ∃ r, mmAddBufs [] bs = .ok (some r) ∧ r.flatten = bs.flatten ∧ (∀ c ∈ r, c.length ≤ 10000) := by
  obtain ⟨r, h1, h2, h3⟩ := mmAddBufs_concat bs [] ⟨by simp, by simp⟩ hlen
  exact ⟨r, h1, by simpa using h2, h3.1⟩

/-- C07. Lines are kept whole: a chunk followed by another ends at the end of a line, unless it holds
(the beginning of) a single line. -/
theorem mmAddBufs_lines (bs : List Str) (hlen : ∀ b ∈ bs, b.length + chunkLen < 2 ^ 32) (r : List Str)
    (h : mmAddBufs [] bs = .ok (some r)) (pre post : List Str) (c : Str) (e : r = pre ++ c :: post)
    (hpost : post ≠ []) : c.getLast? = some 13 ∨ 13 ∉ c.drop 1 := by
  obtain ⟨r', h1, _, h3⟩ := mmAddBufs_concat bs [] ⟨by simp, by simp⟩ hlen
  rw [h1] at h
  simp at h
  subst h
  refine h3.2 c ?_
  rw [e, List.dropLast_append_of_ne_nil (by simp), List.dropLast_cons_of_ne_nil hpost]
  simp

/-- Non-vacuity: a full chunk whose last line is incomplete is split at the line. -/
example (a b : Str) (ha : a.length = 9000) (hb : b.length = 999) : TextOK [a ++ [13] ++ b] := by
  refine ⟨?_, by intro c hc; rw [List.dropLast_singleton] at hc; simp at hc⟩
  intro c hc
  rw [List.mem_singleton] at hc
  subst hc
  simp only [List.length_append, ha, hb, List.length_singleton]
  decide

example : carryLine [[65, 65, 13], [65, 65, 65, 13, 66, 66]] = ([[65, 65, 13], [65, 65, 65, 13]], [66, 66]) := by
  decide

end CM
