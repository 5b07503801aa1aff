import Verif.Model.Nodelist
import Verif.Spec.Nodelist
import Verif.Lemmas.Bytes
import Verif.Lemmas.Base
/-! # Lemmas about the nodelist index -/

namespace CM

/-- The keyword test in one expression. -/
def entryKind (s : Str) : Option (EntryKind × UInt16) :=
  if isKey s b!"Zone," then some (.zone, numAt s 5)
  else if isKey s b!"Region," then some (.region, numAt s 7)
  else if isKey s b!"Host," then some (.host, numAt s 5)
  else if isKey s b!"Hub," then some (.hub, numAt s 4)
  else if isKey s b!"Pvt," then some (.node, numAt s 4)
  else if isKey s b!"Hold," then some (.node, numAt s 5)
  else if isKey s b!"," then some (.node, numAt s 1)
  else if isKey s b!"Point," then some (.point, numAt s 6)
  else none

/-- What an entry does to the current address. -/
def applyEntry (i : NlIdx) : EntryKind → UInt16 → NlIdx
  | .zone, v => { i with zone := v, region := 0, net := v, hub := 0, node := 0, point := 0 }
  | .region, v => { i with region := v, net := v, hub := 0, node := 0, point := 0 }
  | .host, v => { i with net := v, hub := 0, node := 0, point := 0 }
  | .hub, v => { i with hub := v, node := v, point := 0 }
  | .node, v => { i with node := v, point := 0 }
  | .point, v => { i with point := v }

theorem isKey_iff (s w : Str) : isKey s w = true ↔ (s.take w.length).map lower = w.map lower := by
  simp [isKey, eqin]

theorem isKey_excl (s a b : Str) (h : (a.take (min a.length b.length)).map lower ≠ (b.take (min a.length b.length)).map lower)
    (ha : isKey s a = true) : isKey s b = false := by
  rw [← Bool.not_eq_true]
  intro hb
  rw [isKey_iff] at ha hb
  apply h
  have e1 := congrArg (List.take (min a.length b.length)) ha
  have e2 := congrArg (List.take (min a.length b.length)) hb
  rw [← List.map_take, ← List.map_take, List.take_take] at e1 e2
  rw [show min (min a.length b.length) a.length = min a.length b.length by omega] at e1
  rw [show min (min a.length b.length) b.length = min a.length b.length by omega] at e2
  rw [← e1, ← e2]

theorem nlLine_eq (i : NlIdx) (s : Str) : nlLine i s =
    match entryKind s with
    | none => (i, [])
    | some (k, v) => (applyEntry i k v, [applyEntry i k v]) := by
  unfold entryKind nlLine
  by_cases h1 : isKey s b!"Zone," = true
  · have e1 := isKey_excl s _ b!"Region," (by decide) h1
    have e2 := isKey_excl s _ b!"Host," (by decide) h1
    have e3 := isKey_excl s _ b!"Hub," (by decide) h1
    have e4 := isKey_excl s _ b!"Pvt," (by decide) h1
    have e5 := isKey_excl s _ b!"Hold," (by decide) h1
    have e6 := isKey_excl s _ b!"," (by decide) h1
    have e7 := isKey_excl s _ b!"Point," (by decide) h1
    simp [h1, e1, e2, e3, e4, e5, e6, e7, applyEntry]
  by_cases h2 : isKey s b!"Region," = true
  · have e2 := isKey_excl s _ b!"Host," (by decide) h2
    have e3 := isKey_excl s _ b!"Hub," (by decide) h2
    have e4 := isKey_excl s _ b!"Pvt," (by decide) h2
    have e5 := isKey_excl s _ b!"Hold," (by decide) h2
    have e6 := isKey_excl s _ b!"," (by decide) h2
    have e7 := isKey_excl s _ b!"Point," (by decide) h2
    simp [h1, h2, e2, e3, e4, e5, e6, e7, applyEntry]
  by_cases h3 : isKey s b!"Host," = true
  · have e3 := isKey_excl s _ b!"Hub," (by decide) h3
    have e4 := isKey_excl s _ b!"Pvt," (by decide) h3
    have e5 := isKey_excl s _ b!"Hold," (by decide) h3
    have e6 := isKey_excl s _ b!"," (by decide) h3
    have e7 := isKey_excl s _ b!"Point," (by decide) h3
    simp [h1, h2, h3, e3, e4, e5, e6, e7, applyEntry]
  by_cases h4 : isKey s b!"Hub," = true
  · have e4 := isKey_excl s _ b!"Pvt," (by decide) h4
    have e5 := isKey_excl s _ b!"Hold," (by decide) h4
    have e6 := isKey_excl s _ b!"," (by decide) h4
    have e7 := isKey_excl s _ b!"Point," (by decide) h4
    simp [h1, h2, h3, h4, e4, e5, e6, e7, applyEntry]
  by_cases h5 : isKey s b!"Pvt," = true
  · have e5 := isKey_excl s _ b!"Hold," (by decide) h5
    have e6 := isKey_excl s _ b!"," (by decide) h5
    have e7 := isKey_excl s _ b!"Point," (by decide) h5
    simp [h1, h2, h3, h4, h5, e5, e6, e7, applyEntry]
  by_cases h6 : isKey s b!"Hold," = true
  · have e6 := isKey_excl s _ b!"," (by decide) h6
    have e7 := isKey_excl s _ b!"Point," (by decide) h6
    simp [h1, h2, h3, h4, h5, h6, e6, e7, applyEntry]
  by_cases h7 : isKey s b!"," = true
  · have e7 := isKey_excl s _ b!"Point," (by decide) h7
    simp [h1, h2, h3, h4, h5, h6, h7, e7, applyEntry]
  by_cases h8 : isKey s b!"Point," = true
  · simp [h1, h2, h3, h4, h5, h6, h7, h8, applyEntry]
  · simp [h1, h2, h3, h4, h5, h6, h7, h8]

theorem isKey_word (s w : Str) (lw : Str) (hl : lw = w.map lower) :
    isKey s (w ++ [44]) = true ↔ ∃ w' r, w'.map lower = lw ∧ s = w' ++ 44 :: r ∧ s.drop (w ++ [44]).length = r := by
  subst hl
  have comma : ∀ c : UInt8, lower c = 44 → c = 44 := by decide +kernel
  rw [isKey_iff]
  constructor
  · intro h
    have hlen : w.length + 1 ≤ s.length := by
      have := congrArg List.length h
      simp at this
      omega
    refine ⟨s.take w.length, s.drop (w.length + 1), ?_, ?_, by simp⟩
    · have := congrArg (List.take w.length) h
      rw [← List.map_take, ← List.map_take, List.take_take] at this
      simpa using this
    · have h2 := congrArg (fun l => l[w.length]?) h
      simp only [List.map_append, List.getElem?_map, List.length_append, List.length_cons, List.length_nil, Nat.zero_add] at h2
      rw [List.getElem?_take, if_pos (by omega), List.getElem?_eq_getElem (by omega)] at h2
      simp only [Option.map_some, List.map_cons, List.map_nil] at h2
      rw [List.getElem?_append_right (by simp)] at h2
      simp only [List.length_map, Nat.sub_self, List.getElem?_cons_zero, Option.some.injEq] at h2
      have h3 : s[w.length] = 44 := comma _ (by rw [h2]; decide)
      have h4 : s = s.take w.length ++ s.drop w.length := (List.take_append_drop ..).symm
      rw [List.drop_eq_getElem_cons (by omega), h3] at h4
      exact h4
  · rintro ⟨w', r, h1, h2, _⟩
    have : w'.length = w.length := by simpa using congrArg List.length h1
    subst h2
    have e1 : List.length (w ++ [44]) = List.length (w' ++ [44]) := by simp [this]
    have e2 : w' ++ 44 :: r = (w' ++ [44]) ++ r := by simp
    rw [e1, e2, List.take_left]
    simp [h1]

theorem entryKind_iff (s : Str) (k : EntryKind) (v : UInt16) : entryKind s = some (k, v) ↔ IsEntry s k v := by
  have a1 := isKey_word s b!"Zone" b!"zone" (by decide)
  have a2 := isKey_word s b!"Region" b!"region" (by decide)
  have a3 := isKey_word s b!"Host" b!"host" (by decide)
  have a4 := isKey_word s b!"Hub" b!"hub" (by decide)
  have a5 := isKey_word s b!"Pvt" b!"pvt" (by decide)
  have a6 := isKey_word s b!"Hold" b!"hold" (by decide)
  have a7 := isKey_word s b!"" b!"" (by decide)
  have a8 := isKey_word s b!"Point" b!"point" (by decide)
  simp only [List.cons_append, List.nil_append] at a1 a2 a3 a4 a5 a6 a7 a8
  constructor
  · intro h
    unfold entryKind at h
    split at h
    · next c =>
      obtain ⟨w', r, e1, e2, e3⟩ := a1.1 c
      simp only [Option.some.injEq, Prod.mk.injEq] at h
      obtain ⟨rfl, rfl⟩ := h
      exact ⟨b!"zone", w', r, by simp [entryWords], e1, e2, by rw [numAt, ← e3]; rfl⟩
    split at h
    · next c =>
      obtain ⟨w', r, e1, e2, e3⟩ := a2.1 c
      simp only [Option.some.injEq, Prod.mk.injEq] at h
      obtain ⟨rfl, rfl⟩ := h
      exact ⟨b!"region", w', r, by simp [entryWords], e1, e2, by rw [numAt, ← e3]; rfl⟩
    split at h
    · next c =>
      obtain ⟨w', r, e1, e2, e3⟩ := a3.1 c
      simp only [Option.some.injEq, Prod.mk.injEq] at h
      obtain ⟨rfl, rfl⟩ := h
      exact ⟨b!"host", w', r, by simp [entryWords], e1, e2, by rw [numAt, ← e3]; rfl⟩
    split at h
    · next c =>
      obtain ⟨w', r, e1, e2, e3⟩ := a4.1 c
      simp only [Option.some.injEq, Prod.mk.injEq] at h
      obtain ⟨rfl, rfl⟩ := h
      exact ⟨b!"hub", w', r, by simp [entryWords], e1, e2, by rw [numAt, ← e3]; rfl⟩
    split at h
    · next c =>
      obtain ⟨w', r, e1, e2, e3⟩ := a5.1 c
      simp only [Option.some.injEq, Prod.mk.injEq] at h
      obtain ⟨rfl, rfl⟩ := h
      exact ⟨b!"pvt", w', r, by simp [entryWords], e1, e2, by rw [numAt, ← e3]; rfl⟩
    split at h
    · next c =>
      obtain ⟨w', r, e1, e2, e3⟩ := a6.1 c
      simp only [Option.some.injEq, Prod.mk.injEq] at h
      obtain ⟨rfl, rfl⟩ := h
      exact ⟨b!"hold", w', r, by simp [entryWords], e1, e2, by rw [numAt, ← e3]; rfl⟩
    split at h
    · next c =>
      obtain ⟨w', r, e1, e2, e3⟩ := a7.1 c
      simp only [Option.some.injEq, Prod.mk.injEq] at h
      obtain ⟨rfl, rfl⟩ := h
      exact ⟨b!"", w', r, by simp [entryWords], e1, e2, by rw [numAt, ← e3]; rfl⟩
    split at h
    · next c =>
      obtain ⟨w', r, e1, e2, e3⟩ := a8.1 c
      simp only [Option.some.injEq, Prod.mk.injEq] at h
      obtain ⟨rfl, rfl⟩ := h
      exact ⟨b!"point", w', r, by simp [entryWords], e1, e2, by rw [numAt, ← e3]; rfl⟩
    · cases h
  · rintro ⟨w, w', r, hw, h1, h2, h3⟩
    have num : ∀ n, w'.length + 1 = n → v = numAt s n := by
      intro n hn
      rw [h3, numAt, h2, ← hn, ← List.drop_drop, List.drop_left, List.drop_one, List.tail_cons]
    have wl : w'.length = w.length := by rw [← h1, List.length_map]
    have dr : ∀ n, w'.length + 1 = n → s.drop n = r := by
      intro n hn
      rw [h2, ← hn, ← List.drop_drop, List.drop_left, List.drop_one, List.tail_cons]
    simp only [entryWords, List.mem_cons, Prod.mk.injEq, List.not_mem_nil, or_false] at hw
    unfold entryKind
    rcases hw with ⟨rfl, rfl⟩ | ⟨rfl, rfl⟩ | ⟨rfl, rfl⟩ | ⟨rfl, rfl⟩ | ⟨rfl, rfl⟩ | ⟨rfl, rfl⟩ | ⟨rfl, rfl⟩ | ⟨rfl, rfl⟩
    · have k1 := a1.2 ⟨w', r, h1, h2, dr _ (by simp [wl])⟩
      rw [if_pos k1, ← num 5 (by simp [wl])]
    · have k := a2.2 ⟨w', r, h1, h2, dr _ (by simp [wl])⟩
      rw [if_neg (by simp [isKey_excl s _ b!"Zone," (by decide) k]), if_pos k, ← num 7 (by simp [wl])]
    · have k := a3.2 ⟨w', r, h1, h2, dr _ (by simp [wl])⟩
      rw [if_neg (by simp [isKey_excl s _ b!"Zone," (by decide) k]),
        if_neg (by simp [isKey_excl s _ b!"Region," (by decide) k]), if_pos k, ← num 5 (by simp [wl])]
    · have k := a4.2 ⟨w', r, h1, h2, dr _ (by simp [wl])⟩
      rw [if_neg (by simp [isKey_excl s _ b!"Zone," (by decide) k]),
        if_neg (by simp [isKey_excl s _ b!"Region," (by decide) k]),
        if_neg (by simp [isKey_excl s _ b!"Host," (by decide) k]), if_pos k, ← num 4 (by simp [wl])]
    · have k := a5.2 ⟨w', r, h1, h2, dr _ (by simp [wl])⟩
      rw [if_neg (by simp [isKey_excl s _ b!"Zone," (by decide) k]),
        if_neg (by simp [isKey_excl s _ b!"Region," (by decide) k]),
        if_neg (by simp [isKey_excl s _ b!"Host," (by decide) k]),
        if_neg (by simp [isKey_excl s _ b!"Hub," (by decide) k]), if_pos k, ← num 4 (by simp [wl])]
    · have k := a6.2 ⟨w', r, h1, h2, dr _ (by simp [wl])⟩
      rw [if_neg (by simp [isKey_excl s _ b!"Zone," (by decide) k]),
        if_neg (by simp [isKey_excl s _ b!"Region," (by decide) k]),
        if_neg (by simp [isKey_excl s _ b!"Host," (by decide) k]),
        if_neg (by simp [isKey_excl s _ b!"Hub," (by decide) k]),
        if_neg (by simp [isKey_excl s _ b!"Pvt," (by decide) k]), if_pos k, ← num 5 (by simp [wl])]
    · have k := a7.2 ⟨w', r, h1, h2, dr _ (by simp [wl])⟩
      rw [if_neg (by simp [isKey_excl s _ b!"Zone," (by decide) k]),
        if_neg (by simp [isKey_excl s _ b!"Region," (by decide) k]),
        if_neg (by simp [isKey_excl s _ b!"Host," (by decide) k]),
        if_neg (by simp [isKey_excl s _ b!"Hub," (by decide) k]),
        if_neg (by simp [isKey_excl s _ b!"Pvt," (by decide) k]),
        if_neg (by simp [isKey_excl s _ b!"Hold," (by decide) k]), if_pos k, ← num 1 (by simp [wl])]
    · have k := a8.2 ⟨w', r, h1, h2, dr _ (by simp [wl])⟩
      rw [if_neg (by simp [isKey_excl s _ b!"Zone," (by decide) k]),
        if_neg (by simp [isKey_excl s _ b!"Region," (by decide) k]),
        if_neg (by simp [isKey_excl s _ b!"Host," (by decide) k]),
        if_neg (by simp [isKey_excl s _ b!"Hub," (by decide) k]),
        if_neg (by simp [isKey_excl s _ b!"Pvt," (by decide) k]),
        if_neg (by simp [isKey_excl s _ b!"Hold," (by decide) k]),
        if_neg (by simp [isKey_excl s _ b!"," (by decide) k]), if_pos k, ← num 6 (by simp [wl])]

theorem entryKind_none (s : Str) : entryKind s = none ↔ ¬ ∃ k v, IsEntry s k v := by
  cases h : entryKind s with
  | none =>
    simp only [true_iff]
    rintro ⟨k, v, hk⟩
    rw [← entryKind_iff, h] at hk
    cases hk
  | some p =>
    obtain ⟨k, v⟩ := p
    simp only [reduceCtorEq, false_iff, Classical.not_not]
    exact ⟨k, v, (entryKind_iff ..).1 h⟩

/-- A trailing white-space character does not change a number. -/
theorem atoi_space (r : Str) (c : UInt8) (hs : isSpace c = true) : atoi (r ++ [c]) = atoi r := by
  have hd : isDigit c = false := by
    have : ∀ c : UInt8, isSpace c = true → isDigit c = false := by decide +kernel
    exact this c hs
  have tw : ∀ x : Str, (x ++ [c]).takeWhile isDigit = x.takeWhile isDigit := by
    intro x
    rw [List.takeWhile_append]
    split
    · next h =>
      have : List.takeWhile isDigit [c] = [] := by simp [hd]
      rw [this, List.append_nil]
      have h2 := List.takeWhile_append_dropWhile (p := isDigit) (l := x)
      have h3 : (x.dropWhile isDigit).length = 0 := by
        have := congrArg List.length h2
        rw [List.length_append] at this
        omega
      rw [List.length_eq_zero_iff.1 h3, List.append_nil] at h2
      exact h2.symm
    · rfl
  unfold atoi
  rw [List.dropWhile_append]
  split
  · next h =>
    simp only [List.isEmpty_iff] at h
    rw [h]
    simp [hs]
  · next h =>
    cases e : r.dropWhile isSpace with
    | nil => rw [e] at h; simp at h
    | cons a t =>
      dsimp only
      rw [List.cons_append]
      by_cases h45 : a = 45
      · subst h45; simp only; rw [tw]
      · by_cases h43 : a = 43
        · subst h43; simp only; rw [tw]
        · split
          · next e => injection e with e _; exact absurd e h45
          · next e => injection e with e _; exact absurd e h43
          · split
            · next e => injection e with e _; exact absurd e h45
            · next e => injection e with e _; exact absurd e h43
            · rw [← List.cons_append, tw]

theorem isEntry_trail (x : Str) (c : UInt8) (hs : isSpace c = true) (k : EntryKind) (v : UInt16) :
    IsEntry (x ++ [c]) k v ↔ IsEntry x k v := by
  constructor
  · rintro ⟨w, w', r, h1, h2, h3, h4⟩
    rcases List.eq_nil_or_concat r with rfl | ⟨r', d, rfl⟩
    · have := List.append_inj' h3 rfl
      have e : c = 44 := by simpa using this.2
      subst e; exact absurd hs (by decide)
    · rw [List.concat_eq_append] at *
      have e : x ++ [c] = (w' ++ 44 :: r') ++ [d] := by simpa using h3
      have := List.append_inj' e rfl
      have hd : d = c := by simpa using this.2.symm
      subst hd
      exact ⟨w, w', r', h1, h2, this.1, by rw [h4, atoi_space _ _ hs]⟩
  · rintro ⟨w, w', r, h1, h2, h3, h4⟩
    exact ⟨w, w', r ++ [c], h1, h2, by simp [h3], by rw [h4, atoi_space _ _ hs]⟩

theorem entryKind_trail (x : Str) (c : UInt8) (hs : isSpace c = true) : entryKind (x ++ [c]) = entryKind x := by
  cases h : entryKind x with
  | none =>
    rw [entryKind_none] at h ⊢
    rintro ⟨k, v, hk⟩
    exact h ⟨k, v, (isEntry_trail x c hs k v).1 hk⟩
  | some p =>
    obtain ⟨k, v⟩ := p
    rw [entryKind_iff] at h ⊢
    exact (isEntry_trail x c hs k v).2 h

/-- The latest value as a fold. -/
def latestF (says : EntryKind → UInt16 → Option UInt16) (d : UInt16) (ls : List Str) : UInt16 :=
  ls.foldl (fun x l => match entryKind l with
    | none => x
    | some (k, v) => (says k v).getD x) d

theorem latest_eq (says : EntryKind → UInt16 → Option UInt16) (d : UInt16) (ls : List Str) (x : UInt16)
    (h : Latest says d ls x) : x = latestF says d ls := by
  induction h with
  | none => rfl
  | says h1 h2 =>
    rw [← entryKind_iff] at h1
    simp [latestF, List.foldl_append, h1, h2]
  | silent h1 h2 _ ih =>
    rw [← entryKind_iff] at h1
    rw [latestF] at ih
    simp [latestF, List.foldl_append, h1, h2, ih]
  | other h1 _ ih =>
    rw [← entryKind_none] at h1
    rw [latestF] at ih
    simp [latestF, List.foldl_append, h1, ih]

theorem latest_of (says : EntryKind → UInt16 → Option UInt16) (d : UInt16) (ls : List Str) :
    Latest says d ls (latestF says d ls) := by
  induction ls using snocInd with
  | nil => exact .none
  | snoc ls l ih =>
    have e : latestF says d (ls ++ [l]) = match entryKind l with
        | none => latestF says d ls
        | some (k, v) => (says k v).getD (latestF says d ls) := by
      simp only [latestF, List.foldl_append, List.foldl_cons, List.foldl_nil]
    rw [e]
    cases h : entryKind l with
    | none => exact .other ((entryKind_none l).1 h) ih
    | some p =>
      obtain ⟨k, v⟩ := p
      rw [entryKind_iff] at h
      dsimp only
      cases h2 : says k v with
      | none => exact .silent h h2 ih
      | some x => exact .says h h2

theorem latest_iff (says : EntryKind → UInt16 → Option UInt16) (d : UInt16) (ls : List Str) (x : UInt16) :
    Latest says d ls x ↔ x = latestF says d ls :=
  ⟨latest_eq says d ls x, fun h => h ▸ latest_of says d ls⟩

theorem latestF_snoc (says : EntryKind → UInt16 → Option UInt16) (d : UInt16) (ls : List Str) (l : Str) :
    latestF says d (ls ++ [l]) = match entryKind l with
        | none => latestF says d ls
        | some (k, v) => (says k v).getD (latestF says d ls) := by
  simp only [latestF, List.foldl_append, List.foldl_cons, List.foldl_nil]

/-! ## Lines -/

/-- A line that fits the buffer. -/
structure NlText (l : Str) : Prop where
  noNul : NoNul l
  noLf : (10 : UInt8) ∉ l
  short : l.length ≤ 498

theorem fgetsRaw_line (l r : List UInt8) (n : Nat) (h : (10 : UInt8) ∉ l) (hn : l.length < n) :
    fgetsRaw n (l ++ 10 :: r) = (l ++ [10], r) := by
  induction l generalizing n with
  | nil =>
    obtain ⟨m, rfl⟩ : ∃ m, n = m + 1 := ⟨n - 1, by simp at hn; omega⟩
    simp [fgetsRaw]
  | cons a t ih =>
    obtain ⟨m, rfl⟩ : ∃ m, n = m + 1 := ⟨n - 1, by simp at hn; omega⟩
    simp only [List.mem_cons, not_or] at h
    simp only [List.length_cons, Nat.add_lt_add_iff_right] at hn
    rw [List.cons_append, fgetsRaw, if_neg (by simpa using Ne.symm h.1), ih m h.2 hn]
    rfl

theorem fgetsRaw_last (l : List UInt8) (n : Nat) (h : (10 : UInt8) ∉ l) (hn : l.length ≤ n) :
    fgetsRaw n l = (l, []) := by
  induction l generalizing n with
  | nil => cases n <;> rfl
  | cons a t ih =>
    obtain ⟨m, rfl⟩ : ∃ m, n = m + 1 := ⟨n - 1, by simp at hn; omega⟩
    simp only [List.mem_cons, not_or] at h
    simp only [List.length_cons, Nat.add_le_add_iff_right] at hn
    rw [fgetsRaw, if_neg (by simpa using Ne.symm h.1), ih m h.2 hn]

theorem cstr_all (t : List UInt8) (h : NoNul t) : cstr t = t := by
  have := List.takeWhile_append_of_pos (p := fun c : UInt8 => c != 0) (l₁ := t) (l₂ := []) (by
    intro c hc
    simp only [bne_iff_ne, ne_eq]
    rintro rfl
    exact h hc)
  rw [List.takeWhile_nil, List.append_nil] at this
  exact this

/-- What the buffer holds after a line was read: the line without CR at its end, and LF. -/
theorem fixCrLf_lf (l : Str) : fixCrLf (l ++ [10]) = (if l.getLast? = some 13 then l.dropLast else l) ++ [10] := by
  unfold fixCrLf
  rw [List.getLast?_concat, List.dropLast_concat]
  by_cases h : l.getLast? = some 13
  · rw [if_pos h, if_pos]
    refine ⟨?_, rfl, h⟩
    cases l with
    | nil => simp at h
    | cons a t => simp
  · rw [if_neg h, if_neg (by simp [h])]

theorem fixCrLf_last (l : Str) (h : (10 : UInt8) ∉ l) : fixCrLf l = l := by
  unfold fixCrLf
  rw [if_neg]
  rintro ⟨_, h2, _⟩
  exact h (List.mem_of_getLast? h2)

theorem entryKind_fix (l : Str) : entryKind ((if l.getLast? = some 13 then l.dropLast else l) ++ [10]) = entryKind l := by
  rw [entryKind_trail _ _ (by decide)]
  split
  · next h =>
    obtain ⟨t, rfl⟩ := List.getLast?_eq_some_iff.1 h
    rw [List.dropLast_concat, entryKind_trail _ _ (by decide)]
  · rfl

theorem osFGets_line (l r : List UInt8) (n : Nat) (h : NlText l) (hn : l.length + 1 < n) :
    osFGets n (l ++ 10 :: r) = some ((if l.getLast? = some 13 then l.dropLast else l) ++ [10], r) := by
  unfold osFGets
  rw [if_neg (by simp), fgetsRaw_line l r _ h.noLf (by omega)]
  dsimp only
  have hn : NoNul (l ++ [10]) := by
    have := h.noNul
    simp only [NoNul, List.mem_append, not_or]
    exact ⟨this, by decide⟩
  rw [cstr_all _ hn, fixCrLf_lf]

theorem osFGets_last (l : List UInt8) (n : Nat) (h : NlText l) (he : l ≠ []) (hn : l.length < n) :
    osFGets n l = some (l, []) := by
  unfold osFGets
  rw [if_neg he, fgetsRaw_last l _ h.noLf (by omega)]
  dsimp only
  rw [cstr_all _ h.noNul, fixCrLf_last _ h.noLf]

end CM
