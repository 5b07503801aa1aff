import Verif.Model.ListDisk
import Verif.Lemmas.Disk
import Verif.Props.CrashList

/-! # The nodelist while CrashList writes the index (C126) -/

set_option linter.unusedSimpArgs false

namespace CM

theorem scan_prefix (node : Node4D) : ∀ (m n : Nat) (f' f : List UInt8), m ≤ n → f' <+: f →
    nlScan m node f' = .eof ∨ (∃ i, nlScan m node f' = .found i ∧ nlScan n node f = .found i) ∨
      ∃ r' r, nlScan m node f' = .listEnd r' ∧ nlScan n node f = .listEnd r ∧ r' <+: r := by
  intro m
  induction m with
  | zero => intro n f' f _ _; exact .inl rfl
  | succ m ih =>
    intro n f' f hmn hp
    obtain ⟨n, rfl⟩ : ∃ k, n = k + 1 := ⟨n - 1, by omega⟩
    obtain ⟨t, rfl⟩ := hp
    by_cases hl : f'.length < 16
    · left
      rw [nlScan, if_pos hl]
    · have hlen : ¬ (f' ++ t).length < 16 := by rw [List.length_append]; omega
      have e1 : (f' ++ t).take 16 = f'.take 16 := List.take_append_of_le_length (by omega)
      have e2 : (f' ++ t).drop 16 = f'.drop 16 ++ t := List.drop_append_of_le_length (by omega)
      have h1 : nlScan (m + 1) node f' = if idxIs node (parseIdx (f'.take 16)) then .found (parseIdx (f'.take 16))
          else if (parseIdx (f'.take 16)).offset = 0xffffffff then .listEnd (f'.drop 16) else nlScan m node (f'.drop 16) := by
        rw [nlScan, if_neg hl]
      have h2 : nlScan (n + 1) node (f' ++ t) = if idxIs node (parseIdx (f'.take 16)) then .found (parseIdx (f'.take 16))
          else if (parseIdx (f'.take 16)).offset = 0xffffffff then .listEnd (f'.drop 16 ++ t) else nlScan n node (f'.drop 16 ++ t) := by
        rw [nlScan, if_neg hlen, e1, e2]
      rw [h1, h2]
      by_cases hi : idxIs node (parseIdx (f'.take 16)) = true
      · rw [if_pos hi, if_pos hi]
        exact .inr (.inl ⟨_, rfl, rfl⟩)
      · rw [if_neg hi, if_neg hi]
        by_cases ho : (parseIdx (f'.take 16)).offset = 0xffffffff
        · rw [if_pos ho, if_pos ho]
          exact .inr (.inr ⟨_, _, rfl, rfl, List.prefix_append _ _⟩)
        · rw [if_neg ho, if_neg ho]
          exact ih n _ _ (by omega) (List.prefix_append _ _)

theorem search_prefix (node : Node4D) : ∀ (m n : Nat) (f' f : List UInt8), m ≤ n → f' <+: f →
    nlSearch m node f' = .notFound ∨ nlSearch m node f' = .unexpectedEof ∨ nlSearch m node f' = nlSearch n node f := by
  intro m
  induction m with
  | zero => intro n f' f _ _; exact .inl rfl
  | succ m ih =>
    intro n f' f hmn hp
    obtain ⟨n, rfl⟩ : ∃ k, n = k + 1 := ⟨n - 1, by omega⟩
    obtain ⟨t, rfl⟩ := hp
    by_cases hl : f'.length < 100
    · left
      rw [nlSearch, if_pos hl]
    · have hlen : ¬ (f' ++ t).length < 100 := by rw [List.length_append]; omega
      have e1 : (f' ++ t).take 100 = f'.take 100 := List.take_append_of_le_length (by omega)
      have e2 : (f' ++ t).drop 100 = f'.drop 100 ++ t := List.drop_append_of_le_length (by omega)
      rw [nlSearch, if_neg hl, nlSearch, if_neg hlen, e1, e2]
      rcases scan_prefix node f'.length (f' ++ t).length (f'.drop 100) (f'.drop 100 ++ t) (by rw [List.length_append]; omega) (List.prefix_append _ _) with
        h | ⟨i, h, h'⟩ | ⟨r', r, h, h', hr⟩
      · rw [h]; exact .inr (.inl rfl)
      · rw [h, h']; exact .inr (.inr rfl)
      · rw [h, h']
        exact ih n r' r (by omega) hr

/-- **C126.** A lookup in a part of an index, whatever the index, finds what a lookup in the whole index finds, or nothing. -/
theorem part_right (node : Node4D) {part index : List UInt8} (h : part <+: index) :
    findNL part node = findNL index node ∨ findNL part node = .notFound ∨ findNL part node = .unexpectedEof := by
  have hp : part.drop 4 <+: index.drop 4 := by
    obtain ⟨t, rfl⟩ := h
    rw [List.drop_append]
    exact List.prefix_append _ _
  rcases search_prefix node (part.length + 1) (index.length + 1) _ _ (by have := h.length_le; omega) hp with h | h | h
  · exact .inr (.inl h)
  · exact .inr (.inr h)
  · exact .inl h

/-- What the disk is like while the index is made: all other files are as before, and the index is the old one or a part of the new one. -/
def IndexGrows (path : Str) (index : List UInt8) (fs gs : FS) : Prop :=
  (∀ g, g ≠ path → gs g = fs g) ∧ (gs path = fs path ∨ ∃ part, gs path = some part ∧ part <+: index)

/-- **C126.** At every moment of a run of CrashList, if writing does not fail: no file but the index is changed, the index is the old one or
a part of the new one, and if the program succeeds it is the new one. -/
theorem index_grows (w : World) (hw : ¬ w.writeFails) (d : ClDisk) (dir : Str) (stale : Nat → List UInt8) (fs : FS) :
    ((crashListMain d dir stale true).1 = none → clProg d dir stale = .ret false) ∧
    ∀ index, (crashListMain d dir stale true).1 = some index →
      Through w (IndexGrows (makeFullPath dir b!"cmnodelist.index" 200) index fs)
        (fun ok gs => if ok then gs = fs.put (makeFullPath dir b!"cmnodelist.index" 200) (some index) else w.openFails ∧ gs = fs) (clProg d dir stale) fs := by
  refine ⟨fun h => by unfold clProg; rw [h], fun index h => ?_⟩
  unfold clProg
  rw [h]
  dsimp only
  generalize makeFullPath dir b!"cmnodelist.index" 200 = path
  have hov : ∀ x : Data, overlay (opened fs path .new).1 (opened fs path .new).2 x = x := by intro x; simp [opened, overlay]
  have hg : ∀ part, part <+: index → IndexGrows path index fs (fs.put path (some part)) :=
    fun part hp => ⟨fun g hne => FS.put_ne _ hne _, .inr ⟨part, FS.put_self _ _ _, hp⟩⟩
  have h0 : IndexGrows path index fs fs := ⟨fun _ _ => rfl, .inl rfl⟩
  refine .write h0 ?_ ?_ (fun hf => absurd hf hw) ?_
  · intro d' t' e
    rw [hov]
    exact hg d' ⟨t', e.symm⟩
  · rw [hov]
    exact .ret (hg _ (List.prefix_refl _)) (by simp)
  · intro ho
    exact .ret h0 ⟨ho, rfl⟩

/-- **C126.** While CrashList makes the index from nodelists, what is found in it is right: a node that is found is in a nodelist, with the
hub and region of the finished index. -/
theorem part_says (fs : List TextList) (hf : ∀ f ∈ fs, f.Ok) (node : Node4D) (hn : node ≠ ⟨0, 0, 0, 0⟩) {part : List UInt8}
    (hp : part <+: crashList (fs.map TextList.file)) (h : nlCheckNode part node = true) :
    (∃ f k e, f ∈ fs ∧ EntryAt f.zone f.lines k e ∧ e.addr = node) ∧
    nlGetHub part node = nlGetHub (crashList (fs.map TextList.file)) node ∧ nlGetRegion part node = nlGetRegion (crashList (fs.map TextList.file)) node := by
  have hq := nodelist_queries fs hf node hn
  rcases part_right node hp with e | e | e
  · refine ⟨hq.1.1 ?_, ?_, ?_⟩
    · unfold nlCheckNode at h ⊢; rw [e] at h; exact h
    · unfold nlGetHub; rw [e]
    · unfold nlGetRegion; rw [e]
  · unfold nlCheckNode at h; rw [e] at h; cases h
  · unfold nlCheckNode at h; rw [e] at h; cases h

/-- **C126 (violated).** For every run that makes an index there is a moment at which the index is accepted but has no nodes, even if the
old index and all nodelists have them; and if the program is stopped then, this remains so. -/
theorem no_nodes_yet (w : World) (d : ClDisk) (dir : Str) (stale : Nat → List UInt8) (fs : FS) (index : List UInt8)
    (h : (crashListMain d dir stale true).1 = some index) :
    ∃ p part, Reach w (clProg d dir stale) fs p (fs.put (makeFullPath dir b!"cmnodelist.index" 200) (some part)) ∧
      openNL part = true ∧ ∀ node, nlCheckNode part node = false := by
  have hi : ∃ r, index = b!"CNL1" ++ r := by
    unfold crashListMain at h
    cases hc : d.content (makeFullPath dir b!"cmnodelist.prefs" 200) with
    | none => rw [hc] at h; cases h
    | some f =>
      rw [hc] at h
      simp only [Bool.not_true, Bool.false_eq_true, if_false, Option.some.injEq] at h
      exact ⟨_, h.symm⟩
  obtain ⟨r, rfl⟩ := hi
  unfold clProg
  rw [h]
  dsimp only
  generalize makeFullPath dir b!"cmnodelist.index" 200 = path
  refine ⟨.writing path [] 0 b!"CNL1" r fun x => .ret (some x).isSome, b!"CNL1", ?_, rfl, fun node => rfl⟩
  refine .step (.openOk _ _ _ _ _) ?_
  refine .step (.byte _ _ _ _ _ _ _ _) ?_
  refine .step (.byte _ _ _ _ _ _ _ _) ?_
  refine .step (.byte _ _ _ _ _ _ _ _) ?_
  refine .step (.byte _ _ _ _ _ _ _ _) ?_
  simp only [FS.put_put]
  exact .here _ _

namespace Ex

/-- The index of the example while it is made: after 140 bytes the zone coordinator is found and the node is not. -/
theorem half_index : nlCheckNode ((crashList [nodelist.file]).take 140) ⟨2, 2, 0, 0⟩ = true ∧
    nlCheckNode ((crashList [nodelist.file]).take 140) ⟨2, 201, 332, 0⟩ = false ∧ nlCheckNode (crashList [nodelist.file]) ⟨2, 201, 332, 0⟩ = true := by
  decide +kernel

/-- The conditions of C126 are met: the lists of the example make an index. -/
theorem index_conditions : (crashListMain (listDisk listNames []) b!"nl" listStale true).1.isSome = true ∧
    (crashList [nodelist.file]).take 140 <+: crashList [nodelist.file] ∧ ∃ w : World, ¬ w.writeFails :=
  ⟨by decide +kernel, List.take_prefix _ _, ⟨{ writeFails := False }, id⟩⟩

end Ex

end CM
