import Verif.Lemmas.Nodelist
/-! # C49: the nodelist index -/

set_option linter.unusedSimpArgs false

namespace CM

/-- Lines joined by LF; the last one may lack it. -/
def joinLines (b : Bool) : List Str → List UInt8
  | [] => []
  | [l] => if b then l ++ [10] else l
  | l :: r => l ++ 10 :: joinLines b r

/-- A nodelist given by its lines. -/
structure TextList where
  name : Str
  stale : List UInt8
  zone : UInt16
  lines : List Str
  lastLf : Bool

/-- The file. -/
def TextList.file (t : TextList) : NlFile := ⟨t.name, t.stale, t.zone, joinLines t.lastLf t.lines⟩

/-- Nodelists CrashList can work with: a file name that fits its 100 bytes, lines of at most 498 bytes
without NUL, less than 4 GB. -/
structure TextList.Ok (t : TextList) : Prop where
  name : NoNul t.name ∧ t.name.length < 100
  stale : 99 ≤ t.name.length + t.stale.length
  lines : ∀ l ∈ t.lines, NlText l
  size : (joinLines t.lastLf t.lines).length < 4294967295

/-- The position of the line after `ls`. -/
def posAfter (ls : List Str) : Nat := (ls.map (fun l => l.length + 1)).sum

/-- The state of the program after the lines `pre`. -/
def nlState (zone : UInt16) (pre : List Str) : NlIdx :=
  { zone := latestF saysZone zone pre
    net := latestF saysNet 0 pre
    node := latestF saysNode 0 pre
    point := latestF saysPoint 0 pre
    region := latestF saysRegion 0 pre
    hub := latestF saysHub 0 pre
    offset := UInt32.ofNat (posAfter pre) }

/-- Numbered records of the lines `rem` that follow `pre`. -/
def nlRecords (zone : UInt16) : List Str → List Str → List (Nat × NlIdx)
  | _, [] => []
  | pre, l :: r =>
    (if (entryKind l).isSome then
      [(pre.length, { nlState zone (pre ++ [l]) with offset := UInt32.ofNat (posAfter pre) })] else []) ++
      nlRecords zone (pre ++ [l]) r

theorem nlLine_state (zone : UInt16) (pre : List Str) (l : Str) (o : UInt32) :
    ∀ s, entryKind s = entryKind l →
    nlLine { nlState zone pre with offset := o } s =
      ({ nlState zone (pre ++ [l]) with offset := o },
        if (entryKind l).isSome then [{ nlState zone (pre ++ [l]) with offset := o }] else []) := by
  intro s hs
  rw [nlLine_eq, hs]
  unfold nlState
  simp only [latestF_snoc]
  cases h : entryKind l with
  | none => rfl
  | some p =>
    obtain ⟨k, v⟩ := p
    cases k <;> rfl

theorem joinLines_cons (b : Bool) (l : Str) (r : List Str) (h : r ≠ [] ∨ b = true) :
    joinLines b (l :: r) = l ++ 10 :: joinLines b r := by
  cases r with
  | nil =>
    rcases h with h | h
    · exact absurd rfl h
    · subst h; rfl
  | cons a t => rfl

theorem nlLines_records (zone : UInt16) (b : Bool) (rem : List Str) (hl : ∀ l ∈ rem, NlText l) :
    ∀ (n size : Nat) (pre : List Str), rem.length ≤ n → size = posAfter pre + (joinLines b rem).length →
      nlLines n size (nlState zone pre) (joinLines b rem) = (nlRecords zone pre rem).map (·.2) := by
  induction rem with
  | nil =>
    intro n size pre hn _
    cases n <;> rfl
  | cons l r ih =>
    intro n size pre hn hsize
    obtain ⟨m, rfl⟩ : ∃ m, n = m + 1 := ⟨n - 1, by simp at hn; omega⟩
    have hl1 := hl l (List.mem_cons_self ..)
    have st : nlState zone pre = { nlState zone pre with offset := UInt32.ofNat (posAfter pre) } := rfl
    by_cases hc : r ≠ [] ∨ b = true
    · rw [joinLines_cons b l r hc] at hsize ⊢
      rw [nlLines, osFGets_line l _ 500 hl1 (by have := hl1.short; omega)]
      dsimp only
      rw [if_neg (by simp), st, nlLine_state zone pre l _ _ (entryKind_fix l)]
      dsimp only
      have e : UInt32.ofNat (size - (joinLines b r).length) = UInt32.ofNat (posAfter (pre ++ [l])) := by
        congr 1
        simp only [posAfter, List.map_append, List.sum_append, List.map_cons, List.map_nil, List.sum_cons, List.sum_nil]
        simp only [posAfter] at hsize
        rw [List.length_append, List.length_cons] at hsize
        omega
      rw [e]
      have st2 : { nlState zone (pre ++ [l]) with offset := UInt32.ofNat (posAfter (pre ++ [l])) } =
        nlState zone (pre ++ [l]) := rfl
      rw [st2, ih (fun x hx => hl x (List.mem_cons_of_mem _ hx)) m size (pre ++ [l]) (by simp at hn; omega) (by
        simp only [posAfter, List.map_append, List.sum_append, List.map_cons, List.map_nil, List.sum_cons, List.sum_nil]
        simp only [posAfter] at hsize
        rw [List.length_append, List.length_cons] at hsize
        omega)]
      rw [nlRecords, List.map_append]
      split <;> rfl
    · have hr : r = [] := Classical.byContradiction (fun h => hc (.inl h))
      have hb : b = false := by
        cases b with
        | false => rfl
        | true => exact absurd (.inr rfl) hc
      subst hr hb
      have e : joinLines false [l] = l := rfl
      rw [e] at hsize ⊢
      by_cases he : l = []
      · subst he
        rfl
      · rw [nlLines, osFGets_last l 500 hl1 he (by have := hl1.short; omega)]
        dsimp only
        rw [if_neg he, st, nlLine_state zone pre l _ _ rfl]
        dsimp only
        have : ∀ i, nlLines m size i [] = [] := by
          intro i
          cases m <;> rfl
        rw [this, nlRecords, nlRecords]
        split <;> rfl

theorem nlRecords_mem (zone : UInt16) (rem : List Str) : ∀ (pre : List Str) (k : Nat) (x : NlIdx),
    (k, x) ∈ nlRecords zone pre rem ↔ ∃ l, pre.length ≤ k ∧ rem[k - pre.length]? = some l ∧ (entryKind l).isSome ∧
      x = { nlState zone ((pre ++ rem).take (k + 1)) with offset := UInt32.ofNat (posAfter ((pre ++ rem).take k)) } := by
  induction rem with
  | nil =>
    intro pre k x
    simp [nlRecords]
  | cons a t ih =>
    intro pre k x
    rw [nlRecords, List.mem_append, ih]
    have e : pre ++ [a] ++ t = pre ++ a :: t := by simp
    rw [e]
    constructor
    · rintro (h | ⟨l, h1, h2, h3, h4⟩)
      · split at h
        · next hs =>
          simp only [List.mem_cons, Prod.mk.injEq, List.not_mem_nil, or_false] at h
          obtain ⟨rfl, rfl⟩ := h
          refine ⟨a, Nat.le_refl _, by simp, hs, ?_⟩
          rw [List.take_left, show pre ++ a :: t = (pre ++ [a]) ++ t by simp,
            show pre.length + 1 = (pre ++ [a]).length by simp, List.take_left]
        · simp at h
      · rw [List.length_append, List.length_cons, List.length_nil] at h1 h2
        refine ⟨l, by omega, ?_, h3, h4⟩
        rw [show k - pre.length = (k - (pre.length + (0 + 1))) + 1 by omega, List.getElem?_cons_succ]
        exact h2
    · rintro ⟨l, h1, h2, h3, h4⟩
      by_cases hk : k = pre.length
      · left
        subst hk
        simp only [Nat.sub_self, List.getElem?_cons_zero, Option.some.injEq] at h2
        subst h2
        rw [if_pos h3]
        simp only [List.mem_cons, Prod.mk.injEq, true_and, List.not_mem_nil, or_false]
        rw [h4, List.take_left, show pre ++ a :: t = (pre ++ [a]) ++ t by simp,
            show pre.length + 1 = (pre ++ [a]).length by simp, List.take_left]
      · right
        refine ⟨l, by simp; omega, ?_, h3, h4⟩
        rw [show k - pre.length = (k - (pre.length + 1)) + 1 by omega, List.getElem?_cons_succ] at h2
        simpa using h2

theorem nlRecords_sorted (zone : UInt16) (rem : List Str) : ∀ pre : List Str,
    (nlRecords zone pre rem).Pairwise (fun a b => a.1 < b.1) := by
  induction rem with
  | nil => intro pre; exact List.Pairwise.nil
  | cons a t ih =>
    intro pre
    rw [nlRecords, List.pairwise_append]
    refine ⟨?_, ih _, ?_⟩
    · split <;> simp
    · intro p hp q hq
      obtain ⟨k, x⟩ := q
      obtain ⟨_, h1, _⟩ := (nlRecords_mem ..).1 hq
      split at hp
      · simp only [List.mem_cons, List.not_mem_nil, or_false] at hp
        subst hp
        simp only [List.length_append, List.length_cons, List.length_nil] at h1
        dsimp only
        omega
      · simp at hp

theorem parseIdx_bytes (i : NlIdx) : parseIdx (idxBytes i) = i := by
  have h32 := rd32L_le32 i.offset []
  simp only [le32, List.cons_append, List.nil_append, rd32L] at h32
  simp only [idxBytes, le16, le32, List.cons_append, List.nil_append, parseIdx, rd16_le16, h32]

theorem idxBytes_length (i : NlIdx) : (idxBytes i).length = 16 := rfl

theorem flatMap_idx_length (xs : List NlIdx) : (xs.flatMap idxBytes).length = 16 * xs.length := by
  induction xs with
  | nil => rfl
  | cons x t ih => rw [List.flatMap_cons, List.length_append, ih, idxBytes_length, List.length_cons]; omega

/-- Searching one list. -/
theorem nlScan_list (node : Node4D) (hn : idxIs node nlEnd = false) (xs : List NlIdx)
    (ho : ∀ x ∈ xs, x.offset ≠ 0xffffffff) (rest : List UInt8) : ∀ n, xs.length < n →
    nlScan n node (xs.flatMap idxBytes ++ (idxBytes nlEnd ++ rest)) =
      match xs.find? (idxIs node) with
      | some x => .found x
      | none => .listEnd rest := by
  induction xs with
  | nil =>
    intro n hn'
    obtain ⟨m, rfl⟩ : ∃ m, n = m + 1 := ⟨n - 1, by simp at hn'; omega⟩
    rw [List.flatMap_nil, List.nil_append, nlScan, if_neg (by simp [idxBytes_length]), List.take_left' (idxBytes_length _),
      List.drop_left' (idxBytes_length _), parseIdx_bytes, if_neg (by simp [hn]), if_pos (by decide)]
    rfl
  | cons x t ih =>
    intro n hn'
    obtain ⟨m, rfl⟩ : ∃ m, n = m + 1 := ⟨n - 1, by simp at hn'; omega⟩
    rw [List.flatMap_cons, List.append_assoc, nlScan, if_neg (by simp [idxBytes_length]),
      List.take_left' (idxBytes_length _), List.drop_left' (idxBytes_length _), parseIdx_bytes, List.find?_cons]
    cases h : idxIs node x with
    | true => dsimp only; rw [if_pos h]
    | false =>
      dsimp only
      rw [if_neg (by simp [h]), if_neg (ho x (List.mem_cons_self ..))]
      exact ih (fun y hy => ho y (List.mem_cons_of_mem _ hy)) m (by simp at hn'; omega)

/-- The records of a list. -/
def TextList.records (t : TextList) : List (Nat × NlIdx) := nlRecords t.zone [] t.lines

/-- The 100 bytes in front of a list. -/
def TextList.label (t : TextList) : List UInt8 := (t.name ++ 0 :: t.stale).take 100

theorem label_length (t : TextList) (h : t.Ok) : t.label.length = 100 := by
  have h1 := h.stale
  have h2 := h.name.2
  simp only [TextList.label, List.length_take, List.length_append, List.length_cons]
  omega

theorem label_name (t : TextList) (h : t.Ok) : cstr t.label = t.name := by
  have h2 := h.name.2
  have e : t.label = t.name ++ 0 :: t.stale.take (99 - t.name.length) := by
    rw [TextList.label, List.take_append, List.take_of_length_le (by omega)]
    rw [show 100 - t.name.length = (99 - t.name.length) + 1 by omega, List.take_succ_cons]
  rw [e]
  have := h.name.1
  unfold cstr
  rw [List.takeWhile_append_of_pos]
  · simp
  · intro c hc
    simp only [bne_iff_ne, ne_eq]
    rintro rfl
    exact this hc

theorem joinLines_length (b : Bool) (ls : List Str) : ls.length ≤ (joinLines b ls).length + 1 := by
  induction ls with
  | nil => simp
  | cons l r ih =>
    cases r with
    | nil => simp
    | cons a t =>
      show (l :: a :: t).length ≤ (l ++ 10 :: joinLines b (a :: t)).length + 1
      simp only [List.length_cons, List.length_append] at ih ⊢
      omega

theorem posAfter_le (b : Bool) (ls : List Str) (k : Nat) (h : k < ls.length) :
    posAfter (ls.take k) ≤ (joinLines b ls).length := by
  induction ls generalizing k with
  | nil => simp at h
  | cons l r ih =>
    cases k with
    | zero => simp [posAfter]
    | succ k =>
      simp only [List.length_cons, Nat.add_lt_add_iff_right] at h
      have hr : r ≠ [] := by rintro rfl; simp at h
      have := ih k h
      rw [joinLines_cons b l r (.inl hr)]
      simp only [posAfter, List.take_succ_cons, List.map_cons, List.sum_cons, List.length_append, List.length_cons] at this ⊢
      omega

theorem processList_eq (t : TextList) (h : t.Ok) :
    processList t.file = t.label ++ ((t.records.map (·.2)).flatMap idxBytes ++ idxBytes nlEnd) := by
  unfold processList
  have : nlLines (t.file.content.length + 1) t.file.content.length { zone := t.file.zone } t.file.content =
      t.records.map (·.2) := by
    have key := nlLines_records t.zone t.lastLf t.lines h.lines ((joinLines t.lastLf t.lines).length + 1)
      (joinLines t.lastLf t.lines).length [] (by have := joinLines_length t.lastLf t.lines; omega) (by simp [posAfter])
    have st : nlState t.zone [] = { zone := t.zone } := rfl
    rw [st] at key
    exact key
  rw [this]
  simp [TextList.file, TextList.label, List.append_assoc]

/-- The entry of a record. -/
def NlEntry.idx (e : NlEntry) : NlIdx :=
  ⟨e.addr.zone, e.addr.net, e.addr.node, e.addr.point, e.region, e.hub, UInt32.ofNat e.pos⟩

/-- Records are entries. -/
theorem records_iff (t : TextList) (k : Nat) (x : NlIdx) :
    (k, x) ∈ t.records ↔ ∃ e, EntryAt t.zone t.lines k e ∧ x = e.idx := by
  rw [TextList.records, nlRecords_mem]
  simp only [List.length_nil, Nat.zero_le, true_and, Nat.sub_zero, List.nil_append]
  constructor
  · rintro ⟨l, h1, h2, h3⟩
    obtain ⟨p, hp⟩ := Option.isSome_iff_exists.1 h2
    obtain ⟨k', v⟩ := p
    refine ⟨⟨⟨latestF saysZone t.zone (t.lines.take (k + 1)), latestF saysNet 0 (t.lines.take (k + 1)),
      latestF saysNode 0 (t.lines.take (k + 1)), latestF saysPoint 0 (t.lines.take (k + 1))⟩,
      latestF saysRegion 0 (t.lines.take (k + 1)), latestF saysHub 0 (t.lines.take (k + 1)), posAfter (t.lines.take k)⟩,
      ⟨⟨l, k', v, h1, (entryKind_iff ..).1 hp⟩, latest_of .., latest_of .., latest_of .., latest_of .., latest_of ..,
        latest_of .., rfl⟩, h3⟩
  · rintro ⟨e, ⟨⟨l, k', v, h1, h2⟩, a1, a2, a3, a4, a5, a6, a7⟩, rfl⟩
    refine ⟨l, h1, by rw [(entryKind_iff ..).2 h2]; rfl, ?_⟩
    unfold NlEntry.idx nlState
    rw [latest_eq _ _ _ _ a1, latest_eq _ _ _ _ a2, latest_eq _ _ _ _ a3, latest_eq _ _ _ _ a4,
      latest_eq _ _ _ _ a5, latest_eq _ _ _ _ a6, a7]
    rfl

theorem entry_pos (t : TextList) (h : t.Ok) (k : Nat) (e : NlEntry) (he : EntryAt t.zone t.lines k e) :
    e.pos < 4294967295 := by
  obtain ⟨⟨l, _, _, h1, _⟩, _, _, _, _, _, _, h7⟩ := he
  have hk : k < t.lines.length := by
    rcases List.getElem?_eq_some_iff.1 h1 with ⟨hk, _⟩
    exact hk
  have := posAfter_le t.lastLf t.lines k hk
  have := h.size
  rw [h7]
  unfold posAfter at *
  omega

theorem idxIs_iff (n : Node4D) (e : NlEntry) : idxIs n e.idx = true ↔ e.addr = n := by
  cases n; cases e with
  | mk a _ _ _ =>
    cases a
    simp only [idxIs, NlEntry.idx, Bool.and_eq_true, beq_iff_eq, Node4D.mk.injEq, and_assoc]
    constructor <;> (rintro ⟨rfl, rfl, rfl, rfl⟩; simp)

/-- The outcome of searching in some of the lists. -/
def SearchSays (fs : List TextList) (node : Node4D) (r : NlResult) : Prop :=
  (∃ (j : Nat) (f : TextList) (k : Nat) (e : NlEntry), fs[j]? = some f ∧ EntryAt f.zone f.lines k e ∧ e.addr = node ∧ r = .found f.label e.idx ∧
    ∀ (j' : Nat) (f' : TextList) (k' : Nat) (e' : NlEntry), fs[j']? = some f' → EntryAt f'.zone f'.lines k' e' → e'.addr = node → j < j' ∨ j = j' ∧ k ≤ k') ∨
  ((¬ ∃ f k e, f ∈ fs ∧ EntryAt f.zone f.lines k e ∧ e.addr = node) ∧ r = .notFound)

theorem nlSearch_says (node : Node4D) (hn : node ≠ ⟨0, 0, 0, 0⟩) (fs : List TextList) (hf : ∀ f ∈ fs, f.Ok) :
    ∀ n, fs.length < n → SearchSays fs node (nlSearch n node ((fs.map TextList.file).flatMap processList)) := by
  have hend : idxIs node nlEnd = false := by
    rw [← Bool.not_eq_true]
    intro h
    apply hn
    cases node
    simp only [idxIs, nlEnd, Bool.and_eq_true, beq_iff_eq] at h
    obtain ⟨⟨⟨rfl, rfl⟩, rfl⟩, rfl⟩ := h
    rfl
  induction fs with
  | nil =>
    intro n hl
    obtain ⟨m, rfl⟩ : ∃ m, n = m + 1 := ⟨n - 1, by simp at hl; omega⟩
    refine .inr ⟨by simp, rfl⟩
  | cons f r ih =>
    intro n hl
    obtain ⟨m, rfl⟩ : ∃ m, n = m + 1 := ⟨n - 1, by simp at hl; omega⟩
    have hok := hf f (List.mem_cons_self ..)
    have hlab := label_length f hok
    rw [List.map_cons, List.flatMap_cons, processList_eq f hok, List.append_assoc, List.append_assoc]
    generalize hrest : (r.map TextList.file).flatMap processList = rest
    rw [nlSearch, if_neg (by simp [hlab]), List.drop_left' hlab, List.take_left' hlab,
      nlScan_list node hend (f.records.map (·.2)) (by
        intro x hx
        simp only [List.mem_map, Prod.exists] at hx
        obtain ⟨k, _, hk, rfl⟩ := hx
        obtain ⟨e, he, rfl⟩ := (records_iff ..).1 hk
        have := entry_pos f hok k e he
        intro h
        have := congrArg UInt32.toNat h
        simp only [NlEntry.idx, UInt32.toNat_ofNat'] at this
        have h2 : (4294967295 : UInt32).toNat = 4294967295 := rfl
        omega) rest _ (by
        simp only [List.length_append, hlab, flatMap_idx_length]
        omega)]
    rw [List.find?_map]
    cases hfind : f.records.find? (idxIs node ∘ (·.2)) with
    | some p =>
      obtain ⟨k, x⟩ := p
      have hmem := List.mem_of_find?_eq_some hfind
      obtain ⟨e, he, hx⟩ := (records_iff ..).1 hmem
      have hp : (idxIs node ∘ (·.2)) (k, x) = true := List.find?_some hfind
      rw [Function.comp_apply] at hp
      dsimp only at hp
      rw [hx, idxIs_iff] at hp
      refine .inl ⟨0, f, k, e, rfl, he, hp, ?_, ?_⟩
      · rw [← hx]; rfl
      · intro j' f' k' e' h1 h2 h3
        cases j' with
        | succ j' => left; omega
        | zero =>
          right
          refine ⟨rfl, ?_⟩
          simp only [List.getElem?_cons_zero, Option.some.injEq] at h1
          subst h1
          have hm : (k', e'.idx) ∈ f.records := (records_iff ..).2 ⟨e', h2, rfl⟩
          apply Classical.byContradiction
          intro hlt
          have hlt : k' < k := by omega
          obtain ⟨as, bs, hsplit, hno⟩ := (List.find?_eq_some_iff_append.1 hfind).2
          rw [hsplit, List.mem_append, List.mem_cons] at hm
          rcases hm with hm | hm | hm
          · have := hno _ hm
            simp only [Function.comp_apply, Bool.not_eq_true', ] at this
            rw [(idxIs_iff ..).2 h3] at this
            cases this
          · injection hm with hm _; omega
          · have hs := nlRecords_sorted f.zone f.lines []
            rw [show nlRecords f.zone [] f.lines = f.records from rfl, hsplit] at hs
            have := (List.pairwise_append.1 hs).2.1
            have := (List.pairwise_cons.1 this).1 _ hm
            dsimp only at this
            omega
    | none =>
      dsimp only [Option.map_none]
      have hnone : ∀ k e, EntryAt f.zone f.lines k e → e.addr ≠ node := by
        intro k e he heq
        have := List.find?_eq_none.1 hfind (k, e.idx) ((records_iff ..).2 ⟨e, he, rfl⟩)
        exact this ((idxIs_iff ..).2 heq)
      have ih := ih (fun x hx => hf x (List.mem_cons_of_mem _ hx)) m (by simp at hl; omega)
      rw [hrest] at ih
      rcases ih with ⟨j, f', k, e, h1, h2, h3, h4, h5⟩ | ⟨h1, h2⟩
      · refine .inl ⟨j + 1, f', k, e, by simpa using h1, h2, h3, h4, ?_⟩
        intro j' f'' k' e' g1 g2 g3
        cases j' with
        | zero =>
          simp only [List.getElem?_cons_zero, Option.some.injEq] at g1
          subst g1
          exact absurd g3 (hnone _ _ g2)
        | succ j' =>
          have := h5 j' f'' k' e' (by simpa using g1) g2 g3
          omega
      · refine .inr ⟨?_, h2⟩
        rintro ⟨f', k, e, hm, g1, g2⟩
        rcases List.mem_cons.1 hm with rfl | hm
        · exact hnone _ _ g1 g2
        · exact h1 ⟨f', k, e, hm, g1, g2⟩

theorem processList_length (t : TextList) (h : t.Ok) : 116 ≤ (processList t.file).length := by
  rw [processList_eq t h]
  simp [label_length t h, idxBytes_length]
  omega

/-- **C49 (partial).** Looking up an address other than 0:0/0.0 in the index CrashList has built from any
nodelists finds the first entry with that address, with its region, hub, position and the name of its
list, and nothing if no list has such an entry. Missing: 0:0/0.0 itself, which is always found
(`Ex.null_node_exists`). -/
theorem nodelist_lookup_partial (fs : List TextList) (hf : ∀ f ∈ fs, f.Ok) (node : Node4D) (hn : node ≠ ⟨0, 0, 0, 0⟩) :
    openNL (crashList (fs.map TextList.file)) = true ∧
    SearchSays fs node (findNL (crashList (fs.map TextList.file)) node) := by
  refine ⟨rfl, ?_⟩
  unfold findNL crashList
  rw [List.drop_left' (l₁ := b!"CNL1") (i := 4) rfl]
  apply nlSearch_says node hn fs hf
  have : ∀ gs : List TextList, (∀ f ∈ gs, f.Ok) → gs.length ≤ ((gs.map TextList.file).flatMap processList).length := by
    intro gs hg
    induction gs with
    | nil => simp
    | cons g r ih =>
      have h1 := ih (fun x hx => hg x (List.mem_cons_of_mem _ hx))
      have h2 := processList_length g (hg g (List.mem_cons_self ..))
      simp only [List.map_cons, List.flatMap_cons, List.length_append, List.length_cons] at h1 ⊢
      omega
  have := this fs hf
  simp only [List.length_append]
  omega

/-- **C49**, as the rest of CrashMail sees it: a node exists exactly if a list has an entry for it, and
the hub and region are those of the first entry. -/
theorem nodelist_queries (fs : List TextList) (hf : ∀ f ∈ fs, f.Ok) (node : Node4D) (hn : node ≠ ⟨0, 0, 0, 0⟩) :
    (nlCheckNode (crashList (fs.map TextList.file)) node = true ↔
      ∃ f k e, f ∈ fs ∧ EntryAt f.zone f.lines k e ∧ e.addr = node) ∧
    (∀ (j : Nat) (f : TextList) (k : Nat) (e : NlEntry), fs[j]? = some f → EntryAt f.zone f.lines k e → e.addr = node →
      (∀ (j' : Nat) (f' : TextList) (k' : Nat) (e' : NlEntry), fs[j']? = some f' → EntryAt f'.zone f'.lines k' e' → e'.addr = node → j < j' ∨ j = j' ∧ k ≤ k') →
      nlGetHub (crashList (fs.map TextList.file)) node = e.hub.toNat ∧
      nlGetRegion (crashList (fs.map TextList.file)) node = e.region.toNat) ∧
    ((¬ ∃ f k e, f ∈ fs ∧ EntryAt f.zone f.lines k e ∧ e.addr = node) →
      nlGetHub (crashList (fs.map TextList.file)) node = -1 ∧
      nlGetRegion (crashList (fs.map TextList.file)) node = -1) := by
  have h := (nodelist_lookup_partial fs hf node hn).2
  unfold nlCheckNode nlGetHub nlGetRegion
  rcases h with ⟨j, f, k, e, h1, h2, h3, h4, h5⟩ | ⟨h1, h2⟩
  · rw [h4]
    have hm : f ∈ fs := List.mem_of_getElem? h1
    refine ⟨⟨fun _ => ⟨f, k, e, hm, h2, h3⟩, fun _ => rfl⟩, ?_, fun hno => absurd ⟨f, k, e, hm, h2, h3⟩ hno⟩
    intro j' f' k' e' g1 g2 g3 g4
    have a := h5 j' f' k' e' g1 g2 g3
    have b := g4 j f k e h1 h2 h3
    have hj : j = j' := by omega
    have hk : k = k' := by omega
    subst hj hk
    rw [h1] at g1
    injection g1 with g1
    subst g1
    obtain ⟨_, _, _, _, _, r1, r2, _⟩ := h2
    obtain ⟨_, _, _, _, _, s1, s2, _⟩ := g2
    have er : e.region = e'.region := (latest_eq _ _ _ _ r1).trans (latest_eq _ _ _ _ s1).symm
    have eh : e.hub = e'.hub := (latest_eq _ _ _ _ r2).trans (latest_eq _ _ _ _ s2).symm
    simp [NlEntry.idx, er, eh]
  · rw [h2]
    refine ⟨⟨fun h => absurd h (by simp), fun h => absurd h h1⟩, ?_, fun _ => ⟨rfl, rfl⟩⟩
    intro j f k e g1 g2 g3 _
    exact absurd ⟨f, k, e, List.mem_of_getElem? g1, g2, g3⟩ h1

theorem joinLines_at (b : Bool) (ls : List Str) (k : Nat) (l : Str) (h : ls[k]? = some l) :
    ∃ r, (joinLines b ls).drop (posAfter (ls.take k)) = l ++ r ∧ (r = [] ∨ ∃ r', r = 10 :: r') := by
  induction ls generalizing k with
  | nil => simp at h
  | cons a t ih =>
    cases k with
    | zero =>
      simp only [List.getElem?_cons_zero, Option.some.injEq] at h
      subst h
      simp only [List.take_zero, posAfter, List.map_nil, List.sum_nil, List.drop_zero]
      by_cases hc : t ≠ [] ∨ b = true
      · exact ⟨_, joinLines_cons b a t hc, .inr ⟨_, rfl⟩⟩
      · have ht : t = [] := Classical.byContradiction (fun h => hc (.inl h))
        have hb : b = false := by
          cases b with
          | false => rfl
          | true => exact absurd (.inr rfl) hc
        subst ht hb
        exact ⟨[], by simp [joinLines], .inl rfl⟩
    | succ k =>
      simp only [List.getElem?_cons_succ] at h
      have ht : t ≠ [] := by rintro rfl; simp at h
      obtain ⟨r, hr, hr2⟩ := ih k h
      refine ⟨r, ?_, hr2⟩
      rw [joinLines_cons b a t (.inl ht), ← hr]
      simp only [posAfter, List.take_succ_cons, List.map_cons, List.sum_cons]
      rw [show a ++ 10 :: joinLines b t = (a ++ [10]) ++ joinLines b t by simp, ← List.drop_drop,
        List.drop_left' (by simp)]

/-- **C49**: the position found leads to the line of the entry. The line read from the nodelist there is
the one that defines the address (with LF or without, if it is the last of the file). -/
theorem nodelist_line (fs : List TextList) (hf : ∀ f ∈ fs, f.Ok) (node : Node4D) (hn : node ≠ ⟨0, 0, 0, 0⟩)
    (lists : Str → Option (List UInt8)) (hlists : ∀ f ∈ fs, lists f.name = some f.file.content) (s : Str)
    (h : findNLLine lists (crashList (fs.map TextList.file)) node 500 = some s) :
    ∃ f k e l, f ∈ fs ∧ EntryAt f.zone f.lines k e ∧ e.addr = node ∧ f.lines[k]? = some l ∧
      (s = l ∨ s = (if l.getLast? = some 13 then l.dropLast else l) ++ [10]) := by
  have h' := (nodelist_lookup_partial fs hf node hn).2
  unfold findNLLine at h
  rcases h' with ⟨j, f, k, e, h1, h2, h3, h4, _⟩ | ⟨_, h2⟩
  · have hm : f ∈ fs := List.mem_of_getElem? h1
    have hok := hf f hm
    rw [h4] at h
    dsimp only at h
    rw [label_name f hok, hlists f hm] at h
    dsimp only at h
    obtain ⟨⟨l, k', v, hl, hkv⟩, _, _, _, _, _, _, hpos⟩ := id h2
    have hp := entry_pos f hok k e h2
    have hoff : (e.idx).offset.toNat = posAfter (f.lines.take k) := by
      simp only [NlEntry.idx, UInt32.toNat_ofNat', posAfter]
      omega
    rw [hoff, TextList.file] at h
    dsimp only at h
    obtain ⟨r, hr, hr2⟩ := joinLines_at f.lastLf f.lines k l hl
    rw [hr] at h
    have ht := hok.lines l (List.mem_of_getElem? hl)
    refine ⟨f, k, e, l, hm, h2, h3, hl, ?_⟩
    rcases hr2 with rfl | ⟨r', rfl⟩
    · left
      rw [List.append_nil, osFGets_last l 500 ht (by
        rintro rfl
        obtain ⟨_, w, _, _, _, hw, _⟩ := hkv
        simp at hw) (by have := ht.short; omega)] at h
      simpa using h.symm
    · right
      rw [osFGets_line l r' 500 ht (by have := ht.short; omega)] at h
      simpa using h.symm
  · rw [h2] at h
    cases h

namespace Ex

/-- A small nodelist. -/
def nodelist : TextList :=
  { name := b!"NODELIST.123"
    stale := List.replicate 100 7
    zone := 0
    lines := [b!";A Nodelist\r", b!"Zone,2,Europe\r", b!"Region,20,Sweden\r", b!",5,Independent\r", b!"Host,201,Net\r",
      b!"Hub,300,Hub\r", b!",332,Node\r", b!"Point,1,Point\r", b!"Down,333,Gone\r"]
    lastLf := true }

/-- The hypotheses are met. -/
theorem nodelist_ok : nodelist.Ok where
  name := by decide
  stale := by decide +kernel
  lines := by
    intro l hl
    have : ∀ l ∈ nodelist.lines, NoNul l ∧ (10 : UInt8) ∉ l ∧ l.length ≤ 498 := by decide +kernel
    exact ⟨(this l hl).1, (this l hl).2.1, (this l hl).2.2⟩
  size := by decide +kernel

/-- Node 2:201/332 is found with hub 300 and region 20, its point too; a node that is down is not in
the index. -/
theorem lookups :
    nlGetHub (crashList [nodelist.file]) ⟨2, 201, 332, 0⟩ = 300 ∧
    nlGetRegion (crashList [nodelist.file]) ⟨2, 201, 332, 1⟩ = 20 ∧
    nlGetHub (crashList [nodelist.file]) ⟨2, 20, 5, 0⟩ = 0 ∧
    nlCheckNode (crashList [nodelist.file]) ⟨2, 201, 333, 0⟩ = false := by decide +kernel

/-- The end mark of each list is taken for a node 0:0/0. -/
theorem null_node_exists : nlCheckNode (crashList [nodelist.file]) ⟨0, 0, 0, 0⟩ = true := by decide +kernel

/-- The line of an entry. -/
theorem line_found : findNLLine (fun n => if n = b!"NODELIST.123" then some nodelist.file.content else none)
    (crashList [nodelist.file]) ⟨2, 201, 332, 0⟩ 500 = some b!",332,Node\n" := by decide +kernel

end Ex

end CM
