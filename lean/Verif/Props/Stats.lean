import Verif.Lemmas.Stats
import Verif.Props.Node4D
/-! # C47, C48: statistics -/

set_option linter.unusedSimpArgs false

namespace CM

/-- A record per area that is kept, in order. -/
theorem areaRecords_read (j : Nat → Nat → UInt8) (as : List AreaStat)
    (ht : ∀ a ∈ as, NoNul a.tag) : ∀ (k : Nat) (f : List UInt8), areaRecords j k as = .ok f →
    ∀ (rest : List UInt8) (bs : List AreaStat),
      readAreaStats (as.filter statWritten).length (f ++ rest) bs =
        .ok (((as.filter statWritten).map diskOf).foldl
          (fun l d => updFirst (fun a => eqi a.tag d.tag) (setAreaStat d) l) bs, rest) := by
  induction as with
  | nil =>
    intro k f h rest bs
    cases h
    rfl
  | cons a r ih =>
    intro k f h rest bs
    have ht' : ∀ a ∈ r, NoNul a.tag := fun x hx => ht x (List.mem_cons_of_mem _ hx)
    unfold areaRecords at h
    by_cases hw : statWritten a = true
    · rw [if_pos hw] at h
      cases h1 : areaRecord (j k) a with
      | error e => rw [h1] at h; cases h
      | ok x =>
        rw [h1] at h
        cases h2 : areaRecords j (k + 1) r with
        | error e => rw [show (Except.ok x >>= fun x => (areaRecords j (k + 1) r >>= fun y => .ok (x ++ y)))
            = (areaRecords j (k + 1) r >>= fun y => .ok (x ++ y)) from rfl, h2] at h; cases h
        | ok y =>
          rw [show (Except.ok x >>= fun x => (areaRecords j (k + 1) r >>= fun y => .ok (x ++ y)))
            = (areaRecords j (k + 1) r >>= fun y => .ok (x ++ y)) from rfl, h2] at h
          injection h with h
          subst h
          have lx := areaRecord_length h1
          rw [List.filter_cons, if_pos hw, List.length_cons, readAreaStats, if_neg (by simp [lx]),
            List.append_assoc, take_at _ _ 136 lx, drop_at _ _ 136 lx,
            parseArea_record h1 (ht a (List.mem_cons_self ..)), List.map_cons, List.foldl_cons]
          exact ih ht' (k + 1) y h2 rest _
    · rw [if_neg hw] at h
      rw [List.filter_cons, if_neg hw]
      exact ih ht' k f h rest bs

theorem nodeRecords_read (j : Nat → Nat → UInt8) (ns : List NodeStat) : ∀ (k : Nat) (ms : List NodeStat),
    readNodeStats ns.length (nodeRecords j k ns) ms =
      ns.foldl (fun l d => updFirst (fun c => compare4D d.node c.node == 0) (setNodeStat d) l) ms := by
  induction ns with
  | nil => intro k ms; rfl
  | cons n r ih =>
    intro k ms
    rw [List.length_cons, readNodeStats, nodeRecords, if_neg (by simp [nodeRecord_length]),
      take_at _ _ 56 (nodeRecord_length ..), drop_at _ _ 56 (nodeRecord_length ..)]
    simp only [parseNode_record, List.foldl_cons]
    exact ih (k + 1) _

theorem areaRecords_ok (j : Nat → Nat → UInt8) (as : List AreaStat) (h : ∀ a ∈ as, Kept a →
    a.tag.length < 80 ∧ a.aka ≠ none) : ∀ k, ∃ f, areaRecords j k as = .ok f := by
  induction as with
  | nil => intro k; exact ⟨[], rfl⟩
  | cons a r ih =>
    intro k
    have ih := ih (fun x hx => h x (List.mem_cons_of_mem _ hx))
    unfold areaRecords
    by_cases hw : statWritten a = true
    · have hk : Kept a := by
        simp only [statWritten, Bool.and_eq_true, Bool.or_eq_true, beq_iff_eq] at hw
        exact ⟨by rcases hw.1 with (h | h) | h <;> simp [h], hw.2⟩
      have := h a (List.mem_cons_self ..) hk
      rw [if_pos hw]
      obtain ⟨y, hy⟩ := ih (k + 1)
      cases ha : a.aka with
      | none => exact absurd ha this.2
      | some aka =>
        have : ∃ x, areaRecord (j k) a = .ok x := by
          unfold areaRecord
          rw [if_neg (by omega), ha]
          exact ⟨_, rfl⟩
        obtain ⟨x, hx⟩ := this
        refine ⟨x ++ y, ?_⟩
        rw [hx]
        show (areaRecords j (k + 1) r >>= fun y => Except.ok (x ++ y)) = _
        rw [hy]
        rfl
    · rw [if_neg hw]; exact ih k

theorem statWritten_iff (a : AreaStat) : statWritten a = true ↔ Kept a := by
  simp only [statWritten, Bool.and_eq_true, Bool.or_eq_true, beq_iff_eq, Kept]
  constructor
  · rintro ⟨(h | h) | h, h2⟩ <;> simp [h, h2]
  · rintro ⟨h | h | h, h2⟩ <;> simp [h, h2]

/-- **C47, exact form.** What is written is read back by any later configuration: every area gets the
counters of the last kept area in the file that it is the first to share its tag with, every node
those of the last record that it is the first to match. -/
theorem stats_exact (ja jn : Nat → Nat → UInt8) (now : UInt64) (day day' : UInt32)
    (as bs : List AreaStat) (ns ms : List NodeStat)
    (htag : ∀ a ∈ as, NoNul a.tag ∧ a.tag.length < 80) (haka : ∀ a ∈ as, Kept a → a.aka ≠ none)
    (hna : as.length < 2 ^ 32) (hnn : ns.length < 2 ^ 32) :
    ∃ d f bs' ms', writeStats ja jn now day as ns = .ok (d, f) ∧
      d = (if day = 0 then dayOf now else day) ∧
      readStats (some f) day' bs ms = .ok (true, d, bs', ms') ∧
      (∀ i, bs'[i]? = bs[i]?.map fun b =>
        match (as.filter statWritten).reverse.find? (fun a => bs.findIdx? (fun b => eqi b.tag a.tag) == some i) with
        | none => b
        | some a => setAreaStat (diskOf a) b) ∧
      (∀ i, ms'[i]? = ms[i]?.map fun m =>
        match ns.reverse.find? (fun n => ms.findIdx? (fun m => compare4D n.node m.node == 0) == some i) with
        | none => m
        | some n => setNodeStat n m) := by
  obtain ⟨recs, hr⟩ := areaRecords_ok ja as (fun a ha hk => ⟨(htag a ha).2, haka a ha hk⟩) 0
  generalize hd : (if day = 0 then dayOf now else day) = d
  have hcnt : (as.filter statWritten).length < 2 ^ 32 :=
    Nat.lt_of_le_of_lt (List.length_filter_le ..) hna
  refine ⟨d, b!"CST3" ++ le32 d ++ le32 (UInt32.ofNat (as.filter statWritten).length) ++ recs ++
      le32 (UInt32.ofNat ns.length) ++ nodeRecords jn 0 ns,
    ((as.filter statWritten).map diskOf).foldl
      (fun l d => updFirst (fun a => eqi a.tag d.tag) (setAreaStat d) l) bs,
    ns.foldl (fun l d => updFirst (fun c => compare4D d.node c.node == 0) (setNodeStat d) l) ms, ?_, rfl, ?_, ?_, ?_⟩
  · unfold writeStats
    rw [hd, hr]
    rfl
  · generalize hf : b!"CST3" ++ le32 d ++ le32 (UInt32.ofNat (as.filter statWritten).length) ++ recs ++
      le32 (UInt32.ofNat ns.length) ++ nodeRecords jn 0 ns = f
    have e : f = b!"CST3" ++ (le32 d ++ (le32 (UInt32.ofNat (as.filter statWritten).length) ++ (recs ++
      (le32 (UInt32.ofNat ns.length) ++ nodeRecords jn 0 ns)))) := by
      rw [← hf]; simp [List.append_assoc]
    have d4 : f.drop 4 = le32 d ++ (le32 (UInt32.ofNat (as.filter statWritten).length) ++ (recs ++
      (le32 (UInt32.ofNat ns.length) ++ nodeRecords jn 0 ns))) := by rw [e, drop_at _ _ 4 rfl]
    have d8 : f.drop 8 = le32 (UInt32.ofNat (as.filter statWritten).length) ++ (recs ++
      (le32 (UInt32.ofNat ns.length) ++ nodeRecords jn 0 ns)) := by
      rw [show (8 : Nat) = 4 + 4 from rfl, ← List.drop_drop, d4, drop_at _ _ 4 rfl]
    have d12 : f.drop 12 = recs ++ (le32 (UInt32.ofNat ns.length) ++ nodeRecords jn 0 ns) := by
      rw [show (12 : Nat) = 8 + 4 from rfl, ← List.drop_drop, d8, drop_at _ _ 4 rfl]
    have hl : 12 ≤ f.length := by rw [e]; simp; omega
    simp only [readStats]
    rw [if_neg (by omega), if_neg (by rw [e, take_at _ _ 4 rfl]; simp), if_neg (by omega), d4, d8, d12]
    simp only [rd32L_le32]
    have u1 : (UInt32.ofNat (as.filter statWritten).length).toNat = (as.filter statWritten).length := by
      rw [UInt32.toNat_ofNat']; omega
    have u2 : (UInt32.ofNat ns.length).toNat = ns.length := by rw [UInt32.toNat_ofNat']; omega
    rw [u1, areaRecords_read ja as (fun a ha => (htag a ha).1) 0 recs hr]
    simp only [bind, Except.bind]
    rw [if_neg (by simp), rd32L_le32, u2, drop_at _ _ 4 rfl, nodeRecords_read]
  · intro i
    rw [foldl_updFirst (fun d a => eqi a.tag d.tag) setAreaStat (fun _ _ _ => rfl) (fun _ _ _ => rfl)]
    congr 1
    funext b
    rw [← List.map_reverse, List.find?_map]
    cases h : List.find? ((fun w => List.findIdx? (fun a => eqi a.tag w.tag) bs == some i) ∘ diskOf)
      (List.filter statWritten as).reverse with
    | none =>
      have : List.find? (fun a => List.findIdx? (fun b => eqi b.tag a.tag) bs == some i)
        (List.filter statWritten as).reverse = none := h
      rw [this]; rfl
    | some a =>
      have : List.find? (fun a => List.findIdx? (fun b => eqi b.tag a.tag) bs == some i)
        (List.filter statWritten as).reverse = some a := h
      rw [this]; rfl
  · intro i
    rw [foldl_updFirst (fun (d c : NodeStat) => compare4D d.node c.node == 0) setNodeStat
      (fun _ _ _ => rfl) (fun _ _ _ => rfl) ms ns i]
    congr 1
    funext m
    cases List.find? (fun n => List.findIdx? (fun m : NodeStat => compare4D n.node m.node == 0) ms == some i)
      ns.reverse <;> rfl

/-- **C47 (partial).** If no two areas share a tag and no two nodes an address (zones other than 0),
every kept area and every node has its counters back at the next run, in whatever order the
configuration lists them then; every other area is left alone. Missing: areas with equal tags
(`Ex.same_tag_loses`) and areas that are not kept (`Ex.local_not_kept`). -/
theorem stats_roundtrip_partial (ja jn : Nat → Nat → UInt8) (now : UInt64) (day day' : UInt32)
    (as bs : List AreaStat) (ns ms : List NodeStat)
    (htag : ∀ a ∈ as, NoNul a.tag ∧ a.tag.length < 80) (haka : ∀ a ∈ as, Kept a → a.aka ≠ none)
    (hna : as.length < 2 ^ 32) (hnn : ns.length < 2 ^ 32)
    (huniq : as.Pairwise fun a b => ¬ SameTag a.tag b.tag)
    (huniq' : bs.Pairwise fun a b => ¬ SameTag a.tag b.tag)
    (hnode : ns.Pairwise fun a b => a.node ≠ b.node) (hnode' : ms.Pairwise fun a b => a.node ≠ b.node)
    (hzone : ∀ n ∈ ns, n.node.zone ≠ 0) (hzone' : ∀ n ∈ ms, n.node.zone ≠ 0) :
    ∃ d f bs' ms', writeStats ja jn now day as ns = .ok (d, f) ∧
      readStats (some f) day' bs ms = .ok (true, d, bs', ms') ∧ bs'.length = bs.length ∧ ms'.length = ms.length ∧
      (∀ (i : Nat) (b b' : AreaStat), bs[i]? = some b → bs'[i]? = some b' → SameArea b b' ∧
        (∀ a ∈ as, Kept a → SameTag a.tag b.tag → SameCounts a b') ∧
        ((¬ ∃ a ∈ as, Kept a ∧ SameTag a.tag b.tag) → b' = b)) ∧
      (∀ (i : Nat) (m m' : NodeStat), ms[i]? = some m → ms'[i]? = some m' →
        (∀ n ∈ ns, n.node = m.node → m' = n) ∧ ((¬ ∃ n ∈ ns, n.node = m.node) → m' = m)) := by
  obtain ⟨d, f, bs', ms', hw, _, hr, hb, hm⟩ :=
    stats_exact ja jn now day day' as bs ns ms htag haka hna hnn
  have len : ∀ {α : Type} (l l' : List α) (g : Nat → α → α), (∀ i : Nat, l'[i]? = (l[i]?).map (g i)) → l'.length = l.length := by
    intro α l l' g h
    apply Nat.le_antisymm
    · have := h l.length
      rw [List.getElem?_eq_none (Nat.le_refl _), Option.map_none, List.getElem?_eq_none_iff] at this
      exact this
    · have := h l'.length
      rw [List.getElem?_eq_none (Nat.le_refl _)] at this
      have := Option.map_eq_none_iff.1 this.symm
      rwa [List.getElem?_eq_none_iff] at this
  -- the position found in a list without repetition is the position of any member that fits
  have idx : ∀ {α : Type} (p : α → Bool) (l : List α) (i : Nat) (b : α), l[i]? = some b →
      (∀ j c, l[j]? = some c → p c = true → j = i) → ((l.findIdx? p == some i) = p b) := by
    intro α p l i b hi hu
    cases hp : p b with
    | true =>
      rw [beq_iff_eq, List.findIdx?_eq_some_iff_getElem]
      obtain ⟨hlt, e⟩ := List.getElem?_eq_some_iff.1 hi
      refine ⟨hlt, by rw [e, hp], ?_⟩
      intro j hj hpj
      have := hu j l[j] (List.getElem?_eq_getElem (by omega)) hpj
      omega
    | false =>
      rw [beq_eq_false_iff_ne]
      intro h
      obtain ⟨hlt, e, _⟩ := List.findIdx?_eq_some_iff_getElem.1 h
      obtain ⟨_, e'⟩ := List.getElem?_eq_some_iff.1 hi
      rw [e', hp] at e
      cases e
  refine ⟨d, f, bs', ms', hw, hr, len _ _ _ hb, len _ _ _ hm, ?_, ?_⟩
  · intro i b b' hi hi'
    have h := hb i
    rw [hi, hi', Option.map_some, Option.some.injEq] at h
    have same : ∀ a : AreaStat, (bs.findIdx? (fun b => eqi b.tag a.tag) == some i) = eqi b.tag a.tag := by
      intro a
      -- members that fit `a` share a tag
      by_cases hp : eqi b.tag a.tag = true
      · refine idx (fun b => eqi b.tag a.tag) bs i b hi ?_
        intro j c hj hc
        simp only [eqi, beq_iff_eq] at hp hc
        obtain ⟨l1, e1⟩ := List.getElem?_eq_some_iff.1 hi
        obtain ⟨l2, e2⟩ := List.getElem?_eq_some_iff.1 hj
        rcases Nat.lt_trichotomy j i with hlt | heq | hgt
        · have := List.pairwise_iff_getElem.1 huniq' j i l2 l1 hlt
          exact absurd (by rw [e1, e2]; exact hc.trans hp.symm) this
        · exact heq
        · have := List.pairwise_iff_getElem.1 huniq' i j l1 l2 hgt
          exact absurd (by rw [e1, e2]; exact hp.trans hc.symm) this
      · rw [Bool.not_eq_true] at hp
        rw [hp, beq_eq_false_iff_ne]
        intro h
        obtain ⟨hlt, e, _⟩ := List.findIdx?_eq_some_iff_getElem.1 h
        obtain ⟨_, e'⟩ := List.getElem?_eq_some_iff.1 hi
        rw [e', hp] at e
        cases e
    simp only [same] at h
    cases hf : List.find? (fun a => eqi b.tag a.tag) (List.filter statWritten as).reverse with
    | none =>
      rw [hf] at h
      dsimp only at h
      subst h
      have none' : ∀ a ∈ as, Kept a → ¬ SameTag a.tag b'.tag := by
        intro a ha hk hs
        have := List.find?_eq_none.1 hf a (by simp [ha, (statWritten_iff a).2 hk])
        simp only [eqi, beq_iff_eq] at this
        exact this hs.symm
      exact ⟨⟨rfl, rfl, rfl, rfl, rfl, rfl, rfl⟩, fun a ha hk hs => absurd hs (none' a ha hk), fun _ => rfl⟩
    | some w =>
      rw [hf] at h
      dsimp only at h
      subst h
      have hwm := List.mem_of_find?_eq_some hf
      simp only [List.mem_reverse, List.mem_filter] at hwm
      have hwp := List.find?_some hf
      simp only [eqi, beq_iff_eq] at hwp
      refine ⟨⟨rfl, rfl, rfl, rfl, rfl, rfl, rfl⟩, ?_, ?_⟩
      · intro a ha hk hs
        have haw : a = w := by
          obtain ⟨j, hj, ej⟩ := List.getElem_of_mem ha
          obtain ⟨k, hk', ek⟩ := List.getElem_of_mem hwm.1
          have st : SameTag a.tag w.tag := Eq.trans hs hwp
          rcases Nat.lt_trichotomy j k with hlt | heq | hgt
          · exact absurd (by rw [ej, ek]; exact st) (List.pairwise_iff_getElem.1 huniq j k hj hk' hlt)
          · subst heq; rw [← ej, ← ek]
          · exact absurd (by rw [ej, ek]; exact st.symm) (List.pairwise_iff_getElem.1 huniq k j hk' hj hgt)
        subst haw
        exact ⟨rfl, rfl, rfl, rfl, rfl⟩
      · intro hno
        exact absurd ⟨w, hwm.1, (statWritten_iff w).1 hwm.2, Eq.symm hwp⟩ hno
  · intro i m m' hi hi'
    have h := hm i
    rw [hi, hi', Option.map_some, Option.some.injEq] at h
    have mem : m ∈ ms := List.mem_of_getElem? hi
    have cmp : ∀ n ∈ ns, ∀ c ∈ ms, (compare4D n.node c.node == 0) = decide (n.node = c.node) := by
      intro n hn c hc
      rw [Bool.eq_iff_iff, beq_iff_eq, decide_eq_true_iff, compare4D_eq_zero_iff_eq _ _ (hzone n hn) (hzone' c hc)]
    have same : ∀ n ∈ ns, (ms.findIdx? (fun c => compare4D n.node c.node == 0) == some i) = decide (n.node = m.node) := by
      intro n hn
      rw [← cmp n hn m mem]
      by_cases hp : (compare4D n.node m.node == 0) = true
      · refine idx (fun c => compare4D n.node c.node == 0) ms i m hi ?_
        intro j c hj hc
        rw [cmp n hn c (List.mem_of_getElem? hj), decide_eq_true_iff] at hc
        rw [cmp n hn m mem, decide_eq_true_iff] at hp
        obtain ⟨l1, e1⟩ := List.getElem?_eq_some_iff.1 hi
        obtain ⟨l2, e2⟩ := List.getElem?_eq_some_iff.1 hj
        rcases Nat.lt_trichotomy j i with hlt | heq | hgt
        · exact absurd (by rw [e1, e2, ← hc, hp]) (List.pairwise_iff_getElem.1 hnode' j i l2 l1 hlt)
        · exact heq
        · exact absurd (by rw [e1, e2, ← hc, hp]) (List.pairwise_iff_getElem.1 hnode' i j l1 l2 hgt)
      · rw [Bool.not_eq_true] at hp
        rw [hp, beq_eq_false_iff_ne]
        intro h
        obtain ⟨hlt, e, _⟩ := List.findIdx?_eq_some_iff_getElem.1 h
        obtain ⟨_, e'⟩ := List.getElem?_eq_some_iff.1 hi
        rw [e', hp] at e
        cases e
    cases hf : List.find? (fun n => ms.findIdx? (fun m => compare4D n.node m.node == 0) == some i) ns.reverse with
    | none =>
      rw [hf] at h
      dsimp only at h
      subst h
      refine ⟨fun n hn e => ?_, fun _ => rfl⟩
      have := List.find?_eq_none.1 hf n (by simpa using hn)
      rw [same n hn, decide_eq_true_iff] at this
      exact absurd e this
    | some w =>
      rw [hf] at h
      dsimp only at h
      have hwm : w ∈ ns := by simpa using List.mem_of_find?_eq_some hf
      have hwp := List.find?_some hf
      rw [same w hwm, decide_eq_true_iff] at hwp
      have hmw : m' = w := by rw [h, setNodeStat, ← hwp]
      refine ⟨fun n hn e => ?_, fun hno => absurd ⟨w, hwm, hwp⟩ hno⟩
      obtain ⟨j, hj, ej⟩ := List.getElem_of_mem hn
      obtain ⟨k, hk', ek⟩ := List.getElem_of_mem hwm
      rw [hmw]
      rcases Nat.lt_trichotomy j k with hlt | heq | hgt
      · exact absurd (by rw [ej, ek, e, hwp]) (List.pairwise_iff_getElem.1 hnode j k hj hk' hlt)
      · subst heq; rw [← ej, ← ek]
      · exact absurd (by rw [ej, ek, e, hwp]) (List.pairwise_iff_getElem.1 hnode k j hk' hj hgt)

/-- A missing file leaves everything as it is; any other identifier is refused without change. -/
theorem stats_other_files (day : UInt32) (as : List AreaStat) (ns : List NodeStat) :
    readStats none day as ns = .ok (true, day, as, ns) ∧
    ∀ f : List UInt8, 4 ≤ f.length → f.take 4 ≠ b!"CST3" → readStats (some f) day as ns = .ok (false, day, as, ns) := by
  refine ⟨rfl, fun f h1 h2 => ?_⟩
  simp only [readStats]
  rw [if_neg (by omega), if_pos h2]

theorem shiftDay_get (d : Days) (i : Nat) (h : i < 8) : (shiftDay d)[i] = if i < 1 then 0 else d[i - 1] := by
  obtain ⟨a, b, c, e, f, g, h', k, rfl⟩ := days_cases d
  have key : shiftDay #v[a, b, c, e, f, g, h', k] = #v[0, a, b, c, e, f, g, h'] := by
    simp [shiftDay, List.range_succ, Vector.getD]
  rw [key]
  match i, h with
  | 0, _ => rfl
  | 1, _ => rfl
  | 2, _ => rfl
  | 3, _ => rfl
  | 4, _ => rfl
  | 5, _ => rfl
  | 6, _ => rfl
  | 7, _ => rfl

theorem shiftDays_get (n : Nat) : ∀ (d : Days) (i : Nat) (h : i < 8),
    (shiftDays n d)[i] = if i < n then 0 else d[i - n] := by
  induction n with
  | zero => intro d i h; simp [shiftDays]
  | succ n ih =>
    intro d i h
    rw [shiftDays, ih]
    by_cases h1 : i < n
    · rw [if_pos h1, if_pos (by omega)]
    · rw [if_neg h1, shiftDay_get]
      by_cases h2 : i - n < 1
      · rw [if_pos h2, if_pos (by omega)]
      · rw [if_neg h2, if_neg (by omega)]
        congr 1

theorem countArea_last8 (t1 t2 : UInt64) (a : AreaStat) (i : Nat) (h : i < 8) :
    (countArea t1 t2 a).last8[i] = a.last8[i] + (if i = 0 then UInt16.ofNat a.newTexts.toNat else 0) := by
  have key : (countArea t1 t2 a).last8 = if a.newTexts ≠ 0 ∨ a.newDupes ≠ 0 then
      a.last8.setIfInBounds 0 (a.last8.getD 0 0 + UInt16.ofNat a.newTexts.toNat) else a.last8 := by
    unfold countArea
    by_cases c : a.newTexts ≠ 0 ∨ a.newDupes ≠ 0
    · rw [if_pos c, if_pos c]
      dsimp only
      split <;> split <;> rfl
    · rw [if_neg c, if_neg c]
  rw [key]
  by_cases c : a.newTexts ≠ 0 ∨ a.newDupes ≠ 0
  · rw [if_pos c, Vector.getElem_setIfInBounds]
    by_cases hi : i = 0
    · subst hi; simp [Vector.getD]
    · rw [if_neg (by omega), if_neg hi]; simp
  · rw [if_neg c]
    have : a.newTexts = 0 := by
      apply Classical.byContradiction
      intro h; exact c (.inl h)
    rw [this]
    split <;> simp

/-- **C48.** At the end of a run every area's eight-day history has moved by the number of days since
the day it was last brought up to date, days without a run count 0, and the messages of this run are
added to today's counter. The new day is remembered. A clock that was set back moves nothing. -/
theorem history_shifted (now : Nat → UInt64) (day : UInt32) (as : List AreaStat) (ns : List NodeStat) :
    (endOfRun now day as ns).1 = dayOf (now 1) ∧
    (endOfRun now day as ns).2.1.length = as.length ∧
    ∀ (k : Nat) (a a' : AreaStat), as[k]? = some a → (endOfRun now day as ns).2.1[k]? = some a' →
      ∀ (i : Nat) (h : i < 8), a'.last8[i] =
        dayAfter ((dayOf (now 1)).toNat - (if day = 0 then dayOf (now 0) else day).toNat) a.newTexts a.last8 i := by
  refine ⟨rfl, by simp [endOfRun], ?_⟩
  intro k a a' hk hk' i h
  generalize hd : (if day = 0 then dayOf (now 0) else day) = dsw
  simp only [endOfRun, List.getElem?_map, hk, Option.map_some, Option.some.injEq, hd] at hk'
  subst hk'
  rw [countArea_last8]
  unfold dayAfter
  by_cases hgt : dayOf (now 1) > dsw
  · rw [if_pos hgt]
    have : (dayOf (now 1) - dsw).toNat = (dayOf (now 1)).toNat - dsw.toNat :=
      UInt32.toNat_sub_of_le _ _ (UInt32.le_of_lt hgt)
    rw [this, shiftDays_get]
    congr 1
    split
    · rfl
    · rw [Vector.getElem?_eq_getElem (by omega)]; rfl
  · rw [if_neg hgt]
    have : (dayOf (now 1)).toNat - dsw.toNat = 0 := by
      have : ¬ dsw.toNat < (dayOf (now 1)).toNat := fun h => hgt (UInt32.lt_iff_toNat_lt.2 h)
      omega
    rw [this]
    simp [h]

/-- The totals at the end of a run. -/
theorem totals_counted (now : Nat → UInt64) (day : UInt32) (as : List AreaStat) (ns : List NodeStat)
    (k : Nat) (a a' : AreaStat) (hk : as[k]? = some a) (hk' : (endOfRun now day as ns).2.1[k]? = some a') :
    a'.texts = a.texts + a.newTexts ∧ a'.dupes = a.dupes + a.newDupes ∧
    a'.lastTime = (if a.newTexts = 0 then a.lastTime else now 2) ∧
    a'.firstTime = (if a.newTexts = 0 ∨ a.firstTime ≠ 0 then a.firstTime else now 3) := by
  generalize hd : (if day = 0 then dayOf (now 0) else day) = dsw
  simp only [endOfRun, List.getElem?_map, hk, Option.map_some, Option.some.injEq, hd] at hk'
  subst hk'
  have key : ∀ b : AreaStat, (countArea (now 2) (now 3) b).texts = b.texts + b.newTexts ∧
      (countArea (now 2) (now 3) b).dupes = b.dupes + b.newDupes ∧
      (countArea (now 2) (now 3) b).lastTime = (if b.newTexts = 0 then b.lastTime else now 2) ∧
      (countArea (now 2) (now 3) b).firstTime = (if b.newTexts = 0 ∨ b.firstTime ≠ 0 then b.firstTime else now 3) := by
    intro b
    unfold countArea
    by_cases h1 : b.newTexts = 0 <;> by_cases h2 : b.newDupes = 0 <;> by_cases h3 : b.firstTime = 0 <;>
      simp [h1, h2, h3]
  split <;> exact key _

/-- C48. At the end of a run nothing of the counters of a node changes, and the time of its first
message is noted once: at the end of the first run with traffic. -/
theorem node_first_time (now : Nat → UInt64) (day : UInt32) (as : List AreaStat) (ns : List NodeStat)
    (k : Nat) (n n' : NodeStat) (hk : ns[k]? = some n) (hk' : (endOfRun now day as ns).2.2[k]? = some n') :
    n' = { n with firstTime := n'.firstTime } ∧
    (n.firstTime ≠ 0 → n'.firstTime = n.firstTime) ∧
    (n.firstTime = 0 → n.gotEchomails = 0 → n.gotNetmails = 0 → n.sentEchomails = 0 → n.sentNetmails = 0 → n'.firstTime = 0) ∧
    (n.firstTime = 0 → (n.gotEchomails ≠ 0 ∨ n.gotNetmails ≠ 0 ∨ n.sentEchomails ≠ 0 ∨ n.sentNetmails ≠ 0) → n'.firstTime = now 4) := by
  simp only [endOfRun, List.getElem?_map, hk, Option.map_some, Option.some.injEq] at hk'
  subst hk'
  unfold countNode
  split
  · next h => exact ⟨rfl, fun e => absurd h.1 e, fun _ a b c d => by rcases h.2 with x | x | x | x <;> contradiction, fun _ _ => rfl⟩
  · next h => exact ⟨rfl, fun _ => rfl, fun e _ _ _ _ => e, fun e x => absurd ⟨e, x⟩ h⟩

namespace Ex

/-- A node with traffic for the first time, and one that had some before. -/
theorem first_times : (endOfRun (fun k => 1700000000 + UInt64.ofNat k) 19672 [] [{ node := ⟨2, 201, 300, 1⟩, sentNetmails := 1 },
    { node := ⟨2, 201, 300, 2⟩, sentNetmails := 1, firstTime := 5 }, { node := ⟨2, 201, 300, 3⟩ }]).2.2.map (·.firstTime) =
    [1700000004, 5, 0] := by decide +kernel

end Ex

namespace Ex

def echoStat (tag : Str) (n : UInt32) : AreaStat :=
  { tag := tag, type := .echomail, aka := some ⟨2, 201, 300, 0⟩, texts := n, last8 := #v[1, 2, 3, 4, 5, 6, 7, 8],
    firstTime := 1700000000, lastTime := 1700000001 }

def nodeStat (p : UInt16) (n : UInt32) : NodeStat := { node := ⟨2, 201, 300, p⟩, gotNetmails := n, firstTime := 5 }

/-- The hypotheses of `stats_roundtrip_partial` are met by two areas and two nodes. -/
example : ∃ d f bs' ms',
    writeStats (fun _ _ => 7) (fun _ _ => 9) 1700000000 19675 [echoStat b!"A" 5, echoStat b!"B" 6]
      [nodeStat 1 3, nodeStat 2 4] = .ok (d, f) ∧
    readStats (some f) 0 [echoStat b!"b" 0, echoStat b!"a" 0] [nodeStat 2 0, nodeStat 1 0] = .ok (true, d, bs', ms') ∧
    bs'.length = 2 ∧ ms'.length = 2 := by
  obtain ⟨d, f, bs', ms', h1, h2, h3, h4, _⟩ := stats_roundtrip_partial (fun _ _ => 7) (fun _ _ => 9) 1700000000 19675 0
    [echoStat b!"A" 5, echoStat b!"B" 6] [echoStat b!"b" 0, echoStat b!"a" 0]
    [nodeStat 1 3, nodeStat 2 4] [nodeStat 2 0, nodeStat 1 0]
    (by decide) (by intro a ha _; simp [echoStat] at ha; rcases ha with rfl | rfl <;> simp)
    (by decide) (by decide)
    (by simp [SameTag, echoStat, lower]) (by simp [SameTag, echoStat, lower]) (by decide) (by decide) (by decide)
    (by decide)
  exact ⟨d, f, bs', ms', h1, h2, h3, h4⟩

/-- The counters of the areas after a round through the file. -/
def textsAfter (as bs : List AreaStat) : Except UB (List UInt32) :=
  match writeStats (fun _ _ => 7) (fun _ _ => 9) 1700000000 19675 as [] with
  | .error e => .error e
  | .ok (_, f) => match readStats (some f) 0 bs [] with
    | .error e => .error e
    | .ok (_, _, bs', _) => .ok (bs'.map (·.texts))

/-- C47 fails for two areas whose tags differ in case only: the first gets the counters of the
second and the second gets none. -/
theorem same_tag_loses : textsAfter [echoStat b!"FIDO" 5, echoStat b!"fido" 6] [echoStat b!"FIDO" 0, echoStat b!"fido" 0]
    = .ok [6, 0] := by decide +kernel

/-- The counters of a local area are not kept. -/
theorem local_not_kept : textsAfter [{ echoStat b!"NOTES" 5 with type := .local }]
    [{ echoStat b!"NOTES" 0 with type := .local }] = .ok [0] := by decide +kernel

/-- Three days later, two messages: the old counters are three places on. -/
theorem three_days : ((endOfRun (fun _ => 1700000000) 19672 [{ echoStat b!"A" 5 with newTexts := 2 }] []).2.1.map
    (·.last8.toList)) = [[2, 0, 0, 1, 2, 3, 4, 5]] := by decide +kernel

/-- A gap of more than eight days clears the history. -/
theorem long_gap : ((endOfRun (fun _ => 1700000000) 19600 [echoStat b!"A" 5] []).2.1.map
    (·.last8.toList)) = [[0, 0, 0, 0, 0, 0, 0, 0]] := by decide +kernel

end Ex

end CM
