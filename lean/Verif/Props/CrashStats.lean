import Verif.Lemmas.CrashStats
/-! # C93: the report of CrashStats -/

set_option linter.unusedSimpArgs false

namespace CM

/-! ## Lines -/

theorem ago_lt (x : AreaStat) (i : Nat) : x.ago i < 65536 := (x.last8.getD i 0).toNat_lt

theorem average_eq (day : UInt32) (x : AreaStat) (h : GoodTime day x.firstTime) :
    (csLine day (diskOf x)).average.toNat = x.average day := csAverage_eq x.last8 x.texts day x.firstTime h

theorem average_lt (day : UInt32) (x : AreaStat) (h : x.texts.toNat < 2 ^ 31) : x.average day < 2 ^ 31 := by
  exact perDay_le _ _ _ _ 65536 (fun i => Nat.le_of_lt (ago_lt x i)) h (by omega)

/-- The line of an area. -/
theorem csRow_eq (e : StatEnv) (hc : GoodClock e.localtime) (day : UInt32) (x : AreaStat) (h1 : x.tag ≠ []) (h2 : (32 : UInt8) ∉ x.tag)
    (h3 : (10 : UInt8) ∉ x.tag) (ht : GoodTime day x.firstTime) (hl : x.lastTime.toNat < 2 ^ 55) (hx : x.texts.toNat < 2 ^ 31)
    (hd : x.dupes.toNat < 2 ^ 31) :
    ∃ row, csRow e (csLine day (diskOf x)) = .ok row ∧ RowOf (areaColumns e.localtime false day x) row := by
  have a1 := csDateOr_eq e hc x.firstTime ht.1
  have a2 := csDateOr_eq e hc x.lastTime hl
  have g1 := dateShown_good e.localtime hc x.firstTime ht.1
  have g2 := dateShown_good e.localtime hc x.lastTime hl
  have av : sdec (csLine day (diskOf x)).average = dec (x.average day) := by
    rw [sdec_small _ (by rw [average_eq day x ht]; exact average_lt day x hx), average_eq day x ht]
  unfold csRow
  rw [show (csLine day (diskOf x)).last = x.lastTime from rfl, show (csLine day (diskOf x)).first = x.firstTime from rfl, a1, a2]
  refine ⟨_, rfl, _, rfl, ?_, ?_⟩
  · rw [List.take_of_length_le g1.2.2.2, List.take_of_length_le g2.2.2.2, av, show (csLine day (diskOf x)).total = x.texts from rfl,
      show (csLine day (diskOf x)).dupes = x.dupes from rfl, show (csLine day (diskOf x)).tag = x.tag from rfl, sdec_small _ hx, sdec_small _ hd]
    have := padR_no_nl 29 _ (take_no 30 h3)
    have := padR_no_nl 9 _ g1.2.2.1
    have := padR_no_nl 9 _ g2.2.2.1
    have := padL_no_nl 7 _ (dec_no_nl x.texts.toNat)
    have := padL_no_nl 7 _ (dec_no_nl (x.average day))
    have := padL_no_nl 7 _ (dec_no_nl x.dupes.toNat)
    simp [*]
  · rw [List.take_of_length_le g1.2.2.2, List.take_of_length_le g2.2.2.2, av, show (csLine day (diskOf x)).total = x.texts from rfl,
      show (csLine day (diskOf x)).dupes = x.dupes from rfl, show (csLine day (diskOf x)).tag = x.tag from rfl, sdec_small _ hx, sdec_small _ hd]
    simp only [List.append_assoc, List.cons_append, List.nil_append, columns_padR _ _ _ (take_ne 30 h1 (by omega)) (take_no 30 h2),
      columns_padR _ _ _ g1.1 g1.2.1, columns_padR _ _ _ g2.1 g2.2.1, columns_padL _ _ _ (dec_ne_nil _) (dec_no_sp _), columns_sp,
      columns_padL_last _ _ (dec_ne_nil _) (dec_no_sp _)]
    rfl

/-- A line with the numbers of the last seven days. -/
theorem csWeekRow_eq (name : Str) (ws : List Str) (d : Days) (tot : UInt32) (cnt : Nat → Nat)
    (hn : ∀ r, columns (padR 33 (name.take 33) ++ 32 :: r) = ws ++ columns r) (hl : (10 : UInt8) ∉ name)
    (hd : ∀ i, 1 ≤ i → i < 8 → (d.getD i 0).toNat = cnt i) (ht : tot.toNat = ((List.range 7).map fun i => cnt (i + 1)).sum)
    (hs : tot.toNat < 2 ^ 31) : RowOf (ws ++ week cnt) (csWeekRow name d tot) := by
  unfold csWeekRow
  refine ⟨_, rfl, ?_, ?_⟩
  · have := padR_no_nl 33 _ (take_no 33 hl)
    have h : ∀ n, (10 : UInt8) ∉ padL 4 (dec n) := fun n => padL_no_nl 4 _ (dec_no_nl n)
    have h5 := padL_no_nl 5 _ (dec_no_nl tot.toNat)
    rw [sdec_small _ hs]
    simp [this, h, h5, List.range_succ]
  · rw [sdec_small _ hs]
    unfold week
    rw [← ht]
    simp only [List.range_succ, List.range_zero, List.nil_append, List.cons_append, List.flatMap_cons, List.flatMap_nil, List.append_nil,
      List.append_assoc, List.map_cons, List.map_nil, hn, columns_padL _ _ _ (dec_ne_nil _) (dec_no_sp _), columns_sp]
    rw [hd 1 (by omega) (by omega), hd 2 (by omega) (by omega), hd 3 (by omega) (by omega), hd 4 (by omega) (by omega),
      hd 5 (by omega) (by omega), hd 6 (by omega) (by omega), hd 7 (by omega) (by omega)]
    have c : ∀ r, columns (58 :: 32 :: r) = b!":" :: columns r := fun r => columns_word [58] r (by decide) (by decide)
    simp only [c, columns_padL_last _ _ (dec_ne_nil _) (dec_no_sp _)]

theorem weekSum_eq (d : Days) (cnt : Nat → Nat) (hd : ∀ i, 1 ≤ i → i < 8 → (d.getD i 0).toNat = cnt i) :
    (weekSum d).toNat = ((List.range 7).map fun i => cnt (i + 1)).sum ∧ (weekSum d).toNat < 2 ^ 31 := by
  obtain ⟨h1, h2⟩ := csSum_eq d 7 (Nat.le_refl _)
  refine ⟨?_, by unfold weekSum; omega⟩
  unfold weekSum
  rw [h1]
  congr 1
  apply List.map_congr_left
  intro i hi
  exact hd _ (by omega) (by have := List.mem_range.1 hi; omega)

/-- The words at the start of the line with the totals. -/
theorem total_words (n k : Nat) (r : Str) :
    columns (padR k (b!"Totally in all " ++ dec n ++ b!" areas") ++ 32 :: r) = [b!"Totally", b!"in", b!"all", dec n, b!"areas"] ++ columns r := by
  have e : padR k (b!"Totally in all " ++ dec n ++ b!" areas") ++ 32 :: r =
      b!"Totally" ++ 32 :: (b!"in" ++ 32 :: (b!"all" ++ 32 :: (dec n ++ 32 :: (b!"areas" ++ (List.replicate (k - (21 + (dec n).length)) 32 ++ 32 :: r))))) := by
    unfold padR
    simp [Nat.add_comm, Nat.add_left_comm]
  have e2 : b!"areas" ++ (List.replicate (k - (21 + (dec n).length)) 32 ++ 32 :: r) = b!"areas" ++ 32 :: (List.replicate (k - (21 + (dec n).length)) 32 ++ r) := by
    congr 1
    rw [show (32 : UInt8) :: r = [32] ++ r from rfl, ← List.append_assoc, ← List.replicate_succ', List.replicate_succ]
    rfl
  rw [e, e2, columns_word _ _ (by decide) (by decide), columns_word _ _ (by decide) (by decide), columns_word _ _ (by decide) (by decide),
    columns_word _ _ (dec_ne_nil _) (dec_no_sp _), columns_word _ _ (by decide) (by decide), columns_rep]
  rfl

theorem total_no_nl (n : Nat) : (10 : UInt8) ∉ b!"Totally in all " ++ dec n ++ b!" areas" := by
  simp [dec_no_nl]

/-! ## The table of the areas -/

/-- The limits of one area. -/
theorem StatLimits.area {b : Bool} {day : UInt32} {as : List AreaStat} {ns : List NodeStat} (h : StatLimits b day as ns) {x : AreaStat}
    (hx : x ∈ as) : x.texts.toNat < 2 ^ 31 ∧ x.dupes.toNat < 2 ^ 31 :=
  ⟨Nat.lt_of_le_of_lt (sum_le_of_mem (fun x : AreaStat => x.texts.toNat) hx) h.texts,
    Nat.lt_of_le_of_lt (sum_le_of_mem (fun x : AreaStat => x.dupes.toNat) hx) h.dupes⟩

theorem zero_days (i : Nat) : ((Vector.replicate 8 (0 : UInt16) : Days).getD i 0).toNat = 0 := by
  by_cases h : i < 8
  · rw [days_getD _ _ h]; simp
  · simp [Vector.getD, h]

/-- The totals of the days. -/
theorem days_total (lo : Nat) (day : UInt32) (L : List AreaStat) (i : Nat) (h0 : lo ≤ i) (h8 : i < 8) (hd : (L.map (·.ago i)).sum < 65536) :
    (((L.map fun x => csLine day (diskOf x)).foldl (fun t s => addDays lo t s.last8) (Vector.replicate 8 0)).getD i 0).toNat =
      (L.map (·.ago i)).sum := by
  rw [List.foldl_map]
  have := foldl_days lo (fun x : AreaStat => x.last8) i h8 h0 L (Vector.replicate 8 0) (by rw [zero_days, Nat.zero_add]; exact hd)
  rw [zero_days, Nat.zero_add] at this
  exact this

theorem csTable_eq (e : StatEnv) (hc : GoodClock e.localtime) (day : UInt32) (first : UInt64) (as : List AreaStat) (ns : List NodeStat)
    (b : Bool) (hl : StatLimits b day as ns) (hf : GoodTime day first) (L : List AreaStat) (p : AreaStat → Bool) (hp : L.Perm (as.filter p)) :
    ∃ (row : AreaStat → Str) (head tot : Str) (n m : Nat), csTable e day first (L.map fun x => csLine day (diskOf x)) =
      .ok (head ++ List.replicate n 61 ++ b!"\n" ++ L.flatMap row ++ List.replicate m 61 ++ b!"\n" ++ tot) ∧
      RowOf (headColumns e.localtime false day) head ∧ (∀ x ∈ L, RowOf (areaColumns e.localtime false day x) (row x)) ∧
      RowOf (totalColumns false day first L) tot := by
  have mem : ∀ x ∈ L, x ∈ as := fun x hx => (List.mem_filter.1 (hp.mem_iff.1 hx)).1
  have each : ∀ x ∈ L, ∃ row, csRow e (csLine day (diskOf x)) = .ok row ∧ RowOf (areaColumns e.localtime false day x) row := by
    intro x hx
    have m := mem x hx
    obtain ⟨t1, t2, t3, t4⟩ := hl.tags x m
    obtain ⟨q1, q2⟩ := hl.times x m
    exact csRow_eq e hc day x t1 t2 t3 q1 q2 (hl.area m).1 (hl.area m).2
  let g : StatLine → Str := fun s => match csRow e s with
    | .ok r => r
    | .error _ => []
  have hg : (L.map fun x => csLine day (diskOf x)).mapM (csRow e) = .ok ((L.map fun x => csLine day (diskOf x)).map g) := by
    apply mapM_ok
    intro s hs
    obtain ⟨x, hx, rfl⟩ := List.mem_map.1 hs
    obtain ⟨r, hr, _⟩ := each x hx
    simp only [g, hr]
  have ht : (L.map (·.texts.toNat)).sum < 2 ^ 31 := Nat.lt_of_le_of_lt (sum_perm_filter _ _ hp) hl.texts
  have hd : (L.map (·.dupes.toNat)).sum < 2 ^ 31 := Nat.lt_of_le_of_lt (sum_perm_filter _ _ hp) hl.dupes
  have hday : ∀ i, (L.map (·.ago i)).sum < 65536 := fun i => Nat.lt_of_le_of_lt (sum_perm_filter _ _ hp) (hl.daily i)
  have hlen : L.length < 2 ^ 32 := by
    rw [hp.length_eq]; exact Nat.lt_of_le_of_lt (List.length_filter_le ..) hl.areas
  have T : ((L.map fun x => csLine day (diskOf x)).foldl (fun t (s : StatLine) => t + s.total) (0 : UInt32)).toNat = (L.map (·.texts.toNat)).sum := by
    rw [List.foldl_map]
    have := foldl_u32 (fun x : AreaStat => x.texts) L 0 (by simp; omega)
    rw [show (0 : UInt32).toNat = 0 from rfl, Nat.zero_add] at this
    exact this
  have D : ((L.map fun x => csLine day (diskOf x)).foldl (fun t (s : StatLine) => t + s.dupes) (0 : UInt32)).toNat = (L.map (·.dupes.toNat)).sum := by
    rw [List.foldl_map]
    have := foldl_u32 (fun x : AreaStat => x.dupes) L 0 (by simp; omega)
    rw [show (0 : UInt32).toNat = 0 from rfl, Nat.zero_add] at this
    exact this
  unfold csTable
  rw [hg]
  generalize hT : (L.map fun x => csLine day (diskOf x)).foldl (fun t s => t + s.total) 0 = total at T
  generalize hD : (L.map fun x => csLine day (diskOf x)).foldl (fun t s => t + s.dupes) 0 = dupes at D
  generalize hW : (L.map fun x => csLine day (diskOf x)).foldl (fun t s => addDays 0 t s.last8) (Vector.replicate 8 0) = wk
  have W : ∀ i, (wk.getD i 0).toNat = if i < 8 then (L.map (·.ago i)).sum else 0 := by
    intro i
    by_cases h : i < 8
    · rw [if_pos h, ← hW]; exact days_total 0 day L i (Nat.zero_le _) h (hday i)
    · rw [if_neg h]; simp [Vector.getD, h]
  have A : (csAverage wk total day ((timeInt first).tdiv 86400)).toNat =
      perDay day.toNat first.toNat (fun i => (L.map (·.ago i)).sum) (L.map (·.texts.toNat)).sum := by
    rw [csAverage_eq wk total day first hf, T]
    exact perDay_congr _ _ _ _ _ fun i hi => by rw [W, if_pos (by omega)]
  have Al : (csAverage wk total day ((timeInt first).tdiv 86400)).toNat < 2 ^ 31 := by
    rw [A]
    exact perDay_le _ _ _ _ 65536 (fun i => Nat.le_of_lt (hday i)) ht (by omega)
  rw [List.length_map]
  generalize hN : b!"Totally in all " ++ dec L.length ++ b!" areas" = N
  have N1 : (10 : UInt8) ∉ N := by rw [← hN]; exact total_no_nl _
  have N2 : ∀ r, columns (padR 42 N ++ 32 :: r) = [b!"Totally", b!"in", b!"all", dec L.length, b!"areas"] ++ columns r := by
    rw [← hN]; exact total_words _ _
  have hh : columns b!"Area                           First     Last         Msgs  Msgs/day   Dupes" =
      [b!"Area", b!"First", b!"Last", b!"Msgs", b!"Msgs/day", b!"Dupes"] := by decide +kernel
  refine ⟨fun x => g (csLine day (diskOf x)), b!"Area                           First     Last         Msgs  Msgs/day   Dupes\n",
    padR 42 N ++ List.replicate 9 32 ++
      padL 7 (sdec total) ++ b!"   " ++ padL 7 (sdec (csAverage wk total day ((timeInt first).tdiv 86400))) ++ b!" " ++
      padL 7 (sdec dupes) ++ b!"\n", 76, 76, ?_,
    ⟨b!"Area                           First     Last         Msgs  Msgs/day   Dupes", rfl, by decide, hh⟩, ?_, ?_⟩
  · have : ((L.map fun x => csLine day (diskOf x)).map g).flatten = L.flatMap fun x => g (csLine day (diskOf x)) := by
      rw [List.map_map, List.flatMap_def]; rfl
    rw [← this, ← hT, ← hD, ← hW]
    simp only [List.append_assoc]
    rfl
  · intro x hx
    obtain ⟨r, hr, h⟩ := each x hx
    simp only [g, hr]
    exact h
  · refine ⟨_, rfl, ?_, ?_⟩
    · rw [sdec_small _ (by omega), sdec_small _ Al, sdec_small _ (by omega)]
      have a := padR_no_nl 42 _ N1
      have b := fun n => padL_no_nl 7 _ (dec_no_nl n)
      simp only [List.mem_append, not_or]
      refine ⟨⟨⟨⟨⟨⟨a, by simp [List.mem_replicate]⟩, b _⟩, by decide⟩, b _⟩, by decide⟩, b _⟩
    · rw [sdec_small _ (by omega), sdec_small _ Al, sdec_small _ (by omega)]
      simp only [List.append_assoc]
      rw [show List.replicate 9 (32 : UInt8) = 32 :: List.replicate 8 32 from rfl, List.cons_append, N2, columns_rep]
      simp only [List.cons_append, List.nil_append, columns_padL _ _ _ (dec_ne_nil _) (dec_no_sp _), columns_sp,
        columns_padL_last _ _ (dec_ne_nil _) (dec_no_sp _)]
      rw [T, D, A]
      rfl

theorem day_time (day : UInt32) (k : Nat) : (UInt64.ofNat ((day.toNat - k) * 86400)).toNat = (day.toNat - k) * 86400 ∧
    (UInt64.ofNat ((day.toNat - k) * 86400)).toNat < 2 ^ 55 := by
  have := day.toNat_lt
  have a : (day.toNat - k) * 86400 < 2 ^ 55 := by omega
  rw [UInt64.toNat_ofNat', Nat.mod_eq_of_lt (Nat.lt_trans a (by decide))]
  exact ⟨rfl, a⟩

/-- The days in the heading. -/
theorem csWeekHead_eq (e : StatEnv) (hc : GoodClock e.localtime) (day : UInt32) (h7 : 7 ≤ day.toNat) (hs : day.toNat * 86400 < 2 ^ 32)
    (md : Nat → Str) (hmd : ∀ i, md i = match e.localtime (UInt64.ofNat ((day.toNat - (i + 1)) * 86400)) with
      | some tm => twoDigits tm.mday
      | none => []) : ∀ n, n ≤ 7 → csWeekHead e day n = .ok ((List.range n).flatMap fun i => b!"   " ++ md i) := by
  intro n
  induction n with
  | zero => intro _; rfl
  | succ n ih =>
    intro hn
    have e1 : ((day - UInt32.ofNat (n + 1)) * 86400).toUInt64 = UInt64.ofNat ((day.toNat - (n + 1)) * 86400) := by
      apply UInt64.toNat_inj.1
      have a : (UInt32.ofNat (n + 1)).toNat = n + 1 := by rw [UInt32.toNat_ofNat']; omega
      have l := day.toNat_lt
      have b : (day - UInt32.ofNat (n + 1)).toNat = day.toNat - (n + 1) := by
        rw [UInt32.toNat_sub_of_le]
        · rw [a]
        · rw [UInt32.le_iff_toNat_le, a]; omega
      have c : ((day - UInt32.ofNat (n + 1)) * 86400).toNat = (day.toNat - (n + 1)) * 86400 := by
        rw [UInt32.toNat_mul, b]
        have k : (86400 : UInt32).toNat = 86400 := rfl
        have : (day.toNat - (n + 1)) * 86400 < 2 ^ 32 := Nat.lt_of_le_of_lt (Nat.mul_le_mul_right _ (Nat.sub_le ..)) hs
        rw [k, Nat.mod_eq_of_lt this]
      rw [(day_time day (n + 1)).1, UInt32.toNat_toUInt64, c]
    obtain ⟨tm, h, h1, _⟩ := hc (UInt64.ofNat ((day.toNat - (n + 1)) * 86400)) (day_time day _).2
    have m : md n = twoDigits tm.mday := by rw [hmd n, h]
    rw [csWeekHead, ih (by omega), e1, h, List.range_succ, List.flatMap_append, List.flatMap_cons, List.flatMap_nil, List.append_nil, m,
      ← show2_eq _ h1]
    simp only [← List.append_assoc]
    rfl

theorem csWeekTable_eq (e : StatEnv) (hc : GoodClock e.localtime) (day : UInt32) (first : UInt64) (as : List AreaStat) (ns : List NodeStat)
    (hl : StatLimits true day as ns) (L : List AreaStat) (p : AreaStat → Bool) (hp : L.Perm (as.filter p)) :
    ∃ (row : AreaStat → Str) (head tot : Str) (n m : Nat), csWeekTable e day (L.map fun x => csLine day (diskOf x)) =
      .ok (head ++ List.replicate n 61 ++ b!"\n" ++ L.flatMap row ++ List.replicate m 61 ++ b!"\n" ++ tot) ∧
      RowOf (headColumns e.localtime true day) head ∧ (∀ x ∈ L, RowOf (areaColumns e.localtime true day x) (row x)) ∧
      RowOf (totalColumns true day first L) tot := by
  have mem : ∀ x ∈ L, x ∈ as := fun x hx => (List.mem_filter.1 (hp.mem_iff.1 hx)).1
  have hday : ∀ i, (L.map (·.ago i)).sum < 65536 := fun i => Nat.lt_of_le_of_lt (sum_perm_filter _ _ hp) (hl.daily i)
  have hlen : L.length < 2 ^ 32 := by
    rw [hp.length_eq]; exact Nat.lt_of_le_of_lt (List.length_filter_le ..) hl.areas
  obtain ⟨h7, hs⟩ := hl.today rfl
  let md : Nat → Str := fun i => match e.localtime (UInt64.ofNat ((day.toNat - (i + 1)) * 86400)) with
      | some tm => twoDigits tm.mday
      | none => []
  have hmd : ∀ i, md i ≠ [] ∧ (32 : UInt8) ∉ md i ∧ (10 : UInt8) ∉ md i := by
    intro i
    obtain ⟨tm, h, h1, _⟩ := hc (UInt64.ofNat ((day.toNat - (i + 1)) * 86400)) (day_time day _).2
    have : md i = twoDigits tm.mday := by simp only [md, h]
    rw [this]
    exact ⟨by simp [twoDigits], twoDigits_good _ h1⟩
  have H := csWeekHead_eq e hc day h7 hs md (fun _ => rfl) 7 (Nat.le_refl _)
  unfold csWeekTable
  rw [H, List.length_map]
  generalize hW : (L.map fun x => csLine day (diskOf x)).foldl (fun t s => addDays 1 t s.last8) (Vector.replicate 8 0) = wk
  have W : ∀ i, 1 ≤ i → i < 8 → (wk.getD i 0).toNat = (L.map (·.ago i)).sum := by
    intro i h1 h
    rw [← hW]; exact days_total 1 day L i h1 h (hday i)
  refine ⟨fun x => csWeekRow x.tag x.last8 (weekSum x.last8), b!"Area                             " ++ ((List.range 7).flatMap fun i => b!"   " ++ md i) ++ b!"   Total\n",
    csWeekRow (b!"Totally in all " ++ dec L.length ++ b!" areas") wk (weekSum wk), 76, 77, ?_, ?_, ?_, ?_⟩
  · rw [List.flatMap_map, ← hW]
    show Except.ok _ = _
    unfold ruler
    simp only [List.append_assoc]
    rfl
  · refine ⟨b!"Area                             " ++ ((List.range 7).flatMap fun i => b!"   " ++ md i) ++ b!"   Total", by simp, ?_, ?_⟩
    · have := fun i => (hmd i).2.2
      simp [List.range_succ, this]
    · have c0 : ∀ r, columns (b!"Area                             " ++ (b!"   " ++ r)) = b!"Area" :: columns r := by
        intro r
        show columns (b!"Area" ++ 32 :: (List.replicate 31 32 ++ r)) = _
        rw [columns_word _ _ (by decide) (by decide), columns_rep]
      have c1 : ∀ i r, columns (md i ++ (b!"   " ++ r)) = md i :: columns r := by
        intro i r
        show columns (md i ++ 32 :: 32 :: 32 :: r) = _
        rw [columns_word _ _ (hmd i).1 (hmd i).2.1, columns_sp, columns_sp]
      have c2 : columns b!"Total" = [b!"Total"] := by decide
      rw [show b!"   Total" = b!"   " ++ b!"Total" from rfl]
      simp only [List.range_succ, List.range_zero, List.nil_append, List.flatMap_append, List.flatMap_cons, List.flatMap_nil, List.append_nil,
        List.append_assoc]
      rw [c0]
      simp only [c1, c2]
      rfl
  · intro x hx
    obtain ⟨t1, t2, t3, t4⟩ := hl.tags x (mem x hx)
    obtain ⟨w1, w2⟩ := weekSum_eq x.last8 x.ago (fun _ _ _ => rfl)
    exact csWeekRow_eq x.tag [x.tag.take 33] x.last8 (weekSum x.last8) x.ago
      (fun r => columns_padR _ _ _ (take_ne 33 t1 (by omega)) (take_no 33 t2)) t3 (fun _ _ _ => rfl) w1 w2
  · obtain ⟨w1, w2⟩ := weekSum_eq wk (fun i => (L.map (·.ago i)).sum) W
    refine csWeekRow_eq _ [b!"Totally", b!"in", b!"all", dec L.length, b!"areas"] wk (weekSum wk) (fun i => (L.map (·.ago i)).sum)
      (fun r => ?_) (total_no_nl _) W w1 w2
    rw [List.take_of_length_le]
    · exact total_words _ _ _
    · have := dec_length_le (k := 10) (by omega) (show L.length < 10 ^ 10 by omega)
      simp
      omega

/-! ## The table of the nodes -/

theorem countLine (k : Nat) (a what : Str) (n b : UInt32) (ha : a ≠ []) (ha' : (32 : UInt8) ∉ a) (ha2 : (10 : UInt8) ∉ a) (hw : what ≠ [])
    (hw' : (32 : UInt8) ∉ what) (hw2 : (10 : UInt8) ∉ what) :
    RowOf (a :: countColumns sizeShown what n b)
      (List.replicate k 32 ++ (a ++ 32 :: (what ++ 32 :: (dec n.toNat ++ b!"/" ++ dec (b.toNat / 1048576) ++ b!" MB"))) ++ b!"\n") := by
  refine ⟨_, rfl, ?_, ?_⟩
  · simp [List.mem_replicate, ha2, hw2, dec_no_nl]
  · rw [columns_rep, columns_word _ _ ha ha', columns_word _ _ hw hw']
    rw [show b!" MB" = 32 :: b!"MB" from rfl, columns_word _ _ (by simp) (by simp [dec_no_sp])]
    have : columns b!"MB" = [b!"MB"] := by decide
    rw [this]
    rfl

theorem csNode_eq (e : StatEnv) (hc : GoodClock e.localtime) (n : NodeStat) (ht : n.firstTime.toNat < 2 ^ 55) :
    ∃ text, csNode e n = .ok text ∧ NodeShown e.localtime sizeShown n text := by
  have d := csNodeDate_eq e hc n.firstTime ht
  have g := nodeDateShown_good e.localtime hc n.firstTime ht
  unfold csNode
  rw [d]
  generalize hA : dec n.node.zone.toNat ++ b!":" ++ dec n.node.net.toNat ++ b!"/" ++ dec n.node.node.toNat ++ b!"." ++ dec n.node.point.toNat = A
  have A0 : A ≠ [] := by rw [← hA]; simp
  have A1 : (32 : UInt8) ∉ A := by rw [← hA]; simp [dec_no_sp]
  have A2 : (10 : UInt8) ∉ A := by rw [← hA]; simp [dec_no_nl]
  have A3 : A.length ≤ 40 := by
    have l : ∀ x : UInt16, (dec x.toNat).length ≤ 5 := fun x => dec_length_le (by omega) (by have := x.toNat_lt; omega)
    have := l n.node.zone
    have := l n.node.net
    have := l n.node.node
    have := l n.node.point
    rw [← hA]; simp; omega
  refine ⟨_, rfl, padR 30 A ++ b!" Statistics since: " ++ nodeDateShown e.localtime n.firstTime ++ b!"\n",
    List.replicate 34 32 ++ (b!"Sent" ++ 32 :: (b!"netmails:" ++ 32 :: (dec n.sentNetmails.toNat ++ b!"/" ++ dec (n.sentNetmailBytes.toNat / 1048576) ++ b!" MB"))) ++ b!"\n",
    List.replicate 30 32 ++ (b!"Received" ++ 32 :: (b!"netmails:" ++ 32 :: (dec n.gotNetmails.toNat ++ b!"/" ++ dec (n.gotNetmailBytes.toNat / 1048576) ++ b!" MB"))) ++ b!"\n",
    List.replicate 33 32 ++ (b!"Sent" ++ 32 :: (b!"echomails:" ++ 32 :: (dec n.sentEchomails.toNat ++ b!"/" ++ dec (n.sentEchomailBytes.toNat / 1048576) ++ b!" MB"))) ++ b!"\n",
    List.replicate 29 32 ++ (b!"Received" ++ 32 :: (b!"echomails:" ++ 32 :: (dec n.gotEchomails.toNat ++ b!"/" ++ dec (n.gotEchomailBytes.toNat / 1048576) ++ b!" MB"))) ++ b!"\n",
    List.replicate 42 32 ++ (b!"Dupes:" ++ 32 :: dec n.dupes.toNat) ++ b!"\n", ?_, ?_,
    countLine _ _ _ _ _ (by decide) (by decide) (by decide) (by decide) (by decide) (by decide),
    countLine _ _ _ _ _ (by decide) (by decide) (by decide) (by decide) (by decide) (by decide),
    countLine _ _ _ _ _ (by decide) (by decide) (by decide) (by decide) (by decide) (by decide),
    countLine _ _ _ _ _ (by decide) (by decide) (by decide) (by decide) (by decide) (by decide), ?_⟩
  · rw [List.take_of_length_le A3]
    simp only [unit_mb, List.append_assoc, List.cons_append, List.nil_append]
  · refine ⟨_, rfl, ?_, ?_⟩
    · have := padR_no_nl 30 _ A2
      simp [this, g]
    · rw [hA]
      have : padR 30 A ++ b!" Statistics since: " ++ nodeDateShown e.localtime n.firstTime =
          padR 30 A ++ 32 :: (b!"Statistics" ++ 32 :: (b!"since:" ++ 32 :: nodeDateShown e.localtime n.firstTime)) := by simp
      rw [this, columns_padR _ _ _ A0 A1, columns_word _ _ (by decide) (by decide), columns_word _ _ (by decide) (by decide),
        columns_last _ g.1 g.2.1]
  · refine ⟨_, rfl, ?_, ?_⟩
    · simp [List.mem_replicate, dec_no_nl]
    · rw [columns_rep, columns_word _ _ (by decide) (by decide), columns_last _ (dec_ne_nil _) (dec_no_sp _)]

theorem csNodeTable_eq (e : StatEnv) (hc : GoodClock e.localtime) (he : GoodSort e) (ns : List NodeStat)
    (h : ∀ n ∈ ns, n.node.zone ≠ 0 ∧ n.firstTime.toNat < 2 ^ 55) :
    ∃ text, csNodeTable e (csSortNodes e ns) = .ok text ∧ NodeTable e.localtime sizeShown ns text := by
  have sorts : (csSortNodes e ns).Perm ns ∧ (csSortNodes e ns).Pairwise fun a b => compare4D a.node b.node ≤ 0 := by
    unfold csSortNodes
    split
    · rename_i h; rw [h]; exact ⟨.refl _, .nil⟩
    · apply he.nodes
      · intro a _ b _
        have := compare4D_antisymm a.node b.node
        show compare4D a.node b.node ≤ 0 ∨ compare4D b.node a.node ≤ 0
        omega
      · intro a ha b hb c hc'
        exact compare4D_trans _ _ _ (h a ha).1 (h b hb).1 (h c hc').1
  let g : NodeStat → Str := fun n => match csNode e n with
    | .ok r => r
    | .error _ => []
  have each : ∀ n ∈ csSortNodes e ns, csNode e n = .ok (g n) ∧ NodeShown e.localtime sizeShown n (g n) := by
    intro n hn
    obtain ⟨t, h1, h2⟩ := csNode_eq e hc n (h n (sorts.1.mem_iff.1 hn)).2
    have : g n = t := by simp only [g, h1]
    rw [this]; exact ⟨h1, h2⟩
  unfold csNodeTable
  rw [mapM_ok (csNode e) g _ (fun n hn => (each n hn).1)]
  refine ⟨_, rfl, csSortNodes e ns, g, sorts.1, sorts.2, ?_, fun n hn => (each n hn).2⟩
  rw [List.flatMap_def]

/-! ## The report -/

/-- What is asked for with `SORT`: nothing, or one of the letters. -/
def SortAsked (a : StatArgs) (mode : UInt8) : Prop :=
  ((a.sort = none ∨ a.sort = some []) ∧ mode = 97) ∨ ∃ c r, a.sort = some (c :: r) ∧ mode = lower c ∧ mode ∈ b!"amtdlu"

theorem csWanted_iff (a : StatArgs) (x : AreaStat) : (csWanted a x.group && statWritten x) = true ↔ StatShown a.group x := by
  rw [Bool.and_eq_true, statWritten_iff]
  unfold StatShown csWanted
  cases hg : a.group with
  | none => simp
  | some g =>
    simp only [csCheckFlags, List.any_eq_true, beq_iff_eq, Option.some.injEq, forall_eq']
    constructor
    · rintro ⟨⟨c, h1, h2⟩, h3⟩; exact ⟨h3, c, h1, h2.symm⟩
    · rintro ⟨h3, c, h1, h2⟩; exact ⟨⟨c, h1, h2.symm⟩, h3⟩

/-- The order of the areas. -/
theorem sorted_areas (e : StatEnv) (he : GoodSort e) (a : StatArgs) (mode : UInt8) (ha : SortAsked a mode) (day : UInt32) (M : List AreaStat)
    (hM : ∀ x ∈ M, GoodTime day x.firstTime ∧ x.lastTime.toNat < 2 ^ 55) :
    ∃ L : List AreaStat, L.Perm M ∧ L.Pairwise (MayPrecede mode day) ∧
      csSort e (csMode a) (csSort e 97 (M.map fun x => csLine day (diskOf x))) = L.map fun x => csLine day (diskOf x) := by
  have perm := (csSort_perm e he (csMode a) (csSort e 97 (M.map fun x => csLine day (diskOf x)))).trans (csSort_perm e he 97 _)
  obtain ⟨L, h1, h2⟩ := perm_of_map (fun x => csLine day (diskOf x)) perm M rfl
  refine ⟨L, h1, ?_, h2⟩
  have mem : ∀ x ∈ L, GoodTime day x.firstTime ∧ x.lastTime.toNat < 2 ^ 55 := fun x hx => hM x (h1.mem_iff.1 hx)
  have alpha : csMode a = 97 ∨ csMode a = 0 → mode = 97 → L.Pairwise (MayPrecede mode day) := by
    intro hm m
    have s : (L.map fun x => csLine day (diskOf x)).Pairwise fun a b => cmpi a.tag b.tag ≤ 0 := by
      rw [← h2]
      rcases hm with hm | hm
      · rw [hm]; exact csSort_sorted e he 97 _ rfl _
      · rw [hm]
        have : ∀ l, csSort e 0 l = l := by intro l; unfold csSort; split <;> rfl
        rw [this]
        exact csSort_sorted e he 97 _ rfl _
    rw [List.pairwise_map] at s
    refine s.imp ?_
    intro x y h
    rw [m]
    exact (cmpi_iff _ _).1 h
  have key : ∀ (v : StatLine → Int), csCompare (csMode a) = some (cmpDesc v) →
      L.Pairwise fun x y => v (csLine day (diskOf y)) ≤ v (csLine day (diskOf x)) := by
    intro v hv
    have s : (L.map fun x => csLine day (diskOf x)).Pairwise fun a b => cmpDesc v a b ≤ 0 := by
      rw [← h2]; exact csSort_sorted e he _ _ hv _
    rw [List.pairwise_map] at s
    exact s.imp fun {x y} h => (cmpDesc_le v _ _).1 h
  rcases ha with ⟨hs, hm⟩ | ⟨c, r, hs, hm, hmem⟩
  · refine alpha ?_ hm
    rcases hs with hs | hs
    · left; unfold csMode; rw [hs]
    · right; unfold csMode; rw [hs]; rfl
  · have cm : csMode a = mode := by unfold csMode; rw [hs, hm]; rfl
    rw [cm] at key alpha
    have cases6 : mode = 97 ∨ mode = 109 ∨ mode = 116 ∨ mode = 100 ∨ mode = 108 ∨ mode = 117 := by simpa using hmem
    rcases cases6 with m | m | m | m | m | m
    · exact alpha (.inl m) m
    · refine (key _ (by rw [m]; rfl)).imp_of_mem ?_
      intro x y hx hy h
      rw [m]
      show y.average day ≤ x.average day
      rw [← average_eq day x (mem x hx).1, ← average_eq day y (mem y hy).1]
      exact Int.ofNat_le.1 h
    · refine (key _ (by rw [m]; rfl)).imp ?_
      intro x y h
      rw [m]
      exact Int.ofNat_le.1 h
    · refine (key _ (by rw [m]; rfl)).imp_of_mem ?_
      intro x y hx hy h
      rw [m]
      have h : timeInt y.firstTime ≤ timeInt x.firstTime := h
      rw [timeInt_small _ (mem x hx).1.1, timeInt_small _ (mem y hy).1.1] at h
      exact Int.ofNat_le.1 h
    · refine (key _ (by rw [m]; rfl)).imp_of_mem ?_
      intro x y hx hy h
      rw [m]
      have h : timeInt y.lastTime ≤ timeInt x.lastTime := h
      rw [timeInt_small _ (mem x hx).2, timeInt_small _ (mem y hy).2] at h
      exact Int.ofNat_le.1 h
    · refine (key _ (by rw [m]; rfl)).imp ?_
      intro x y h
      rw [m]
      exact Int.ofNat_le.1 h

/-- **C93, part.** CrashStats on the file that CrashMail has written reports every area that is counted and in a
group asked for on one line with its name, dates and numbers, in the order asked for, the totals, and every node with
its address and its numbers, in order; the sizes are in MB. -/
theorem crashstats_report_partial (e : StatEnv) (hc : GoodClock e.localtime) (he : GoodSort e) (a : StatArgs) (mode : UInt8)
    (ha : SortAsked a mode) (hn : ¬ (a.noAreas = true ∧ a.noNodes = true)) (ja jn : Nat → Nat → UInt8) (now : UInt64) (day0 day : UInt32)
    (as : List AreaStat) (ns : List NodeStat) (f : Str) (hw : writeStats ja jn now day0 as ns = .ok (day, f))
    (hl : StatLimits a.last7 day as ns) (err : Str) :
    ∃ out, crashStats e a (some f) err = .ok (true, out) ∧ StatReport e.localtime sizeShown e.title a mode day as ns out := by
  unfold writeStats at hw
  cases hr : areaRecords ja 0 as with
  | error x => rw [hr] at hw; cases hw
  | ok recs =>
    rw [hr] at hw
    generalize (if day0 = 0 then dayOf now else day0) = dd at hw
    injection hw with hw
    injection hw with hw1 hw2
    subst hw1
    have hcnt : (as.filter statWritten).length < 2 ^ 32 := Nat.lt_of_le_of_lt (List.length_filter_le ..) hl.areas
    generalize hrest : le32 (UInt32.ofNat ns.length) ++ nodeRecords jn 0 ns = rest
    have hf : f = b!"CST3" ++ (le32 dd ++ (le32 (UInt32.ofNat (as.filter statWritten).length) ++ (recs ++ rest))) := by
      rw [← hw2, ← hrest]; simp only [List.append_assoc]
    have f4 : f.drop 4 = le32 dd ++ (le32 (UInt32.ofNat (as.filter statWritten).length) ++ (recs ++ rest)) := by rw [hf]; rfl
    have f8 : f.drop 8 = le32 (UInt32.ofNat (as.filter statWritten).length) ++ (recs ++ rest) := by
      rw [show (8 : Nat) = 4 + 4 from rfl, ← List.drop_drop, f4, drop_at _ _ 4 rfl]
    have f12 : f.drop 12 = recs ++ rest := by
      rw [show (12 : Nat) = 8 + 4 from rfl, ← List.drop_drop, f8, drop_at _ _ 4 rfl]
    have flen : 12 ≤ f.length := by rw [hf]; simp; omega
    have num : (rd32L (f.drop 8)).toNat = (as.filter statWritten).length := by
      rw [f8, rd32L_le32, UInt32.toNat_ofNat', Nat.mod_eq_of_lt hcnt]
    have rlen : ¬ rest.length < 4 := by rw [← hrest]; simp
    have rnum : (rd32L rest).toNat = ns.length := by
      rw [← hrest, rd32L_le32, UInt32.toNat_ofNat', Nat.mod_eq_of_lt hl.count]
    have rdrop : rest.drop 4 = nodeRecords jn 0 ns := by rw [← hrest, drop_at _ _ 4 rfl]
    have hm : ¬ (csMode a ∉ b!"amtdlu" ∧ csMode a ≠ 0) := by
      rintro ⟨h1, h2⟩
      rcases ha with ⟨hs, _⟩ | ⟨c, r, hs, hm, hmem⟩
      · rcases hs with hs | hs
        · exact h1 (by unfold csMode; rw [hs]; decide)
        · exact h2 (by unfold csMode; rw [hs]; rfl)
      · have : csMode a = mode := by unfold csMode; rw [hs, hm]; rfl
        rw [this] at h1
        exact h1 hmem
    have hnn : ¬ ((a.noAreas && a.noNodes) = true) := by simpa using hn
    -- the times
    let ta : List UInt64 := if a.noAreas then [] else (as.filter statWritten).map (·.firstTime)
    let tn : List UInt64 := if a.noNodes then [] else ns.map (·.firstTime)
    have hta : ∀ x ∈ ta, GoodTime dd x := by
      intro x hx
      simp only [ta] at hx
      split at hx
      · cases hx
      · obtain ⟨y, hy, rfl⟩ := List.mem_map.1 hx
        exact (hl.times y (List.mem_filter.1 hy).1).1
    have htn : ∀ x ∈ tn, GoodTime dd x := by
      intro x hx
      simp only [tn] at hx
      split at hx
      · cases hx
      · obtain ⟨y, hy, rfl⟩ := List.mem_map.1 hx
        exact (hl.nodes y hy).2
    have E1 : Earliest ([] ++ ta) (ta.foldl csFirst 0) :=
      earliest_foldl ta (fun x hx => (hta x hx).1) [] 0 (.inl ⟨rfl, by simp⟩) (by decide)
    have small : ∀ ts t, Earliest ts t → (∀ x ∈ ts, x.toNat < 2 ^ 55) → t.toNat < 2 ^ 55 := by
      intro ts t h hts
      rcases h with ⟨h, _⟩ | ⟨_, h, _⟩
      · rw [h]; decide
      · exact hts t h
    have E1s := small _ _ E1 (fun x hx => (hta x (by simpa using hx)).1)
    have E2 : Earliest (([] ++ ta) ++ tn) (tn.foldl csFirst (ta.foldl csFirst 0)) :=
      earliest_foldl tn (fun x hx => (htn x hx).1) _ _ E1 E1s
    rw [List.nil_append] at E2
    generalize hfirst : tn.foldl csFirst (ta.foldl csFirst 0) = first at E2
    have hft : first.toNat < 2 ^ 55 := small _ _ E2 (fun x hx => by
      rcases List.mem_append.1 hx with h | h
      · exact (hta x h).1
      · exact (htn x h).1)
    -- the areas and nodes read
    let M : List AreaStat := (as.filter statWritten).filter fun x => csWanted a x.group
    have hM : M = as.filter fun x => csWanted a x.group && statWritten x := by simp only [M, List.filter_filter]
    have R1 : (if a.noAreas then (Except.ok ([], 0, csSkip 136 (as.filter statWritten).length (recs ++ rest)) : Except UB (List StatLine × UInt64 × Str))
        else csReadAreas a dd (as.filter statWritten).length (recs ++ rest) 0) =
        .ok ((if a.noAreas then [] else M.map fun x => csLine dd (diskOf x)), ta.foldl csFirst 0, rest) := by
      by_cases h : a.noAreas = true
      · simp only [h, if_true, ta, csSkip_areas ja as 0 recs hr rest]; rfl
      · simp only [h, if_false, ta]
        rw [csReadAreas_eq a dd ja as (fun x hx => (hl.tags x hx).2.2.2) 0 recs hr rest 0]
        rfl
    have R2 : (if rest.length < 4 ∨ a.noNodes = true then (([] : List NodeStat), ta.foldl csFirst 0)
        else csReadNodes ns.length (nodeRecords jn 0 ns) (ta.foldl csFirst 0)) = ((if a.noNodes then [] else ns), first) := by
      by_cases h : a.noNodes = true
      · rw [if_pos (.inr h), if_pos h, ← hfirst]; simp only [tn, h, if_true]; rfl
      · rw [if_neg (by rintro (x | x); exact rlen x; exact h x), if_neg h, csReadNodes_eq, ← hfirst]
        simp only [tn, h, if_false]; rfl
    have D1 := csDate_eq e hc first hft
    have D2 := csDate_eq e hc (UInt64.ofNat (dd.toNat * 86400)) (day_time dd 0).2
    have gft : a.noAreas = false → GoodTime dd first := by
      intro _
      rcases E2 with ⟨h, hz⟩ | ⟨_, h, _⟩
      · rw [h]; exact ⟨by decide, .inl (by decide)⟩
      · rcases List.mem_append.1 h with h | h
        · exact hta _ h
        · exact htn _ h
    have T1 : ∃ t1, (if a.noAreas then (.ok [] : Except UB Str) else (do
          let l := csSort e (csMode a) (csSort e 97 (if a.noAreas then [] else M.map fun x => csLine dd (diskOf x)))
          let t ← (if a.last7 then csWeekTable e dd l else csTable e dd first l)
          .ok (b!"\n" ++ t))) = .ok t1 ∧ (if a.noAreas then t1 = [] else AreaTable e.localtime a mode dd first as t1) := by
      by_cases h : a.noAreas = true
      · refine ⟨[], ?_, ?_⟩
        · rw [if_pos h]
        · rw [if_pos h]
      · rw [if_neg h, if_neg h]
        obtain ⟨L, l1, l2, l3⟩ := sorted_areas e he a mode ha dd M (fun x hx => hl.times x (by
          rw [hM] at hx; exact (List.mem_filter.1 hx).1))
        rw [hM] at l1
        simp only [l3]
        have gf := gft (by simpa using h)
        by_cases h7 : a.last7 = true
        · rw [h7] at hl
          obtain ⟨row, head, tot, n, m, h1, h2, h3, h4⟩ := csWeekTable_eq e hc dd first as ns hl L _ l1
          rw [if_pos h7, h1]
          refine ⟨_, rfl, ?_⟩
          rw [if_neg h]
          refine ⟨_, L, row, head, tot, n, m, csWanted_iff a, l1, l2, ?_, ?_, ?_, ?_⟩
          · simp only [List.append_assoc]
          · rw [h7]; exact h2
          · rw [h7]; exact h3
          · rw [h7]; exact h4
        · obtain ⟨row, head, tot, n, m, h1, h2, h3, h4⟩ := csTable_eq e hc dd first as ns a.last7 hl gf L _ l1
          have h7' : a.last7 = false := by simpa using h7
          rw [if_neg h7, h1]
          refine ⟨_, rfl, ?_⟩
          rw [if_neg h]
          refine ⟨_, L, row, head, tot, n, m, csWanted_iff a, l1, l2, ?_, ?_, ?_, ?_⟩
          · simp only [List.append_assoc]
          · rw [h7']; exact h2
          · rw [h7']; exact h3
          · rw [h7']; exact h4
    obtain ⟨t1, t1a, t1b⟩ := T1
    have T2 : ∃ t2, (if a.noNodes then (.ok [] : Except UB Str) else csNodeTable e (csSortNodes e (if a.noNodes then [] else ns))) = .ok t2 ∧
        (if a.noNodes then t2 = [] else NodeTable e.localtime sizeShown ns t2) := by
      by_cases h : a.noNodes = true
      · refine ⟨[], ?_, ?_⟩
        · rw [if_pos h]
        · rw [if_pos h]
      · simp only [h, if_false]
        exact csNodeTable_eq e hc he ns (fun n hn => ⟨(hl.nodes n hn).1, (hl.nodes n hn).2.1⟩)
    obtain ⟨t2, t2a, t2b⟩ := T2
    have P : csPrint e a dd first (if a.noAreas then [] else M.map fun x => csLine dd (diskOf x)) (if a.noNodes then [] else ns) =
        .ok (b!"\nStatistics from " ++ dateText e.localtime first ++ b!" to " ++ dateText e.localtime (UInt64.ofNat (dd.toNat * 86400)) ++ b!"\n" ++
          t1 ++ t2 ++ b!"\n") := by
      unfold csPrint
      rw [D1, D2]
      simp only [Bind.bind, Except.bind] at t1a t2a ⊢
      rw [t1a]
      simp only []
      rw [t2a]
    refine ⟨e.title ++ (b!"\nStatistics from " ++ dateText e.localtime first ++ b!" to " ++ dateText e.localtime (UInt64.ofNat (dd.toNat * 86400)) ++ b!"\n" ++
          t1 ++ t2 ++ b!"\n"), ?_, as.filter statWritten, first, t1, t2, ?_, E2, ?_, t1b, t2b⟩
    · unfold crashStats
      simp only []
      rw [if_neg hm, if_neg hnn]
      rw [if_neg (by omega), if_neg (by rw [hf]; simp), if_neg (by omega), num, f12, f4, rd32L_le32, R1]
      simp only [Bind.bind, Except.bind]
      rw [rnum, rdrop, R2]
      simp only []
      rw [P]
    · intro x
      rw [List.mem_filter, statWritten_iff]
    · simp only [List.append_assoc]

/-- Other files are refused. -/
theorem crashstats_other_files (e : StatEnv) (a : StatArgs) (mode : UInt8) (ha : SortAsked a mode) (f : Option Str) (err : Str)
    (h4 : ∀ c, f = some c → 4 ≤ c.length) (h : ∀ c, f = some c → c.take 4 ≠ b!"CST3") :
    ∃ out, crashStats e a f err = .ok (false, out) := by
  have hm : ¬ (csMode a ∉ b!"amtdlu" ∧ csMode a ≠ 0) := by
    rintro ⟨h1, h2⟩
    rcases ha with ⟨hs, _⟩ | ⟨c, r, hs, hm, hmem⟩
    · rcases hs with hs | hs
      · exact h1 (by unfold csMode; rw [hs]; decide)
      · exact h2 (by unfold csMode; rw [hs]; rfl)
    · have : csMode a = mode := by unfold csMode; rw [hs, hm]; rfl
      rw [this] at h1
      exact h1 hmem
  unfold crashStats
  simp only []
  rw [if_neg hm]
  split
  · exact ⟨_, rfl⟩
  · cases f with
    | none => exact ⟨_, rfl⟩
    | some c =>
      have := h4 c rfl
      simp only []
      rw [if_neg (by omega), if_pos (h c rfl)]
      exact ⟨_, rfl⟩

theorem insertBy_sortedOn {α} (cmp : α → α → Int) (x : α) (l : List α) (tot : ∀ a ∈ l, cmp x a ≤ 0 ∨ cmp a x ≤ 0)
    (tr : ∀ b ∈ l, ∀ c ∈ l, cmp x b ≤ 0 → cmp b c ≤ 0 → cmp x c ≤ 0)
    (h : l.Pairwise (fun a b => cmp a b ≤ 0)) : (insertBy cmp x l).Pairwise (fun a b => cmp a b ≤ 0) := by
  induction l with
  | nil => simp [insertBy]
  | cons y l ih =>
    rw [List.pairwise_cons] at h
    simp only [insertBy]
    split
    · rename_i hxy
      rw [List.pairwise_cons, List.pairwise_cons]
      refine ⟨?_, h⟩
      intro z hz
      rcases List.mem_cons.1 hz with rfl | hz
      · exact hxy
      · exact tr y (List.mem_cons_self ..) z (List.mem_cons_of_mem _ hz) hxy (h.1 z hz)
    · rename_i hxy
      rw [List.pairwise_cons]
      refine ⟨?_, ih (fun a ha => tot a (List.mem_cons_of_mem _ ha))
        (fun b hb c hc => tr b (List.mem_cons_of_mem _ hb) c (List.mem_cons_of_mem _ hc)) h.2⟩
      intro z hz
      rcases List.mem_cons.1 ((insertBy_perm cmp x l).mem_iff.1 hz) with rfl | hz
      · exact (tot y (List.mem_cons_self ..)).resolve_left hxy
      · exact h.1 z hz

/-- Insertion sort sorts. -/
theorem isort_sortsBy {α : Type} (cmp : α → α → Int) : SortsBy cmp (isort cmp) := by
  intro l tot tr
  refine ⟨isort_perm cmp l, ?_⟩
  induction l with
  | nil => exact .nil
  | cons x l ih =>
    have m : ∀ a ∈ isort cmp l, a ∈ l := fun a ha => (isort_perm cmp l).mem_iff.1 ha
    refine insertBy_sortedOn cmp x _ (fun a ha => tot x (List.mem_cons_self ..) a (List.mem_cons_of_mem _ (m a ha)))
      (fun b hb c hc => tr x (List.mem_cons_self ..) b (List.mem_cons_of_mem _ (m b hb)) c (List.mem_cons_of_mem _ (m c hc))) ?_
    exact ih (fun a ha b hb => tot a (List.mem_cons_of_mem _ ha) b (List.mem_cons_of_mem _ hb))
      (fun a ha b hb c hc => tr a (List.mem_cons_of_mem _ ha) b (List.mem_cons_of_mem _ hb) c (List.mem_cons_of_mem _ hc))

namespace Ex

/-- An environment where it is always the 5th of November 2026. -/
def statEnv : StatEnv where
  localtime := fun _ => some ⟨5, 10, 26⟩
  sortAreas := fun c l => isort c l
  sortNodes := fun l => isort (fun a b => compare4D a.node b.node) l
  title := b!"CrashStats\n"

theorem statEnv_clock : GoodClock statEnv.localtime := fun _ _ => ⟨⟨5, 10, 26⟩, rfl, by decide, by decide, by decide⟩

theorem statEnv_sort : GoodSort statEnv := ⟨fun _ => isort_sortsBy _, isort_sortsBy _⟩

def csArea (tag : Str) (g : UInt8) (texts dupes : UInt32) (d : UInt16) : AreaStat :=
  { tag := tag, type := .echomail, aka := some ⟨2, 201, 300, 0⟩, group := g, texts := texts, dupes := dupes,
    last8 := #v[d, d, d, d, d, d, d, d], firstTime := 1700000000, lastTime := 1700000000 }

def csAreas : List AreaStat := [csArea b!"FIDO" 65 50 1 5, csArea b!"ALPHA" 66 80 0 7, { csArea b!"NOTES" 65 9 0 0 with type := .local }]

def csNodes : List NodeStat := [{ node := ⟨2, 201, 300, 1⟩, gotNetmails := 3, gotNetmailBytes := 5000, firstTime := 1700000000 }]

def csFile (as : List AreaStat) (ns : List NodeStat) : Str :=
  match writeStats (fun _ _ => 170) (fun _ _ => 170) 0 19700 as ns with
  | .ok q => q.2
  | .error _ => []

theorem csFile_eq : writeStats (fun _ _ => 170) (fun _ _ => 170) 0 19700 csAreas csNodes = .ok (19700, csFile csAreas csNodes) := by
  decide +kernel

theorem csLimits : StatLimits true 19700 csAreas csNodes where
  tags := by decide
  times := by unfold GoodTime; decide +kernel
  nodes := by unfold GoodTime; decide +kernel
  texts := by decide
  dupes := by decide
  daily := by
    intro i
    by_cases h : i < 8
    · have : ∀ i, i < 8 → (csAreas.map (·.ago i)).sum < 65536 := by decide +kernel
      exact this i h
    · have : ∀ x : AreaStat, x.ago i = 0 := fun x => by simp [AreaStat.ago, Vector.getD, h]
      simp [csAreas, this]
  today := by decide
  areas := by decide
  count := by decide

/-- The hypotheses of the theorem are met. -/
example : ∃ out, crashStats statEnv { file := b!"x", last7 := true, sort := some b!"total" } (some (csFile csAreas csNodes)) [] = .ok (true, out) ∧
    StatReport statEnv.localtime sizeShown statEnv.title { file := b!"x", last7 := true, sort := some b!"total" } 116 19700 csAreas csNodes out :=
  crashstats_report_partial statEnv statEnv_clock statEnv_sort _ 116 (.inr ⟨_, _, rfl, by decide, by decide⟩) (by simp) _ _ _ _ _ _ _ _ csFile_eq csLimits _

/-- The report for the areas of the groups A and B, sorted by name, without the nodes. -/
theorem cs_areas : (match crashStats statEnv { file := b!"x", noNodes := true, group := some b!"ab" } (some (csFile csAreas csNodes)) [] with
    | .ok q => q.2
    | .error _ => []) = b!"CrashStats\n\nStatistics from 05-Nov-26 to 05-Nov-26\n\nArea                           First     Last         Msgs  Msgs/day   Dupes\n============================================================================\nALPHA                         05-Nov-26 05-Nov-26      80         7       0\nFIDO                          05-Nov-26 05-Nov-26      50         5       1\n============================================================================\nTotally in all 2 areas                                 130        12       1\n\n" := by
  decide +kernel

/-- **The defect:** 5000 bytes are shown as 0 MB, although they should be shown as 5000 bytes. -/
theorem size_lost : columns (csUnit 5000) = [b!"0", b!"MB"] ∧ sizeMeant 5000 = [b!"5000", b!"bytes"] := by decide +kernel

/-- The last line of a report without the nodes. -/
def csLastRow (l7 : Bool) (as : List AreaStat) : List Str :=
  match crashStats statEnv { file := b!"x", noNodes := true, last7 := l7 } (some (csFile as [])) [] with
  | .ok q => columns (((q.2.reverse.drop 2).takeWhile (· ≠ 10)).reverse)
  | .error _ => []

/-- 80000 messages on a day are shown as 14464. -/
theorem week_wraps : csLastRow true [csArea b!"A" 65 0 0 40000, csArea b!"B" 65 0 0 40000] =
    [b!"Totally", b!"in", b!"all", b!"2", b!"areas", b!"14464", b!"14464", b!"14464", b!"14464", b!"14464", b!"14464", b!"14464", b!":", b!"101248"] := by
  decide +kernel

/-- Three thousand millions are shown as a negative number. -/
theorem many_negative : (csLastRow false [csArea b!"A" 65 3000000000 0 1])[5]? = some b!"-1294967296" := by decide +kernel

end Ex

end CM
