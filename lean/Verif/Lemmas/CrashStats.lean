import Verif.Spec.CrashStats
import Verif.Props.Stats
import Verif.Props.Dupe
import Verif.Lemmas.AreaList
import Verif.Lemmas.Sort
/-! # Lemmas for the report of CrashStats -/

set_option linter.unusedSimpArgs false

namespace CM

/-! ## Columns -/

theorem columnsFrom_word (w v r : Str) (h : (32 : UInt8) ∉ v) : columnsFrom w (v ++ r) = columnsFrom (w ++ v) r := by
  induction v generalizing w with
  | nil => simp
  | cons c v ih =>
    have hc : c ≠ 32 := fun e => h (by simp [e])
    have hv : (32 : UInt8) ∉ v := fun e => h (List.mem_cons_of_mem _ e)
    rw [List.cons_append, columnsFrom, if_neg hc, ih _ hv]
    simp

theorem columns_sp (r : Str) : columns (32 :: r) = columns r := by simp [columns, columnsFrom]

theorem columns_rep (n : Nat) (r : Str) : columns (List.replicate n 32 ++ r) = columns r := by
  induction n with
  | zero => rfl
  | succ n ih => rw [List.replicate_succ, List.cons_append, columns_sp, ih]

theorem columns_word (w r : Str) (h0 : w ≠ []) (h : (32 : UInt8) ∉ w) : columns (w ++ 32 :: r) = w :: columns r := by
  unfold columns
  rw [columnsFrom_word _ _ _ h, List.nil_append, columnsFrom, if_pos rfl, if_neg h0]

theorem columns_last (w : Str) (h0 : w ≠ []) (h : (32 : UInt8) ∉ w) : columns w = [w] := by
  have := columnsFrom_word [] w [] h
  rw [List.append_nil] at this
  unfold columns
  rw [this, List.nil_append, columnsFrom, if_neg h0]

theorem columns_rep_end (n : Nat) : columns (List.replicate n 32) = [] := by
  have := columns_rep n []
  rw [List.append_nil] at this
  rw [this]; rfl

theorem columns_padR (n : Nat) (w r : Str) (h0 : w ≠ []) (h : (32 : UInt8) ∉ w) :
    columns (padR n w ++ 32 :: r) = w :: columns r := by
  unfold padR
  rw [List.append_assoc]
  cases hk : n - w.length with
  | zero => simp [columns_word w r h0 h]
  | succ k =>
    rw [List.replicate_succ, List.cons_append, columns_word _ _ h0 h, columns_rep, columns_sp]

theorem columns_padL (n : Nat) (w r : Str) (h0 : w ≠ []) (h : (32 : UInt8) ∉ w) :
    columns (padL n w ++ 32 :: r) = w :: columns r := by
  unfold padL
  rw [List.append_assoc, columns_rep, columns_word _ _ h0 h]

theorem columns_padL_last (n : Nat) (w : Str) (h0 : w ≠ []) (h : (32 : UInt8) ∉ w) : columns (padL n w) = [w] := by
  unfold padL
  rw [columns_rep, columns_last _ h0 h]

theorem dec_not (n : Nat) (c : UInt8) (h : isDigit c = false) : c ∉ dec n := fun hc => by
  rw [dec_digits n c hc] at h; cases h

theorem dec_no_sp (n : Nat) : (32 : UInt8) ∉ dec n := dec_not n _ (by decide)
theorem dec_no_nl (n : Nat) : (10 : UInt8) ∉ dec n := dec_not n _ (by decide)

theorem padR_no_nl (n : Nat) (w : Str) (h : (10 : UInt8) ∉ w) : (10 : UInt8) ∉ padR n w := by
  simp [padR, h, List.mem_replicate]

theorem padL_no_nl (n : Nat) (w : Str) (h : (10 : UInt8) ∉ w) : (10 : UInt8) ∉ padL n w := by
  simp [padL, h, List.mem_replicate]

theorem take_no {c : UInt8} {w : Str} (n : Nat) (h : c ∉ w) : c ∉ w.take n := fun hc => h (List.mem_of_mem_take hc)

theorem take_ne {w : Str} (n : Nat) (h : w ≠ []) (hn : 0 < n) : w.take n ≠ [] := by
  cases w with
  | nil => exact absurd rfl h
  | cons c w => cases n with
    | zero => omega
    | succ n => simp

/-! ## Numbers and dates -/

theorem sdec_small (x : UInt32) (h : x.toNat < 2 ^ 31) : sdec x = dec x.toNat := if_pos h

theorem show2_eq (n : Nat) (h : n < 100) : show2 n = twoDigits n := by
  have : ∀ n, n < 100 → show2 n = twoDigits n := by decide +kernel
  exact this n h

theorem months_get (m : Nat) (h : m < 12) : csMonths[m]? = some (months.getD m []) := by
  have : ∀ m, m < 12 → csMonths[m]? = some (months.getD m []) := by decide
  exact this m h

theorem months_good (m : Nat) : (32 : UInt8) ∉ months.getD m [] ∧ (10 : UInt8) ∉ months.getD m [] ∧ (months.getD m []).length ≤ 3 := by
  by_cases h : m < 12
  · have : ∀ m, m < 12 → (32 : UInt8) ∉ months.getD m [] ∧ (10 : UInt8) ∉ months.getD m [] ∧ (months.getD m []).length ≤ 3 := by decide
    exact this m h
  · have : months.getD m [] = [] := by
      rw [List.getD_eq_getElem?_getD, List.getElem?_eq_none (by simpa [months] using h)]; rfl
    rw [this]; simp

theorem twoDigits_good (n : Nat) (h : n < 100) : (32 : UInt8) ∉ twoDigits n ∧ (10 : UInt8) ∉ twoDigits n := by
  have : ∀ n, n < 100 → (32 : UInt8) ∉ twoDigits n ∧ (10 : UInt8) ∉ twoDigits n := by decide +kernel
  exact this n h

theorem csDate_eq (e : StatEnv) (hc : GoodClock e.localtime) (t : UInt64) (ht : t.toNat < 2 ^ 55) :
    csDate e t = .ok (dateText e.localtime t) := by
  obtain ⟨tm, h, h1, h2, h3⟩ := hc t ht
  unfold csDate dateText
  rw [h]
  simp only [months_get _ h2, show2_eq _ h1, show2_eq _ h3]

theorem dateText_good (lt : UInt64 → Option LocalTm) (hc : GoodClock lt) (t : UInt64) (ht : t.toNat < 2 ^ 55) :
    dateText lt t ≠ [] ∧ (32 : UInt8) ∉ dateText lt t ∧ (10 : UInt8) ∉ dateText lt t ∧ (dateText lt t).length ≤ 9 := by
  obtain ⟨tm, h, h1, h2, h3⟩ := hc t ht
  unfold dateText
  rw [h]
  have a := twoDigits_good _ h1
  have b := twoDigits_good _ h3
  have m := months_good tm.mon
  simp only []
  generalize months.getD tm.mon [] = M at *
  refine ⟨by simp [twoDigits], ?_, ?_, ?_⟩
  · simp [a, b, m]
  · simp [a, b, m]
  · have := m.2.2
    simp [twoDigits]; omega

theorem csDateOr_eq (e : StatEnv) (hc : GoodClock e.localtime) (t : UInt64) (ht : t.toNat < 2 ^ 55) :
    csDateOr e t = .ok (dateShown e.localtime t) := by
  unfold csDateOr dateShown
  split
  · rfl
  · exact csDate_eq e hc t ht

theorem dateShown_good (lt : UInt64 → Option LocalTm) (hc : GoodClock lt) (t : UInt64) (ht : t.toNat < 2 ^ 55) :
    dateShown lt t ≠ [] ∧ (32 : UInt8) ∉ dateShown lt t ∧ (10 : UInt8) ∉ dateShown lt t ∧ (dateShown lt t).length ≤ 9 := by
  unfold dateShown
  split
  · decide
  · exact dateText_good lt hc t ht

theorem csNodeDate_eq (e : StatEnv) (hc : GoodClock e.localtime) (t : UInt64) (ht : t.toNat < 2 ^ 55) :
    csNodeDate e t = .ok (nodeDateShown e.localtime t) := by
  obtain ⟨tm, h, h1, h2, h3⟩ := hc t ht
  unfold csNodeDate nodeDateShown
  split
  · rfl
  · rw [h]; simp only [months_get _ h2]

theorem nodeDateShown_good (lt : UInt64 → Option LocalTm) (hc : GoodClock lt) (t : UInt64) (ht : t.toNat < 2 ^ 55) :
    nodeDateShown lt t ≠ [] ∧ (32 : UInt8) ∉ nodeDateShown lt t ∧ (10 : UInt8) ∉ nodeDateShown lt t := by
  obtain ⟨tm, h, h1, h2, h3⟩ := hc t ht
  unfold nodeDateShown
  split
  · decide
  · rw [h]
    have m := months_good tm.mon
    simp only []
    generalize months.getD tm.mon [] = M at *
    refine ⟨by simp, ?_, ?_⟩
    · simp [m, dec_no_sp]
    · simp [m, dec_no_nl]

theorem timeInt_small (t : UInt64) (h : t.toNat < 2 ^ 55) : timeInt t = (t.toNat : Int) := if_pos (by omega)

/-- **Sizes are always shown in MB.** -/
theorem unit_mb (i : UInt32) : csUnit i = dec (i.toNat / 1048576) ++ b!" MB" := by
  unfold csUnit
  rw [if_pos]
  by_cases h : i > 10000000
  · exact .inl h
  · right
    have : i.toNat ≤ 10000000 := by
      have := UInt32.not_lt.1 h
      exact this
    exact UInt32.lt_iff_toNat_lt.2 (by show i.toNat < 4284967296; omega)

/-! ## Averages -/

theorem csSum_eq (d : Days) (k : Nat) (hk : k ≤ 7) :
    (csSum d k).toNat = ((List.range k).map fun i => (d.getD (i + 1) 0).toNat).sum ∧ (csSum d k).toNat ≤ k * 65535 := by
  induction k with
  | zero => exact ⟨rfl, Nat.le_refl _⟩
  | succ k ih =>
    obtain ⟨h1, h2⟩ := ih (by omega)
    have e : csSum d (k + 1) = csSum d k + (d.getD (k + 1) 0).toUInt32 := by
      unfold csSum; rw [List.range_succ, List.foldl_append]; rfl
    have l := (d.getD (k + 1) 0).toNat_lt
    have : (csSum d (k + 1)).toNat = (csSum d k).toNat + (d.getD (k + 1) 0).toNat := by
      rw [e, UInt32.toNat_add]
      have : ((d.getD (k + 1) 0).toUInt32).toNat = (d.getD (k + 1) 0).toNat := rfl
      rw [this]
      omega
    refine ⟨?_, by rw [this]; omega⟩
    rw [this, h1, List.range_succ, List.map_append, List.sum_append]
    simp

theorem csAverage_eq (d : Days) (total day : UInt32) (first : UInt64) (h : GoodTime day first) :
    (csAverage d total day ((timeInt first).tdiv 86400)).toNat =
      perDay day.toNat first.toNat (fun i => (d.getD i 0).toNat) total.toNat := by
  obtain ⟨h1, h23⟩ := h
  have td : ((first.toNat : Int)).tdiv 86400 = ((first.toNat / 86400 : Nat) : Int) := by
    rw [Int.tdiv_eq_ediv_of_nonneg (by omega)]; rfl
  rw [timeInt_small _ h1, td]
  generalize hq : first.toNat / 86400 = q at *
  have dl := day.toNat_lt
  unfold csAverage perDay
  by_cases hs : first.toNat < 86400
  · have : q = 0 := by omega
    subst this
    rw [if_pos (.inr rfl), if_pos hs]; rfl
  · obtain ⟨h2, h3⟩ := h23.resolve_left hs
    have q0 : q ≠ 0 := by omega
    have d0 : day ≠ 0 := by
      intro e; rw [e] at h2
      have : q ≤ 0 := h2
      omega
    rw [if_neg (by rintro (e | e); exact d0 e; omega), if_neg hs]
    have hraw : (((day.toNat : Int) - (q : Int)) % 65536).toNat = day.toNat - q := by omega
    rw [hraw, hq]
    generalize hage : day.toNat - q = age at *
    have rawN : (UInt16.ofNat age).toNat = age := by
      rw [UInt16.toNat_ofNat']; omega
    generalize hr : UInt16.ofNat age = raw at *
    have k1 : (if raw > 7 then (7 : UInt16) else raw).toNat = min age 7 := by
      split
      · rename_i h
        have : (7 : UInt16).toNat < raw.toNat := UInt16.lt_iff_toNat_lt.1 h
        rw [rawN] at this
        have : 7 < age := this
        show 7 = _
        omega
      · rename_i h
        have : ¬ (7 : UInt16).toNat < raw.toNat := fun x => h (UInt16.lt_iff_toNat_lt.2 x)
        rw [rawN] at this
        have : ¬ 7 < age := this
        rw [rawN]; omega
    obtain ⟨s1, s2⟩ := csSum_eq d (min age 7) (Nat.min_le_right ..)
    simp only [k1]
    generalize hsum : csSum d (min age 7) = sum at *
    rw [← s1]
    have z : sum = 0 ↔ sum.toNat = 0 := by
      constructor
      · intro e; rw [e]; rfl
      · intro e; exact UInt32.toNat_inj.1 e
    have one : ∀ x : UInt16, (if x = 0 then (1 : UInt16) else x).toUInt32.toNat = max x.toNat 1 := by
      intro x
      split
      · rename_i e; rw [e]; rfl
      · rename_i e
        have : x.toNat ≠ 0 := fun z => e (UInt16.toNat_inj.1 z)
        show x.toNat = _
        omega
    by_cases hz : sum = 0
    · rw [if_pos (z.1 hz)]
      by_cases ht : total = 0
      · rw [if_neg (by rintro ⟨_, h⟩; exact h ht), hz, ht]
        simp
      · rw [if_pos ⟨hz, ht⟩, UInt32.toNat_div, one, rawN]
    · rw [if_neg (by rintro ⟨h, _⟩; exact hz h), if_neg (fun h => hz (z.2 h)), UInt32.toNat_div, one, k1]

theorem perDay_le (day first : Nat) (cnt : Nat → Nat) (total b : Nat) (hc : ∀ i, cnt i ≤ b) (ht : total < 2 ^ 31) (hb : b * 7 < 2 ^ 31) :
    perDay day first cnt total < 2 ^ 31 := by
  unfold perDay
  split
  · omega
  · simp only []
    split
    · exact Nat.lt_of_le_of_lt (Nat.div_le_self ..) ht
    · refine Nat.lt_of_le_of_lt (Nat.div_le_self ..) ?_
      have : ∀ k, ((List.range k).map fun i => cnt (i + 1)).sum ≤ b * k := by
        intro k
        induction k with
        | zero => simp
        | succ k ih =>
          rw [List.range_succ, List.map_append, List.sum_append, Nat.mul_succ]
          have := hc (k + 1)
          simp; omega
      exact Nat.lt_of_le_of_lt (Nat.le_trans (this _) (Nat.mul_le_mul_left _ (Nat.min_le_right ..))) hb

theorem perDay_congr (day first : Nat) (c d : Nat → Nat) (total : Nat) (h : ∀ i, i < 7 → c (i + 1) = d (i + 1)) :
    perDay day first c total = perDay day first d total := by
  unfold perDay
  have : ((List.range (min (day - first / 86400) 7)).map fun i => c (i + 1)) =
      ((List.range (min (day - first / 86400) 7)).map fun i => d (i + 1)) := by
    apply List.map_congr_left
    intro i hi
    have := List.mem_range.1 hi
    exact h i (by omega)
  simp only [this]

/-! ## Reading the file -/

theorem areaRecord_group {j : Nat → UInt8} {a : AreaStat} {r : List UInt8} (h : areaRecord j a = .ok r) : r.getD 88 0 = a.group := by
  obtain ⟨aka, _, hl, e⟩ := areaRecord_ok h
  have l1 : (a.tag ++ [0] ++ junkBytes j (a.tag.length + 1) (79 - a.tag.length)).length = 80 := by
    simp; omega
  have d : r.drop 88 = a.group :: (junkBytes j 89 3 ++ (le32 a.texts ++ (daysBytes a.last8 ++ (le32 a.dupes ++
        (junkBytes j 116 4 ++ (le64 a.firstTime ++ le64 a.lastTime)))))) := by
    rw [e, show (88 : Nat) = 80 + 8 from rfl, ← List.drop_drop, drop_at _ _ _ l1, drop_at _ _ 8 rfl]
    rfl
  have : r[88]? = some a.group := by
    have := List.getElem?_drop (xs := r) (i := 88) (j := 0)
    rw [d] at this
    simpa using this.symm
  rw [List.getD_eq_getElem?_getD, this]; rfl

theorem areaRecord_first {j : Nat → UInt8} {a : AreaStat} {r : List UInt8} (h : areaRecord j a = .ok r) (hn : NoNul a.tag) :
    rd64L (r.drop 120) = a.firstTime := by
  have := parseArea_record h hn
  unfold parseArea at this
  split at this
  · injection this with this
    exact congrArg DiskArea.firstTime this
  · cases this

/-- The areas as they are read, and the earliest time. -/
theorem csReadAreas_eq (a : StatArgs) (day : UInt32) (j : Nat → Nat → UInt8) (as : List AreaStat) (ht : ∀ x ∈ as, NoNul x.tag) :
    ∀ (k : Nat) (f : Str), areaRecords j k as = .ok f → ∀ (rest : Str) (t : UInt64),
      csReadAreas a day (as.filter statWritten).length (f ++ rest) t =
        .ok (((as.filter statWritten).filter fun x => csWanted a x.group).map (fun x => csLine day (diskOf x)),
          ((as.filter statWritten).map (·.firstTime)).foldl csFirst t, rest) := by
  induction as with
  | nil =>
    intro k f h rest t
    cases h
    rfl
  | cons x r ih =>
    intro k f h rest t
    have ht' : ∀ a ∈ r, NoNul a.tag := fun x hx => ht x (List.mem_cons_of_mem _ hx)
    unfold areaRecords at h
    by_cases hw : statWritten x = true
    · rw [if_pos hw] at h
      cases h1 : areaRecord (j k) x with
      | error e => rw [h1] at h; cases h
      | ok b =>
        rw [h1] at h
        cases h2 : areaRecords j (k + 1) r with
        | error e => rw [show (Except.ok b >>= fun x => (areaRecords j (k + 1) r >>= fun y => .ok (x ++ y)))
            = (areaRecords j (k + 1) r >>= fun y => .ok (b ++ y)) from rfl, h2] at h; cases h
        | ok y =>
          rw [show (Except.ok b >>= fun x => (areaRecords j (k + 1) r >>= fun y => .ok (x ++ y)))
            = (areaRecords j (k + 1) r >>= fun y => .ok (b ++ y)) from rfl, h2] at h
          injection h with h
          subst h
          have lx := areaRecord_length h1
          have hn := ht x (List.mem_cons_self ..)
          rw [List.filter_cons, if_pos hw, List.length_cons, csReadAreas, if_neg (by simp [lx]),
            List.append_assoc, take_at _ _ 136 lx, drop_at _ _ 136 lx]
          simp only [areaRecord_group h1, areaRecord_first h1 hn, parseArea_record h1 hn]
          rw [ih ht' (k + 1) y h2 rest _]
          by_cases hg : csWanted a x.group = true
          · rw [if_pos hg, List.filter_cons, if_pos hg]; rfl
          · rw [if_neg hg, List.filter_cons, if_neg hg]; rfl
    · rw [if_neg hw] at h
      rw [List.filter_cons, if_neg hw]
      exact ih ht' k f h rest t

theorem csSkip_areas (j : Nat → Nat → UInt8) (as : List AreaStat) : ∀ (k : Nat) (f : Str), areaRecords j k as = .ok f →
    ∀ rest : Str, csSkip 136 (as.filter statWritten).length (f ++ rest) = rest := by
  induction as with
  | nil => intro k f h rest; cases h; rfl
  | cons x r ih =>
    intro k f h rest
    unfold areaRecords at h
    by_cases hw : statWritten x = true
    · rw [if_pos hw] at h
      cases h1 : areaRecord (j k) x with
      | error e => rw [h1] at h; cases h
      | ok b =>
        rw [h1] at h
        cases h2 : areaRecords j (k + 1) r with
        | error e => rw [show (Except.ok b >>= fun x => (areaRecords j (k + 1) r >>= fun y => .ok (x ++ y)))
            = (areaRecords j (k + 1) r >>= fun y => .ok (b ++ y)) from rfl, h2] at h; cases h
        | ok y =>
          rw [show (Except.ok b >>= fun x => (areaRecords j (k + 1) r >>= fun y => .ok (x ++ y)))
            = (areaRecords j (k + 1) r >>= fun y => .ok (b ++ y)) from rfl, h2] at h
          injection h with h
          subst h
          have lx := areaRecord_length h1
          rw [List.filter_cons, if_pos hw, List.length_cons, csSkip, if_neg (by simp [lx]),
            List.append_assoc, drop_at _ _ 136 lx]
          exact ih (k + 1) y h2 rest
    · rw [if_neg hw] at h
      rw [List.filter_cons, if_neg hw]
      exact ih k f h rest

theorem csReadNodes_eq (j : Nat → Nat → UInt8) (ns : List NodeStat) : ∀ (k : Nat) (t : UInt64),
    csReadNodes ns.length (nodeRecords j k ns) t = (ns, (ns.map (·.firstTime)).foldl csFirst t) := by
  induction ns with
  | nil => intro k t; rfl
  | cons n r ih =>
    intro k t
    rw [List.length_cons, csReadNodes, nodeRecords, if_neg (by simp [nodeRecord_length]),
      take_at _ _ 56 (nodeRecord_length ..), drop_at _ _ 56 (nodeRecord_length ..)]
    simp only [parseNode_record, ih (k + 1), List.map_cons, List.foldl_cons]

theorem earliest_foldl (ts : List UInt64) (hs : ∀ x ∈ ts, x.toNat < 2 ^ 55) : ∀ (us : List UInt64) (t : UInt64),
    Earliest us t → t.toNat < 2 ^ 55 → Earliest (us ++ ts) (ts.foldl csFirst t) := by
  induction ts with
  | nil => intro us t h _; simpa using h
  | cons x r ih =>
    intro us t h ht
    have hx := hs x (List.mem_cons_self ..)
    have e : Earliest (us ++ [x]) (csFirst t x) := by
      unfold csFirst
      by_cases x0 : x = 0
      · rw [if_neg (by simp [x0])]
        rcases h with ⟨h1, h2⟩ | ⟨h1, h2, h3⟩
        · exact .inl ⟨h1, fun y hy => (List.mem_append.1 hy).elim (h2 y) (fun hy => by simp at hy; exact hy.trans x0)⟩
        · refine .inr ⟨h1, by simp [h2], ?_⟩
          intro y hy y0
          rcases List.mem_append.1 hy with hy | hy
          · exact h3 y hy y0
          · simp at hy; exact absurd (hy.trans x0) y0
      · rw [if_pos x0, timeInt_small _ ht, timeInt_small _ hx]
        rcases h with ⟨h1, h2⟩ | ⟨h1, h2, h3⟩
        · rw [if_pos (.inl h1)]
          refine .inr ⟨x0, by simp, ?_⟩
          intro y hy y0
          rcases List.mem_append.1 hy with hy | hy
          · exact absurd (h2 y hy) y0
          · simp at hy; rw [hy]; exact Nat.le_refl _
        · split
          · rename_i hc
            rcases hc with hc | hc
            · exact absurd hc h1
            · refine .inr ⟨x0, by simp, ?_⟩
              intro y hy y0
              rcases List.mem_append.1 hy with hy | hy
              · have := h3 y hy y0; omega
              · simp at hy; rw [hy]; exact Nat.le_refl _
          · rename_i hc
            have : ¬ (t.toNat : Int) > (x.toNat : Int) := fun z => hc (.inr z)
            refine .inr ⟨h1, by simp [h2], ?_⟩
            intro y hy y0
            rcases List.mem_append.1 hy with hy | hy
            · exact h3 y hy y0
            · simp at hy; rw [hy]; omega
    have e2 : (csFirst t x).toNat < 2 ^ 55 := by
      unfold csFirst; split
      · split
        · exact hx
        · exact ht
      · exact ht
    rw [List.foldl_cons, List.append_cons]
    exact ih (fun y hy => hs y (List.mem_cons_of_mem _ hy)) _ _ e e2

/-! ## Sorting -/

theorem perm_of_map {α β : Type} (f : α → β) {l m : List β} (h : l.Perm m) : ∀ L : List α, m = L.map f →
    ∃ L' : List α, L'.Perm L ∧ l = L'.map f := by
  induction h with
  | nil => intro L e; cases L with
    | nil => exact ⟨[], .refl _, rfl⟩
    | cons _ _ => cases e
  | cons x _ ih =>
    intro L e
    cases L with
    | nil => cases e
    | cons y L =>
      injection e with e1 e2
      obtain ⟨L', h1, h2⟩ := ih L e2
      exact ⟨y :: L', h1.cons y, by rw [h2, e1]; rfl⟩
  | swap x y l =>
    intro L e
    match L, e with
    | a :: b :: L, e =>
      injection e with e1 e2
      injection e2 with e2 e3
      exact ⟨b :: a :: L, .swap .., by rw [e1, e2, e3]; rfl⟩
  | trans _ _ ih1 ih2 =>
    intro L e
    obtain ⟨L2, h1, h2⟩ := ih2 L e
    obtain ⟨L1, h3, h4⟩ := ih1 L2 h2
    exact ⟨L1, h3.trans h1, h4⟩

theorem cmpi_order (a b c : Str) : (cmpi a b ≤ 0 ∨ cmpi b a ≤ 0) ∧ (cmpi a b ≤ 0 → cmpi b c ≤ 0 → cmpi a c ≤ 0) := by
  simp only [cmpi_iff]
  constructor
  · by_cases h : b.map lower < a.map lower
    · right; exact fun h2 => absurd (List.lt_trans h h2) (List.lt_irrefl _)
    · exact .inl h
  · intro h1 h2
    exact List.not_lt.2 (List.le_trans (List.not_lt.1 h1) (List.not_lt.1 h2))

theorem cmpDesc_le {α : Type} (v : α → Int) (a b : α) : cmpDesc v a b ≤ 0 ↔ v b ≤ v a := by
  unfold cmpDesc
  split
  · simp; omega
  · split
    · simp; omega
    · simp; omega

theorem csCompare_order (mode : UInt8) (c : StatLine → StatLine → Int) (h : csCompare mode = some c) (x y z : StatLine) :
    (c x y ≤ 0 ∨ c y x ≤ 0) ∧ (c x y ≤ 0 → c y z ≤ 0 → c x z ≤ 0) := by
  unfold csCompare at h
  repeat' split at h
  all_goals first
    | (injection h with h; subst h; first | exact cmpi_order .. | (simp only [cmpDesc_le]; omega))
    | cases h

theorem csSort_perm (e : StatEnv) (he : GoodSort e) (mode : UInt8) (l : List StatLine) : (csSort e mode l).Perm l := by
  unfold csSort
  split
  · exact .refl _
  · cases hc : csCompare mode with
    | none => exact .refl _
    | some c =>
      exact (he.areas c l (fun a _ b _ => (csCompare_order mode c hc a b a).1)
        (fun a _ b _ d _ => (csCompare_order mode c hc a b d).2)).1

theorem csSort_sorted (e : StatEnv) (he : GoodSort e) (mode : UInt8) (c : StatLine → StatLine → Int) (hc : csCompare mode = some c)
    (l : List StatLine) : (csSort e mode l).Pairwise fun a b => c a b ≤ 0 := by
  unfold csSort
  split
  · rename_i h; rw [h]; exact .nil
  · rw [hc]
    exact (he.areas c l (fun a _ b _ => (csCompare_order mode c hc a b a).1)
      (fun a _ b _ d _ => (csCompare_order mode c hc a b d).2)).2

/-! ## Sums -/

theorem sum_le_of_mem {α : Type} (f : α → Nat) {l : List α} {x : α} (h : x ∈ l) : f x ≤ (l.map f).sum := by
  induction l with
  | nil => cases h
  | cons y l ih =>
    rw [List.map_cons, List.sum_cons]
    rcases List.mem_cons.1 h with rfl | h
    · omega
    · have := ih h; omega

theorem sum_perm_filter {α : Type} (f : α → Nat) (p : α → Bool) {l m : List α} (h : l.Perm (m.filter p)) : (l.map f).sum ≤ (m.map f).sum := by
  rw [(h.map f).sum_nat]
  clear h
  induction m with
  | nil => exact Nat.le_refl _
  | cons x m ih =>
    rw [List.filter_cons]
    split
    · simp only [List.map_cons, List.sum_cons]; omega
    · simp only [List.map_cons, List.sum_cons]; omega

theorem foldl_u32 {α : Type} (f : α → UInt32) (l : List α) : ∀ t : UInt32, t.toNat + (l.map fun x => (f x).toNat).sum < 2 ^ 32 →
    (l.foldl (fun t x => t + f x) t).toNat = t.toNat + (l.map fun x => (f x).toNat).sum := by
  induction l with
  | nil => intro t _; rfl
  | cons x l ih =>
    intro t h
    rw [List.map_cons, List.sum_cons] at h
    have e : (t + f x).toNat = t.toNat + (f x).toNat := by rw [UInt32.toNat_add]; omega
    rw [List.foldl_cons, ih _ (by rw [e]; omega), e, List.map_cons, List.sum_cons]
    omega

theorem days_getD (d : Days) (i : Nat) (h : i < 8) : d.getD i 0 = d[i] := by
  simp [Vector.getD, h]

theorem foldl_days {α : Type} (lo : Nat) (f : α → Days) (i : Nat) (hi : i < 8) (hl : lo ≤ i) (l : List α) : ∀ t : Days,
    (t.getD i 0).toNat + (l.map fun x => ((f x).getD i 0).toNat).sum < 65536 →
    ((l.foldl (fun t x => addDays lo t (f x)) t).getD i 0).toNat = (t.getD i 0).toNat + (l.map fun x => ((f x).getD i 0).toNat).sum := by
  induction l with
  | nil => intro t _; rfl
  | cons x l ih =>
    intro t h
    rw [List.map_cons, List.sum_cons] at h
    have e : ((addDays lo t (f x)).getD i 0).toNat = (t.getD i 0).toNat + ((f x).getD i 0).toNat := by
      rw [days_getD _ _ hi, days_getD _ _ hi, days_getD _ _ hi] at *
      unfold addDays
      rw [Vector.getElem_ofFn]
      rw [if_pos hl]
      show (t[i] + (f x)[i]).toNat = _
      rw [UInt16.toNat_add]; omega
    rw [List.foldl_cons, ih _ (by rw [e]; omega), e, List.map_cons, List.sum_cons]
    omega

end CM
