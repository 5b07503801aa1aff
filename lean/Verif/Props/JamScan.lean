import Verif.Lemmas.JamScan
/-! # Messages are exported from JAM areas -/

set_option linter.unusedSimpArgs false

namespace CM

/-- The high water mark of an area: with high water marks, the number in the file, if there is one; otherwise what is remembered. -/
def MarkIs (o : JamOpt) (f : Option Data) (remembered hw : UInt32) : Prop :=
  (o.highwater = false → hw = remembered) ∧ (o.highwater = true → (f = none → hw = remembered) ∧ ∀ d, f = some d → NumAt d 0 4 hw.toNat)

theorem getHW_ok {o : JamOpt} {f : Option Data} {x : JamRec} {hw : UInt32} (h : MarkIs o f x.hw hw) :
    ∃ y, (if o.highwater then jamGetHW f x else .ok x : Except JErr JamRec) = .ok y ∧ y.hw = hw ∧ y.baseNum = x.baseNum ∧ y.oldNum = x.oldNum ∧
      y.oldHW = if o.highwater = true ∧ f ≠ none then hw else x.oldHW := by
  cases ho : o.highwater with
  | false => exact ⟨x, rfl, (h.1 ho).symm, rfl, rfl, by simp⟩
  | true =>
    obtain ⟨h1, h2⟩ := h.2 ho
    rw [if_pos rfl]
    unfold jamGetHW
    cases f with
    | none => exact ⟨x, rfl, (h1 rfl).symm, rfl, rfl, by simp⟩
    | some d =>
      have hn := h2 d rfl
      have hlen : 4 ≤ d.length := by have := hn.1; omega
      have e := get32_of hn
      simp only
      rw [if_neg (fun e => by rw [e] at hlen; simp at hlen), if_neg (by omega)]
      exact ⟨_, rfl, e, rfl, rfl, by simpa using e⟩

/-- The messages that are looked at: those that were there when the area was first used in this run. -/
def jamKnown (w : JamW) (i : Nat) (ms : List (Option JamMsg)) : Nat := ((w.recs i).map (·.oldNum.toNat)).getD ms.length

theorem add_toNat {start : UInt32} {k : Nat} (h : start.toNat + k < 2 ^ 32) : (start + UInt32.ofNat k).toNat = start.toNat + k := by
  rw [UInt32.toNat_add, UInt32.toNat_ofNat']; omega

/-- Where an export begins: at the first message above the mark. -/
theorem jamStart_ok {x : JamRec} {start : UInt32} (hx : x.baseNum = start) (h1 : x.hw.toNat + 1 < 2 ^ 32) :
    ∃ n, jamStart x = start + UInt32.ofNat n ∧ start.toNat + n < 2 ^ 32 ∧ (n = 0 ∨ start.toNat + n ≤ x.hw.toNat + 1) ∧ (start ≠ 0 → x.hw.toNat < start.toNat + n) := by
  have hs := start.toNat_lt
  have h0 : start + UInt32.ofNat 0 = start := UInt32.add_zero start
  have hpos : start ≠ 0 → 0 < start.toNat := fun h => by
    rcases Nat.eq_zero_or_pos start.toNat with h' | h'
    · exact absurd (UInt32.toNat_inj.1 (h'.trans rfl)) h
    · exact h'
  have hadd : (x.hw + 1).toNat = x.hw.toNat + 1 := by rw [UInt32.toNat_add]; show (x.hw.toNat + 1) % _ = _; omega
  unfold jamStart
  by_cases hz : x.hw ≠ 0
  · simp only [hz, ne_eq, not_false_eq_true, if_true]
    by_cases hlt : x.hw + 1 < x.baseNum
    · rw [if_pos hlt, hx]
      rw [hx, UInt32.lt_iff_toNat_lt, hadd] at hlt
      exact ⟨0, h0.symm, by omega, .inl rfl, fun _ => by omega⟩
    · rw [if_neg hlt]
      rw [hx, UInt32.lt_iff_toNat_lt, hadd] at hlt
      refine ⟨x.hw.toNat + 1 - start.toNat, ?_, by omega, .inr (by omega), fun _ => by omega⟩
      apply UInt32.toNat_inj.1
      rw [add_toNat (by omega), hadd]; omega
  · have hz : x.hw = 0 := Decidable.not_not.1 hz
    simp only [hz, ne_eq, not_true_eq_false, if_false, UInt32.lt_irrefl]
    refine ⟨0, by rw [h0]; exact hx, by omega, .inl rfl, fun h => ?_⟩
    have := hpos h
    show 0 < _
    omega

/-- Exporting from an area. Whatever is in it, whatever handling a message does to other areas and adds to this one, and even if
handling a message fails or Ctrl-C is pressed: the messages that are waiting are handed over in the order of their numbers, each once,
and are marked as sent; nothing else in the area is changed. If nothing failed, none is left, and the high water mark is the number
of the last message. -/
theorem jam_scan (o : JamOpt) (r : JamRun) (hl : ∀ t, r.lock t = true) {Inv : Nat → JamW → Prop} {Fit : MemMsg → Prop} {i : Nat} {start : UInt32} {c : Nat} {handle : JamHandler}
    (hh : JamKeeps Inv Fit i start c handle) (hI : JamElse Inv i) (a : Area) (aka : Node4D) {w : JamW} {b : JamBase} {ms : List (Option JamMsg)} {hw : UInt32} {e : Nat} (hInv : Inv (jamKnown w i ms + e) w)
    (hb : w.base i = some b) (hms : JamHolds b start ms) (h0 : start ≠ 0) (hsm : start.toNat + jamKnown w i ms < 2 ^ 32) (hk : jamKnown w i ms ≤ ms.length)
    (hrec : ∀ x, w.recs i = some x → x.baseNum = start) (hsp : JamSpace c (jamKnown w i ms + e) b ms) (hmark : MarkIs o (w.hwFile i) (w.recOf i).hw hw) (hhw : hw.toNat + 1 < 2 ^ 32)
    (hload : ∀ k m, k < jamKnown w i ms → ms[k]? = some (some m) → JamWaits hw start ms k = true → ∃ mm, loadsAs o r a aka (start + UInt32.ofNat k) m mm ∧ Fit mm) :
    ∃ y p b' ms', jamExport o r handle i a aka w = .ok y ∧ p ≤ jamKnown w i ms ∧ (y.ok = true → p = jamKnown w i ms) ∧ y.w.base i = some b' ∧ JamHolds b' start ms' ∧
      JamScanned (o.killSent && a.type = .netmail) (loadsAs o r a aka) hw start p ms y.sent ms' ∧ JamSpace c e b' ms' ∧ Inv e y.w ∧ y.w.hwFile i = w.hwFile i ∧
      (∃ z, y.w.recs i = some z ∧ z.baseNum = start ∧ z.oldNum.toNat = jamKnown w i ms) ∧
      ((y.w.recOf i).hw = if y.ok = true then start + UInt32.ofNat (jamKnown w i ms) - 1 else hw) ∧
      (y.w.recOf i).oldHW = if o.highwater = true ∧ w.hwFile i ≠ none then hw else (w.recOf i).oldHW := by
  obtain ⟨w1, g1, g2, g3, g4, g5, g6, g7, g8⟩ := jamGetArea_there (r := r) hb hms hrec
  obtain ⟨_, _, _, _, hsz⟩ := jam_count hms
  have hfew : ms.length < 2 ^ 32 := by obtain ⟨off, h⟩ := hms; exact h.few
  -- the record
  have hold : (w1.recOf i).oldNum.toNat = jamKnown w i ms ∧ (w1.recOf i).hw = (w.recOf i).hw ∧ (w1.recOf i).oldHW = (w.recOf i).oldHW := by
    unfold jamKnown
    match hr : w.recs i with
    | some x =>
      rw [g5 x hr, JamW.recOf, hr]
      exact ⟨rfl, rfl, rfl⟩
    | none =>
      rw [(g6 hr).1]
      rw [JamW.recOf, hr]
      exact ⟨hsz, rfl, rfl⟩
  generalize hN : jamKnown w i ms = N at *
  obtain ⟨x, x1, x2, x3, x4, x5⟩ := getHW_ok (o := o) (f := w1.hwFile i) (x := w1.recOf i) (hw := hw) (by rw [hold.2.1, g3]; exact hmark)
  rw [hold.2.2, g3] at x5
  have hxb : x.baseNum = start := x3.trans g4
  have hxo : x.oldNum = UInt32.ofNat N := by rw [x4]; apply UInt32.toNat_inj.1; rw [hold.1, ofNat_few (by omega)]
  unfold jamExport
  rw [g1]
  simp only [Bool.not_true, Bool.false_eq_true, if_false, x1]
  -- the state in which the loop begins
  have hat : JamAt i start x c (N + e) ms (w1.setRec i x) := ⟨b, x, by show w1.base i = _; rw [g2]; exact hb, hms, hsp, if_pos rfl, rfl, rfl, rfl, rfl⟩
  have hInv1 : Inv (N + e) (w1.setRec i x) := hI.1 _ w _ hInv (fun j hj => ⟨by show w1.base j = _; rw [g2], by show (if j = i then _ else w1.recs j) = _; rw [if_neg hj]; exact g7 j hj⟩) fun j _ => congrFun g3 j
  obtain ⟨n, s1, s2, s3, s4⟩ := jamStart_ok (x := x) hxb (by rw [x2]; exact hhw)
  rw [x2] at s3 s4
  have hstop : x.baseNum + x.oldNum = start + UInt32.ofNat N := by rw [hxb, hxo]
  have key : ∃ y p ms' s, jamLoop o r handle i a aka false (start + UInt32.ofNat N) (N + 1) (jamStart x) (w1.setRec i x) [] = .ok y ∧ y.sent = s ∧ p ≤ N ∧ (y.ok = true → p = N) ∧
      JamAt i start x c e ms' y.w ∧ Inv e y.w ∧ y.w.hwFile i = w.hwFile i ∧ JamScanned (o.killSent && a.type = .netmail) (loadsAs o r a aka) hw start p ms s ms' := by
    by_cases hnN : n ≤ N
    · obtain ⟨y, p, ms', s, f1, f2, f3, f4, f5, f6, f7, f8, f9⟩ := loop_spec (o := o) (r := r) (a := a) (aka := aka) hh hI hl hxb (hw := hw) hsm (e := e) (N - n) (N + 1) n (ms := ms) (w := w1.setRec i x) []
        (by omega) (by omega) hk (hat.mono (by omega)) (hI.mono hInv1 (by omega)) (s4 h0) (fun k m _ h0 h1 h2 => hload k m h0 h1 h2)
      rw [s1]
      exact ⟨y, p, ms', s, f1, by rw [f2]; rfl, f4, f5, f6, f7, f8.trans (by rw [← g3]; rfl), f9.all f3 s3⟩
    · -- all numbers are below the mark
      have hnone : Scanning (o.killSent && a.type = .netmail) (loadsAs o r a aka) hw start N N ms [] ms := .none (fun _ _ => rfl) (Nat.le_refl _)
      have hsc := hnone.all (Nat.le_refl N) (.inr (by omega))
      have hstep : Inv e (w1.setRec i x).step := hI.1 _ _ _ (hI.mono hInv1 (by omega)) (fun _ _ => ⟨rfl, rfl⟩) fun _ _ => rfl
      unfold jamLoop
      by_cases hc : r.ctrlc (w1.setRec i x).tick = true
      · rw [if_pos hc]
        exact ⟨_, N, ms, [], rfl, rfl, Nat.le_refl N, fun h => (by cases h), hat.step.mono (by omega), hstep, by show w1.hwFile i = _; rw [g3], hsc⟩
      · rw [if_neg hc, if_neg (by
          rw [s1, UInt32.lt_iff_toNat_lt, add_toNat s2, add_toNat hsm]; omega)]
        exact ⟨_, N, ms, [], rfl, rfl, Nat.le_refl N, fun _ => rfl, hat.step.mono (by omega), hstep, by show w1.hwFile i = _; rw [g3], hsc⟩
  obtain ⟨y, p, ms', s, f1, f2, f3, f4, f5, f6, f7, f8⟩ := key
  obtain ⟨b', z, z1, z2, z3, z4, z5, z6, z7, z8⟩ := f5
  have hzo : z.oldNum.toNat = N := by rw [z6, hxo, ofNat_few (by omega)]
  have hfuel : x.oldNum.toNat + 1 = N + 1 := by rw [hxo, ofNat_few (by omega)]
  show ∃ y p b' ms', (jamLoop o r handle i a aka false (x.baseNum + x.oldNum) (x.oldNum.toNat + 1) (jamStart x) (w1.setRec i x) [] >>= _ : Except JErr JamDone) = .ok y ∧ _
  rw [hstop, hfuel, f1]
  obtain ⟨yok, yw, ys⟩ := y
  simp only at f2 f4 z1 z4 f6 f7
  subst f2
  cases yok with
  | false =>
    refine ⟨⟨false, yw, ys⟩, p, b', ms', rfl, f3, fun h => (by cases h), z1, z2, f8, z3, f6, f7, ⟨z, z4, z5.trans hxb, hzo⟩, ?_, ?_⟩
    · rw [if_neg (by simp)]
      show ((yw.recs i).getD {}).hw = _
      rw [z4]
      exact z7.trans x2
    · show ((yw.recs i).getD {}).oldHW = _
      rw [z4]
      exact z8.trans x5
  | true =>
    refine ⟨⟨true, yw.setRec i { yw.recOf i with hw := start + UInt32.ofNat N - 1 }, ys⟩, p, b', ms', ?_, f3, fun _ => f4 rfl, z1, z2, f8, z3, ?_, f7, ⟨_, if_pos rfl, ?_, ?_⟩, ?_, ?_⟩
    · rfl
    · exact hI.1 _ yw _ f6 (fun j hj => ⟨rfl, if_neg hj⟩) fun _ _ => rfl
    · show ((yw.recs i).getD {}).baseNum = _
      rw [z4]; exact z5.trans hxb
    · show ((yw.recs i).getD {}).oldNum.toNat = _
      rw [z4]; exact hzo
    · rw [if_pos rfl]
      show ((if i = i then some _ else yw.recs i).getD {}).hw = _
      rw [if_pos rfl]; rfl
    · show ((if i = i then some _ else yw.recs i).getD {}).oldHW = _
      rw [if_pos rfl]
      show ((yw.recs i).getD {}).oldHW = _
      rw [z4]
      exact z8.trans x5

/-- At the end of a run in which an area was exported, its high water mark is saved: the next run will find it. `v` is the state after the export, in which `jam_scan` has
established the conditions. -/
theorem jam_mark_saved (o : JamOpt) (r : JamRun) (hl : ∀ t, r.lock t = true) (ho : o.link = true) {w v : JamW} {start : Nat → UInt32} {ms : Nat → List (Option JamMsg)} {i : Nat} {hw : UInt32}
    (hu : AreasUsed v start ms) (hi : i ∈ v.order) (hmark : MarkIs o (w.hwFile i) 0 hw) (hf : v.hwFile i = w.hwFile i) (hold : (v.recOf i).oldHW = if o.highwater = true ∧ w.hwFile i ≠ none then hw else 0) :
    ∃ w', jamAfter o r true v = .ok w' ∧ MarkIs o (w'.hwFile i) 0 (if o.highwater = true then (v.recOf i).hw else 0) := by
  obtain ⟨w', h1, _, _, h4⟩ := jam_after o r hl ho hu
  refine ⟨w', h1, ?_⟩
  rw [h4 i, hf]
  cases hh : o.highwater with
  | false => exact ⟨fun _ => rfl, fun h => (by rw [hh] at h; cases h)⟩
  | true =>
    refine ⟨fun h => (by rw [hh] at h; cases h), fun _ => ?_⟩
    simp only [hh, true_and, if_true] at hold ⊢
    by_cases hne : (v.recOf i).hw = (v.recOf i).oldHW
    · rw [if_neg fun h => h.2 hne]
      obtain ⟨q1, q2⟩ := hmark.2 hh
      refine ⟨fun hn => ?_, fun d hd => ?_⟩
      · rw [hne, hold, if_neg (by simp [hn])]
      · rw [hne, hold, if_pos (by rw [hd]; simp)]
        exact q2 d hd
    · rw [if_pos ⟨hi, hne⟩]
      refine ⟨fun h => (by cases h), fun d hd => ?_⟩
      cases hd
      exact ⟨Nat.le_refl 4, leVal_le32 _⟩

/-! ## Over many runs -/

/-- The message at position `k` cannot be exported any more: it has been removed, or is marked as sent. -/
def JamSpent (ms : List (Option JamMsg)) (k : Nat) : Prop := ms[k]? = some none ∨ ∃ m, ms[k]? = some (some m) ∧ m.hdr.attr &&& 0x10 ≠ 0

/-- What other programs do to the area between runs: anything, except that a number is not used again and the mark of a message that was sent is not
removed. -/
def JamLater (ms ms' : List (Option JamMsg)) : Prop := ∀ k, JamSpent ms k → JamSpent ms' k

/-- A history of an area: exports, complete or not, with whatever settings and marks, and changes by other programs. `nums` are the numbers of the messages that
were handed over. -/
inductive JamHistory (start : UInt32) : List (Option JamMsg) → List UInt32 → List (Option JamMsg) → Prop
  | nil {ms} : JamHistory start ms [] ms
  | export {kill load hw p ms s ms1 nums ms'} : JamScanned kill load hw start p ms s ms1 → ms.length < 2 ^ 32 → JamHistory start ms1 nums ms' →
      JamHistory start ms (s.map (·.1) ++ nums) ms'
  | other {ms ms1 nums ms'} : JamLater ms ms1 → JamHistory start ms1 nums ms' → JamHistory start ms nums ms'

theorem or_bit (a b : UInt32) (h : b ≠ 0) : (a ||| b) &&& b ≠ 0 := by
  intro e
  apply h
  apply UInt32.toBitVec_inj.1
  have := congrArg UInt32.toBitVec e
  simp only [UInt32.toBitVec_and, UInt32.toBitVec_or] at this
  apply BitVec.eq_of_getLsbD_eq
  intro i hi
  have := congrArg (·.getLsbD i) this
  simp only [BitVec.getLsbD_and, BitVec.getLsbD_or] at this
  show b.toBitVec.getLsbD i = (0 : UInt32).toBitVec.getLsbD i
  have hz : (0 : UInt32).toBitVec.getLsbD i = false := by simp
  rw [hz] at this ⊢
  cases hb : b.toBitVec.getLsbD i
  · rfl
  · rw [hb] at this; simp at this

theorem waits_not_spent {hw start : UInt32} {ms : List (Option JamMsg)} {k : Nat} (h : JamWaits hw start ms k = true) : ¬JamSpent ms k ∧ ∃ m, ms[k]? = some (some m) := by
  unfold JamWaits at h
  split at h
  · rename_i m hm
    refine ⟨?_, m, hm⟩
    rintro (h1 | ⟨m', h1, h2⟩)
    · rw [hm] at h1; cases h1
    · rw [hm] at h1
      cases h1
      simp only [Bool.and_eq_true, beq_iff_eq] at h
      exact h2 h.1.2
  · cases h

theorem JamScanned.spent {kill : Bool} {load : UInt32 → JamMsg → MemMsg → Prop} {hw start : UInt32} {p : Nat} {ms ms' : List (Option JamMsg)} {s : List (UInt32 × MemMsg)}
    (h : JamScanned kill load hw start p ms s ms') : JamLater ms ms' ∧ ∀ k, k < p → JamWaits hw start ms k = true → JamSpent ms' k := by
  have hm : ∀ k, k < p → JamWaits hw start ms k = true → JamSpent ms' k := by
    intro k hk hw
    obtain ⟨_, m, hm⟩ := waits_not_spent hw
    obtain ⟨m', h1, d, rfl⟩ := h.marked k m hk hw hm
    exact .inr ⟨_, h1, or_bit _ _ (by decide)⟩
  refine ⟨fun k hk => ?_, hm⟩
  have hlen : k < ms.length := by
    rcases hk with hk | ⟨_, hk, _⟩ <;> exact (List.getElem?_eq_some_iff.1 hk).1
  cases hw' : JamWaits hw start ms k with
  | true => exact absurd hk (waits_not_spent hw').1
  | false =>
    have := h.others k hlen (.inr hw')
    unfold JamSpent at hk ⊢
    rw [this]; exact hk

/-- Over any number of runs: no message is handed over twice, and none that was already marked as sent. -/
theorem jam_sent_once {start : UInt32} {ms ms' : List (Option JamMsg)} {nums : List UInt32} (h : JamHistory start ms nums ms') :
    nums.Nodup ∧ ∀ k, k < 2 ^ 32 → JamSpent ms k → start + UInt32.ofNat k ∉ nums := by
  have inj : ∀ {j k : Nat}, j < 2 ^ 32 → k < 2 ^ 32 → start + UInt32.ofNat j = start + UInt32.ofNat k → j = k := by
    intro j k hj hk e
    have e' : UInt32.ofNat j = UInt32.ofNat k := by
      have := congrArg (· - start) e
      simpa only [pos_sub] using this
    have := congrArg UInt32.toNat e'
    rw [ofNat_few hj, ofNat_few hk] at this
    exact this
  induction h with
  | nil => exact ⟨List.nodup_nil, fun _ _ _ h => by cases h⟩
  | other h1 _ ih => exact ⟨ih.1, fun k hk hs => ih.2 k hk (h1 k hs)⟩
  | @«export» kill load hw p ms s ms1 nums ms' h1 hlen _ ih =>
    obtain ⟨hl, hm⟩ := h1.spent
    have mem : ∀ x, x ∈ s.map (·.1) → ∃ k, k < p ∧ k < 2 ^ 32 ∧ JamWaits hw start ms k = true ∧ x = start + UInt32.ofNat k := by
      intro x hx
      rw [h1.nums] at hx
      obtain ⟨k, hk, rfl⟩ := List.mem_map.1 hx
      have hk := List.mem_filter.1 hk
      obtain ⟨_, m, hkm⟩ := waits_not_spent hk.2
      have := (List.getElem?_eq_some_iff.1 hkm).1
      exact ⟨k, List.mem_range.1 hk.1, by omega, hk.2, rfl⟩
    refine ⟨List.nodup_append.2 ⟨?_, ih.1, fun x hx y hy e => ?_⟩, fun k hk hs hmem => ?_⟩
    · rw [h1.nums]
      refine List.pairwise_map.2 ((List.nodup_range.filter _).imp_of_mem fun {j k} hj hk hne e => hne ?_)
      have lt : ∀ q, q ∈ (List.range p).filter (JamWaits hw start ms) → q < 2 ^ 32 := fun q hq => by
        obtain ⟨_, m, hkm⟩ := waits_not_spent (List.mem_filter.1 hq).2
        have := (List.getElem?_eq_some_iff.1 hkm).1
        omega
      exact inj (lt j hj) (lt k hk) e
    · obtain ⟨k, k1, k2, k3, rfl⟩ := mem x hx
      exact ih.2 k k2 (hm k k1 k3) (e ▸ hy)
    · rcases List.mem_append.1 hmem with hmem | hmem
      · obtain ⟨j, _, j2, j3, e⟩ := mem _ hmem
        have := inj hk j2 e
        subst this
        exact (waits_not_spent j3).1 hs
      · exact ih.2 k hk (hl k hs) hmem

/-- After a complete export nothing that was there is waiting, with any mark that is not below the old one. -/
theorem jam_none_left {kill : Bool} {load : UInt32 → JamMsg → MemMsg → Prop} {hw hw' start : UInt32} {ms ms' : List (Option JamMsg)} {s : List (UInt32 × MemMsg)}
    (h : JamScanned kill load hw start ms.length ms s ms') (hle : hw ≤ hw') (k : Nat) (hk : k < ms.length) : JamWaits hw' start ms' k = false := by
  cases hc : JamWaits hw' start ms' k with
  | false => rfl
  | true =>
    cases hw1 : JamWaits hw start ms k with
    | true => exact absurd (h.spent.2 k hk hw1) (waits_not_spent hc).1
    | false =>
      exfalso
      have e := h.others k hk (.inr hw1)
      have hle := UInt32.le_iff_toNat_le.1 hle
      have hc' : JamWaits hw' start ms k = true := by rw [← waits_congr e]; exact hc
      unfold JamWaits at hc' hw1
      split at hc'
      · rename_i m hm
        rw [hm] at hw1
        simp only [Bool.and_eq_true, decide_eq_true_eq] at hc'
        simp only [hc'.1, Bool.true_and, decide_eq_false_iff_not] at hw1
        omega
      · cases hc'

namespace Ex

def jsArea : Area := { tag := b!"TEST", base := some 0, aka := some 0 }

def jsMore : Area := { tag := b!"MORE", base := some 0 }

/-- A local message, one that was received, one that was sent, one that was deleted, and another local one. -/
def jsOps : List JamOp := [.add { jamHdr0 with attr := 1 } [⟨2, 0, b!"Joe"⟩] b!"one\r", .add { jamHdr0 with attr := 0 } [] b!"two\r", .add { jamHdr0 with attr := 0x11 } [] b!"three\r",
  .add { jamHdr0 with attr := 0x80000001 } [] b!"four\r", .empty, .add { jamHdr0 with attr := 0x21 } [⟨2, 0, b!"Jim"⟩] b!"six\r"]

def jsBase : Option JamBase := (jamCreate jamEnv 5 1).toOption.bind fun b => (jamRun jamEnv { b with locked := true } jsOps).toOption

def jsW (b : JamBase) (f : Option Data) : JamW := { base := fun i => if i = 3 then some b else none, hwFile := fun i => if i = 3 then f else none }

def jsHandler : JamHandler := fun _ w => .ok (true, w)

def jsView (y : JamDone) : Bool × List (UInt32 × Str × List Str) × UInt32 × List (Option UInt32) :=
  (y.ok, y.sent.map fun x => (x.1, x.2.frm, x.2.text), (y.w.recOf 3).hw,
    match y.w.base 3 with
    | none => []
    | some b => (List.range 6).map fun n => (jamHead b (UInt32.ofNat n)).toOption.map (·.attr))

set_option synthInstance.maxSize 1000 in
set_option synthInstance.maxHeartbeats 200000 in
/-- The two local messages are exported and marked, and a second run finds nothing. -/
theorem jam_scan_example : (jsBase.bind fun b => (jamExport {} jlRun jsHandler 3 jsArea ⟨1, 2, 3, 0⟩ (jsW b none)).toOption.map fun y =>
      (jsView y, (y.w.base 3).bind fun b => (jamExport {} jlRun jsHandler 3 jsArea ⟨1, 2, 3, 0⟩ (jsW b none)).toOption.map fun y => y.sent.length)) =
    some ((true, [(1, b!"Joe", [b!"one\r"]), (6, b!"Jim", [b!"six\r"])], 6, [some 0x11, some 0, some 0x11, some 0x80000001, none, some 0x31]), some 0) := by decide +kernel

/-- With high water marks and the number 9 in the file, perhaps from a base that was created anew since, no message is exported, and the mark is set to 6. -/
theorem jam_stale_mark : (jsBase.bind fun b => (jamExport { highwater := true } jlRun jsHandler 3 jsArea ⟨1, 2, 3, 0⟩ (jsW b (some (le32 9)))).toOption.map fun y => (y.ok, y.sent.length, (y.w.recOf 3).hw)) =
    some (true, 0, 6) := by decide +kernel

def jsGot (fl : Str) : MemMsg := { frm := b!"Eve", to := b!"All", subject := b!"Hi", date := b!"01 Jan 00  00:00:00", area := b!"TEST", text := [1 :: b!"FLAGS: " ++ fl ++ b!"\rHello\r"] }

/-- A message is received; in the next run, the area is exported. -/
def jsBack (fl : Str) : Option (List (UInt32 × Str)) :=
  (jamImport {} jlRun 3 (jsGot fl) { base := fun _ => none, hwFile := fun _ => none }).toOption.bind fun x =>
    (x.2.base 3).bind fun b => (jamExport {} jlRun jsHandler 3 jsArea ⟨1, 2, 3, 0⟩ (jsW b none)).toOption.map fun y => y.sent.map fun z => (z.1, z.2.frm)

/-- The flags that a message from another system brings along are believed: with `LOK` (local) it counts as written here, and is exported again. -/
theorem received_is_sent : jsBack b!"XYZ" = some [] ∧ jsBack b!"LOK XYZ" = some [(1, b!"Eve")] := by constructor <;> decide +kernel

theorem jsHandler_keeps (i : Nat) (start : UInt32) (c : Nat) : JamKeeps (fun _ _ => True) (fun _ => True) i start c jsHandler :=
  fun _ w _ _ k _ _ h => ⟨true, w, [], rfl, trivial, by rw [List.append_nil]; exact h.mono (Nat.le_succ k), rfl⟩

theorem js_loads {a : Area} {res : Bool} {num : UInt32} {m : JamMsg} {subs : List JamSub} {text : Data} (h1 : m.hdr.dateWritten = 0) (h2 : m.hdr.cost = 0) (h3 : m.subs = subs) (h4 : m.text = text)
    {attr : UInt32} (h5 : m.hdr.attr = attr) (h : ((jamLoaded {} jlRun a ⟨1, 2, 3, 0⟩ res num { jamHdr0 with attr := attr } subs text).toOption.map fun _ => ()) = some ()) :
    ∃ mm, (∃ old, jamLoaded {} jlRun a ⟨1, 2, 3, 0⟩ res num m.hdr m.subs m.text = .ok (mm, old)) ∧ True := by
  have e : jamLoaded {} jlRun a ⟨1, 2, 3, 0⟩ res num m.hdr m.subs m.text = jamLoaded {} jlRun a ⟨1, 2, 3, 0⟩ res num { jamHdr0 with attr := attr } subs text := by
    subst h3 h4 h5
    unfold jamLoaded jamHeadOut
    rw [h1, h2]
    rfl
  match hq : jamLoaded {} jlRun a ⟨1, 2, 3, 0⟩ res num { jamHdr0 with attr := attr } subs text with
  | .error _ => rw [hq] at h; cases h
  | .ok (mm, old) => exact ⟨mm, ⟨old, e.trans hq⟩, trivial⟩

/-- The area meets the conditions of `jam_scan`, and two messages are waiting. -/
theorem jam_scan_case : ∃ b ms, jsBase = some b ∧ JamHolds b 1 ms ∧ jamKnown (jsW b none) 3 ms = 6 ∧ ms.length = 6 ∧ JamSpace 1000 6 b ms ∧ MarkIs {} ((jsW b none).hwFile 3) ((jsW b none).recOf 3).hw 0 ∧
    JamKeeps (fun _ _ => True) (fun _ => True) 3 1 1000 jsHandler ∧ JamElse (fun _ _ => True) 3 ∧ (List.range 6).filter (JamWaits 0 1 ms) = [0, 5] ∧
    (∀ a, a = jsArea ∨ a = jsMore → ∀ k m, ms[k]? = some (some m) → JamWaits 0 1 ms k = true → ∃ mm, loadsAs {} jlRun a ⟨1, 2, 3, 0⟩ (1 + UInt32.ofNat k) m mm ∧ True) ∧
    (∀ k m, ms[k]? = some (some m) → m.dead = false → ∃ mm, (∃ old, jamLoaded {} jlRun jsArea ⟨1, 2, 3, 0⟩ true (1 + UInt32.ofNat k) m.hdr m.subs m.text = .ok (mm, old)) ∧ True) := by
  obtain ⟨b, h1, h2⟩ := jam_create jamEnv 5 1
  have hlen : b.hdr.length = 1024 ∧ b.txt = [] := by
    injection h1 with h1; rw [← h1]; exact ⟨by decide +kernel, rfl⟩
  obtain ⟨b', ms', r1, r2, r3⟩ := jam_history_partial jamEnv jsOps (b := { b with locked := true }) (start := 1) (ms := []) (h2.relock true) rfl
    ⟨by show b.hdr.length + _ < _; rw [hlen.1]; decide, by show b.txt.length + _ < _; rw [hlen.2]; decide, by decide⟩ (fun op hm => by
      simp only [jsOps, List.mem_cons, List.not_mem_nil, or_false] at hm
      have key : ∀ subs : List JamSub, (∀ s ∈ subs, s.loId ≠ 3) → CanIndex jamEnv subs := fun subs h s hs h3 => absurd h3 (h s hs)
      rcases hm with rfl | rfl | rfl | rfl | rfl | rfl
      · exact ⟨key _ (by decide), by decide⟩
      · exact ⟨key _ (by decide), by decide⟩
      · exact ⟨key _ (by decide), by decide⟩
      · exact ⟨key _ (by decide), by decide⟩
      · trivial
      · exact ⟨key _ (by decide), by decide⟩)
  have hj : jsBase = some b' := by rw [jsBase, h1]; show (jamRun jamEnv _ jsOps).toOption = _; rw [r1]; rfl
  have hsz : (jsBase.map fun b => (b.hdr.length, b.txt.length)) = some (1426, 23) := by decide +kernel
  rw [hj] at hsz
  simp only [Option.map_some, Option.some.injEq, Prod.mk.injEq] at hsz
  rw [jsOps] at r2
  cases r2 with | cons n1 r2 =>
  cases n1 with | add a1 =>
  cases r2 with | cons n1 r2 =>
  cases n1 with | add a2 =>
  cases r2 with | cons n1 r2 =>
  cases n1 with | add a3 =>
  cases r2 with | cons n1 r2 =>
  cases n1 with | add a4 =>
  cases r2 with | cons n1 r2 =>
  cases n1 with | empty =>
  cases r2 with | cons n1 r2 =>
  cases n1 with | add a5 =>
  cases r2
  rename_i m1 m2 m3 m4 m5
  have e1 : m1.hdr.attr = 1 := by rw [a1.hdr]
  have e2 : m2.hdr.attr = 0 := by rw [a2.hdr]
  have e3 : m3.hdr.attr = 0x11 := by rw [a3.hdr]
  have e4 : m4.hdr.attr = 0x80000001 := by rw [a4.hdr]
  have e5 : m5.hdr.attr = 0x21 := by rw [a5.hdr]
  have w0 : JamWaits 0 1 [some m1, some m2, some m3, some m4, none, some m5] 0 = true := by
    show (!decide (_ ≤ m1.hdr.attr.toNat) && m1.hdr.attr &&& 1 != 0 && m1.hdr.attr &&& 0x10 == 0 && _) = true; rw [e1]; decide
  have w1 : JamWaits 0 1 [some m1, some m2, some m3, some m4, none, some m5] 1 = false := by
    show (!decide (_ ≤ m2.hdr.attr.toNat) && m2.hdr.attr &&& 1 != 0 && m2.hdr.attr &&& 0x10 == 0 && _) = false; rw [e2]; decide
  have w2 : JamWaits 0 1 [some m1, some m2, some m3, some m4, none, some m5] 2 = false := by
    show (!decide (_ ≤ m3.hdr.attr.toNat) && m3.hdr.attr &&& 1 != 0 && m3.hdr.attr &&& 0x10 == 0 && _) = false; rw [e3]; decide
  have w3 : JamWaits 0 1 [some m1, some m2, some m3, some m4, none, some m5] 3 = false := by
    show (!decide (_ ≤ m4.hdr.attr.toNat) && m4.hdr.attr &&& 1 != 0 && m4.hdr.attr &&& 0x10 == 0 && _) = false; rw [e4]; decide
  have w4 : JamWaits 0 1 [some m1, some m2, some m3, some m4, none, some m5] 4 = false := rfl
  have w5 : JamWaits 0 1 [some m1, some m2, some m3, some m4, none, some m5] 5 = true := by
    show (!decide (_ ≤ m5.hdr.attr.toNat) && m5.hdr.attr &&& 1 != 0 && m5.hdr.attr &&& 0x10 == 0 && _) = true; rw [e5]; decide
  refine ⟨b', _, hj, r3, rfl, rfl, ⟨by rw [hsz.1]; decide, by rw [hsz.2]; decide, by show 6 + 6 * 1000 < _; decide⟩, ⟨fun _ => rfl, fun h => (by cases h)⟩, jsHandler_keeps 3 1 1000,
    ⟨fun _ _ _ _ _ _ => trivial, fun _ _ _ => trivial⟩, ?_, ?_, ?_⟩
  · show (List.range 6).filter (JamWaits 0 1 [some m1, some m2, some m3, some m4, none, some m5]) = _
    show ([0, 1, 2, 3, 4, 5] : List Nat).filter _ = _
    simp only [List.filter_cons, w0, w1, w2, w3, w4, w5, if_true, Bool.false_eq_true, if_false, List.filter_nil]
  · intro a ha
    show ∀ (k : Nat) m, [some m1, some m2, some m3, some m4, none, some m5][k]? = some (some m) → JamWaits 0 1 [some m1, some m2, some m3, some m4, none, some m5] k = true → _
    intro k m hk hw
    match k, hk with
    | 0, hk => cases hk; exact js_loads (by rw [a1.hdr]; rfl) (by rw [a1.hdr]; rfl) a1.subs a1.text e1 (by rcases ha with rfl | rfl <;> decide +kernel)
    | 1, _ => rw [w1] at hw; cases hw
    | 2, _ => rw [w2] at hw; cases hw
    | 3, _ => rw [w3] at hw; cases hw
    | 4, _ => rw [w4] at hw; cases hw
    | 5, hk => cases hk; exact js_loads (by rw [a5.hdr]; rfl) (by rw [a5.hdr]; rfl) a5.subs a5.text e5 (by rcases ha with rfl | rfl <;> decide +kernel)
    | k + 6, hk => simp at hk
  · show ∀ (k : Nat) m, [some m1, some m2, some m3, some m4, none, some m5][k]? = some (some m) → _
    intro k m hk hw
    match k, hk with
    | 0, hk => cases hk; exact js_loads (by rw [a1.hdr]; rfl) (by rw [a1.hdr]; rfl) a1.subs a1.text e1 (by decide +kernel)
    | 1, hk => cases hk; exact js_loads (by rw [a2.hdr]; rfl) (by rw [a2.hdr]; rfl) a2.subs a2.text e2 (by decide +kernel)
    | 2, hk => cases hk; exact js_loads (by rw [a3.hdr]; rfl) (by rw [a3.hdr]; rfl) a3.subs a3.text e3 (by decide +kernel)
    | 3, hk => cases hk; rw [JamMsg.dead, e4] at hw; cases hw
    | 4, hk => simp at hk
    | 5, hk => cases hk; exact js_loads (by rw [a5.hdr]; rfl) (by rw [a5.hdr]; rfl) a5.subs a5.text e5 (by decide +kernel)
    | k + 6, hk => simp at hk

end Ex

end CM
