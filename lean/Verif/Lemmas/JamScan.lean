import Verif.Spec.JamScan
import Verif.Lemmas.JamRead
import Verif.Lemmas.Keep
import Verif.Props.JamLink
/-! # Lemmas for the export from JAM areas -/

set_option linter.unusedSimpArgs false

namespace CM

/-! ## `oldattr` -/

theorem or_and16 (a b c : UInt16) : (a ||| b) &&& c ≠ 0 ↔ a &&& c ≠ 0 ∨ b &&& c ≠ 0 := by
  have e : (a ||| b) &&& c = (a &&& c) ||| (b &&& c) := by
    apply UInt16.toBitVec_inj.1
    simp only [UInt16.toBitVec_and, UInt16.toBitVec_or, BitVec.and_or_distrib_right]
  rw [e, Ne, UInt16.or_eq_zero_iff]
  constructor
  · intro h
    by_cases h1 : a &&& c = 0
    · exact .inr fun h2 => h ⟨h1, h2⟩
    · exact .inl h1
  · rintro (h | h) ⟨h1, h2⟩
    · exact h h1
    · exact h h2

theorem flagOut_fold (attr : UInt32) (bit : UInt16) : ∀ (fs : List (Str × UInt32 × UInt16)) (x : UInt16 × Str),
    (fs.foldl (jamFlagOut attr) x).1 &&& bit ≠ 0 ↔ x.1 &&& bit ≠ 0 ∨ ∃ f ∈ fs, attr &&& f.2.1 ≠ 0 ∧ f.2.2 &&& bit ≠ 0
  | [], x => by simp
  | f :: fs, x => by
    have step : (jamFlagOut attr x f).1 &&& bit ≠ 0 ↔ x.1 &&& bit ≠ 0 ∨ (attr &&& f.2.1 ≠ 0 ∧ f.2.2 &&& bit ≠ 0) := by
      unfold jamFlagOut
      by_cases h1 : attr &&& f.2.1 ≠ 0
      · rw [if_pos h1]
        by_cases h2 : f.2.2 ≠ 0
        · rw [if_pos h2, or_and16]
          simp only [h1, ne_eq, not_false_eq_true, true_and]
        · rw [if_neg h2]
          have h3 : f.2.2 = 0 := Decidable.not_not.1 h2
          rw [h3]
          simp only [UInt16.zero_and, ne_eq, not_true_eq_false, and_false, or_false]
          split <;> exact Iff.rfl
      · rw [if_neg h1]
        simp only [h1, false_and, or_false]
    rw [List.foldl_cons, flagOut_fold attr bit fs, step]
    simp only [List.mem_cons, exists_eq_or_imp, or_assoc]

theorem addLineJ_attr {m m' : MemMsg} {l : Str} (h : addLineJ m l = .ok m') : m'.attr = m.attr := by
  unfold addLineJ at h
  split at h
  · cases h
  · cases h
  · rename_i q hq
    cases h
    exact (mmAddLine_keep hq).attr

theorem jbind_ok {α β : Type} {x : Except JErr α} {f : α → Except JErr β} {b : β} : (x >>= f) = .ok b ↔ ∃ a, x = .ok a ∧ f a = .ok b := by
  cases x with
  | error e => exact ⟨fun h => (by cases h), fun h => (by obtain ⟨_, h, _⟩ := h; cases h)⟩
  | ok a => exact ⟨fun h => ⟨a, rfl, h⟩, fun h => (by obtain ⟨_, h, h'⟩ := h; cases h; exact h')⟩

theorem jpure_ok {α : Type} {a b : α} : (pure a : Except JErr α) = .ok b ↔ a = b := ⟨fun h => by cases h; rfl, fun h => by rw [h]; rfl⟩

theorem jamSubfield_attr {x x' : JamReading} {f : JamSub} (h : jamSubfield x f = .ok x') : x'.mm.attr = x.mm.attr := by
  have kl : ∀ {pre : Str} {d : Data}, jamKludge x pre d = .ok x' → x'.mm.attr = x.mm.attr := by
    intro pre d h
    obtain ⟨m, h1, h2⟩ := jbind_ok.1 h
    rw [jpure_ok] at h2; subst h2
    exact addLineJ_attr h1
  have fs : ∀ {n : Nat} {g : Str → JamReading}, (fieldStr n f.data >>= fun s => (pure (g s) : Except JErr JamReading)) = .ok x' → (∀ s, (g s).mm.attr = x.mm.attr) → x'.mm.attr = x.mm.attr := by
    intro n g h hg
    obtain ⟨s, _, h2⟩ := jbind_ok.1 h
    rw [jpure_ok] at h2; subst h2
    exact hg s
  unfold jamSubfield at h
  rcases iteq.1 h with ⟨-, h⟩ | ⟨-, h⟩
  · exact fs h fun _ => rfl
  rcases iteq.1 h with ⟨-, h⟩ | ⟨-, h⟩
  · obtain ⟨s, _, h2⟩ := jbind_ok.1 h
    rcases iteq.1 h2 with ⟨-, h⟩ | ⟨-, h⟩ <;> (rw [jpure_ok] at h; subst h; rfl)
  rcases iteq.1 h with ⟨-, h⟩ | ⟨-, h⟩
  · exact fs h fun _ => rfl
  rcases iteq.1 h with ⟨-, h⟩ | ⟨-, h⟩
  · exact fs h fun _ => rfl
  rcases iteq.1 h with ⟨-, h⟩ | ⟨-, h⟩
  · exact kl h
  rcases iteq.1 h with ⟨-, h⟩ | ⟨-, h⟩
  · exact kl h
  rcases iteq.1 h with ⟨-, h⟩ | ⟨-, h⟩
  · exact fs h fun _ => rfl
  rcases iteq.1 h with ⟨-, h⟩ | ⟨-, h⟩
  · exact kl h
  rcases iteq.1 h with ⟨-, h⟩ | ⟨-, h⟩
  · rcases iteq.1 h with ⟨-, h⟩ | ⟨-, h⟩
    · rw [jpure_ok] at h; subst h; rfl
    · exact fs h fun _ => rfl
  rcases iteq.1 h with ⟨-, h⟩ | ⟨-, h⟩
  · exact kl h
  rcases iteq.1 h with ⟨-, h⟩ | ⟨-, h⟩
  · exact kl h
  rcases iteq.1 h with ⟨-, h⟩ | ⟨-, h⟩
  · exact kl h
  rcases iteq.1 h with ⟨-, h⟩ | ⟨-, h⟩
  · exact fs h fun _ => rfl
  · cases h; rfl

theorem jamSubs_attr : ∀ (fs : List JamSub) {x x' : JamReading}, fs.foldlM jamSubfield x = .ok x' → x'.mm.attr = x.mm.attr
  | [], x, x', h => by rw [List.foldlM_nil, jpure_ok] at h; subst h; rfl
  | f :: fs, x, x', h => by
    rw [List.foldlM_cons] at h
    obtain ⟨y, h1, h2⟩ := jbind_ok.1 h
    exact (jamSubs_attr fs h2).trans (jamSubfield_attr h1)

/-- `oldattr` has Kill/Sent exactly if the header has. -/
theorem jamLoaded_old {o : JamOpt} {r : JamRun} {a : Area} {aka : Node4D} {rescan : Bool} {num : UInt32} {h : JamHdr} {subs : List JamSub} {text : Data} {m : MemMsg} {old : UInt16}
    (hl : jamLoaded o r a aka rescan num h subs text = .ok (m, old)) : old &&& 128 ≠ 0 ↔ h.attr &&& 0x20 ≠ 0 := by
  obtain ⟨x, h1, hl⟩ := jbind_ok.1 hl
  obtain ⟨⟨m1, old1⟩, h2, hl⟩ := jbind_ok.1 hl
  obtain ⟨m2, h3, hl⟩ := jbind_ok.1 hl
  obtain ⟨m3, h4, hl⟩ := jbind_ok.1 hl
  rw [jpure_ok] at hl
  cases hl
  have hx : x.mm.attr = 0 := (jamSubs_attr subs h1).trans rfl
  obtain ⟨m5, h5, h6⟩ := jbind_ok.1 h2
  rw [jpure_ok] at h6
  have e2 := congrArg Prod.snd h6
  simp only at e2
  subst e2
  -- the table
  have tab : ∀ a0 : UInt16, a0 &&& 128 = 0 → ∀ s, ((jamFlagTable.foldl (jamFlagOut h.attr) (a0, s)).1 &&& 128 ≠ 0 ↔ h.attr &&& 0x20 ≠ 0) := by
    intro a0 h0 s
    rw [flagOut_fold]
    constructor
    · rintro (h' | ⟨f, hf, h1, h2⟩)
      · exact absurd h0 h'
      · simp only [jamFlagTable, List.mem_cons, List.not_mem_nil, or_false] at hf
        rcases hf with rfl | rfl | rfl | rfl | rfl | rfl | rfl | rfl | rfl | rfl | rfl | rfl | rfl | rfl | rfl | rfl | rfl | rfl | rfl <;>
          first | exact h1 | exact absurd rfl h2
    · intro hk
      exact .inr ⟨(b!"K/S", 0x20, 128), by simp [jamFlagTable], hk, by decide⟩
  have fin : ∀ (a0 : UInt16) (s : Str) (m0 : MemMsg), a0 &&& 128 = 0 →
      (if (jamFlagTable.foldl (jamFlagOut h.attr) (a0, s)).2 ≠ [] then
        match x.buf with
        | none => .error (.ub .uninit)
        | some s' => addLineJ { m0 with attr := (jamFlagTable.foldl (jamFlagOut h.attr) (a0, s)).1 } s'
      else .ok { m0 with attr := (jamFlagTable.foldl (jamFlagOut h.attr) (a0, s)).1 } : Except JErr MemMsg) = .ok m5 → (m5.attr &&& 128 ≠ 0 ↔ h.attr &&& 0x20 ≠ 0) := by
    intro a0 s m0 h0 h5
    rcases iteq.1 h5 with ⟨-, h5⟩ | ⟨-, h5⟩
    · split at h5
      · cases h5
      · rw [addLineJ_attr h5]; exact tab a0 h0 s
    · cases h5; exact tab a0 h0 s
  refine fin _ x.flags _ ?_ h5
  by_cases hf : x.file ≠ []
  · rw [if_pos hf]
    show (x.mm.attr ||| 16) &&& 128 = 0
    rw [hx]; decide
  · rw [if_neg hf]
    show x.mm.attr &&& 128 = 0
    rw [hx]; decide

/-! ## One message -/

/-- What an export does not touch. -/
structure Beside (i : Nat) (w w' : JamW) : Prop where
  base : ∀ j, j ≠ i → w'.base j = w.base j
  recs : ∀ j, j ≠ i → w'.recs j = w.recs j
  hw : w'.hwFile = w.hwFile

theorem Beside.refl (i : Nat) (w : JamW) : Beside i w w := ⟨fun _ _ => rfl, fun _ _ => rfl, rfl⟩

theorem Beside.trans {i : Nat} {a b c : JamW} (h1 : Beside i a b) (h2 : Beside i b c) : Beside i a c :=
  ⟨fun j hj => (h2.base j hj).trans (h1.base j hj), fun j hj => (h2.recs j hj).trans (h1.recs j hj), h2.hw.trans h1.hw⟩

theorem SameW.beside {i : Nat} {a b : JamW} (h : SameW i a b) : Beside i a b := ⟨h.base, fun j _ => by rw [h.recs], h.hw⟩

theorem Beside.inv {Inv : Nat → JamW → Prop} {i k : Nat} (hI : JamElse Inv i) {w w' : JamW} (h : Beside i w w') (hw : Inv k w) : Inv k w' :=
  hI.1 k w w' hw (fun j hj => ⟨h.base j hj, h.recs j hj⟩) fun j _ => congrFun h.hw j

theorem JamElse.mono {Inv : Nat → JamW → Prop} {i : Nat} (hI : JamElse Inv i) {w : JamW} {k : Nat} : ∀ {k'}, Inv k' w → k ≤ k' → Inv k w
  | 0, h, hk => by rw [Nat.le_zero.1 hk]; exact h
  | k' + 1, h, hk => by
    by_cases e : k = k' + 1
    · rw [e]; exact h
    · exact hI.mono (hI.2 k' w h) (by omega)

/-- The area is known, so nothing happens. -/
theorem jamGetArea_at {r : JamRun} {i : Nat} {start : UInt32} {x : JamRec} {c k : Nat} {ms : List (Option JamMsg)} {w : JamW} (h : JamAt i start x c k ms w) :
    jamGetArea r w i = (true, w) := by
  obtain ⟨b, y, h1, _, _, h4, _⟩ := h
  unfold jamGetArea
  simp only [h4, jamOpenArea, h1]

theorem JamAt.step {i : Nat} {start : UInt32} {x : JamRec} {c k : Nat} {ms : List (Option JamMsg)} {w : JamW} (h : JamAt i start x c k ms w) : JamAt i start x c k ms w.step := h

theorem JamSpace.mono {c k k' : Nat} {b : JamBase} {ms : List (Option JamMsg)} (h : JamSpace c k' b ms) (hk : k ≤ k') : JamSpace c k b ms := by
  have := Nat.mul_le_mul_right c hk
  obtain ⟨h1, h2, h3⟩ := h
  exact ⟨by omega, by omega, by omega⟩

theorem JamAt.mono {i : Nat} {start : UInt32} {x : JamRec} {c k k' : Nat} {ms : List (Option JamMsg)} {w : JamW} (h : JamAt i start x c k' ms w) (hk : k ≤ k') : JamAt i start x c k ms w := by
  obtain ⟨b, y, h1, h2, h3, h4⟩ := h
  exact ⟨b, y, h1, h2, h3.mono hk, h4⟩

theorem stillDead {a b : UInt32} (h : 2 ^ 31 ≤ a.toNat) : 2 ^ 31 ≤ (a ||| b).toNat := by
  rw [UInt32.toNat_or]
  exact Nat.le_trans h Nat.left_le_or

theorem pos_sub (start : UInt32) (k : Nat) : start + UInt32.ofNat k - start = UInt32.ofNat k := by
  rw [UInt32.add_comm, UInt32.add_sub_cancel]

section
variable {o : JamOpt} {r : JamRun} {i : Nat} {a : Area} {aka : Node4D} {start : UInt32} {x : JamRec} {c : Nat}

theorem mark_spec (hl : ∀ t, r.lock t = true) (hx : x.baseNum = start) {k : Nat} {ms : List (Option JamMsg)} {w : JamW} (h : JamAt i start x c k ms w) {n : Nat} {m : JamMsg} (hm : ms[n]? = some (some m))
    {old : UInt16} (hold : old &&& 128 ≠ 0 ↔ m.hdr.attr &&& 0x20 ≠ 0) :
    ∃ w' m', jamMarkSent o r i a (start + UInt32.ofNat n) m.hdr old w = (true, w') ∧ JamAt i start x c k (ms.set n (some m')) w' ∧ JamSent (o.killSent && a.type = .netmail) m m' ∧ Beside i w w' := by
  have hfew : n < 2 ^ 32 := by obtain ⟨b, y, _, h2, _⟩ := h; exact h2.few hm
  obtain ⟨b, y, h1, h2, h3, h4, h5, h6⟩ := h
  have hg : jamGetArea r w.step i = (true, w.step) := jamGetArea_at (c := c) (k := k) (start := start) (x := x) (ms := ms) ⟨b, y, h1, h2, h3, h4, h5, h6⟩
  obtain ⟨w1, l1, l2, l3⟩ := jamLockW_ok hl (w := w.step) (i := i) (b := b) h1
  have hrec : (w1.recOf i).baseNum = start := by
    rw [JamW.recOf, l3.recs]
    show ((w.recs i).getD {}).baseNum = start
    rw [h4]; exact h5.trans hx
  unfold jamMarkSent
  simp only [hg, l1, l2, Bool.not_true, Bool.false_eq_true, if_false, hrec, pos_sub]
  obtain ⟨b', c1, c2, _, c4, c5⟩ := jam_change r.e (h2.relock true) rfl (UInt32.ofNat n) (m := m) (by rw [ofNat_few hfew]; exact hm) (jamSentHdr o r a w.tick old m.hdr) rfl rfl rfl (by
    intro hd
    simp only [JamMsg.dead, decide_eq_true_eq] at hd ⊢
    simp only [jamSentHdr]
    refine stillDead ?_
    split
    · exact stillDead hd
    · exact hd)
  rw [ofNat_few hfew] at c2
  simp only [c1]
  obtain ⟨u1, u2⟩ := jamUnlockW_ok (w := w1.setBase i b') (i := i) (setBase_self i w1 b')
  have hsame : SameW i w.step (jamUnlockW (w1.setBase i b') i) := (l3.trans (setBase_same i w1 b')).trans u2
  refine ⟨_, { m with hdr := jamSentHdr o r a w.tick old m.hdr }, rfl, ⟨_, y, u1, c2.relock false, ?_, by rw [hsame.recs]; exact h4, h5, h6⟩, ⟨UInt32.ofInt (r.now w.tick - r.utcOffset), ?_⟩, ?_⟩
  · obtain ⟨s1, s2, s3⟩ := h3
    refine ⟨?_, ?_, by rw [List.length_set]; exact s3⟩
    · show b'.hdr.length + _ < _; rw [c4]; exact s1
    · show b'.txt.length + _ < _; rw [c5]; exact s2
  · simp only [jamSentHdr]
    congr 2
    by_cases hk : o.killSent = true ∧ a.type = .netmail
    · simp only [hk.1, hk.2, Bool.true_and, decide_true, Bool.and_true, bne_iff_ne, and_true, true_and, hold]
    · have : (o.killSent && decide (a.type = .netmail)) = false := by
        rw [Bool.and_eq_false_iff]
        by_cases h1 : o.killSent = true
        · exact .inr (decide_eq_false fun h2 => hk ⟨h1, h2⟩)
        · exact .inl (by simpa using h1)
      rw [this]
      simp only [Bool.false_eq_true, false_and, if_false]
      rw [if_neg]
      intro hc
      simp only [Bool.and_eq_true, decide_eq_true_eq] at hc
      exact hk ⟨hc.1.1, hc.2⟩
  · have := hsame.beside
    exact ⟨this.base, this.recs, this.hw⟩

theorem waits_some {hw : UInt32} {ms : List (Option JamMsg)} {n : Nat} {m : JamMsg} (hm : ms[n]? = some (some m)) (hn : hw.toNat < start.toNat + n) :
    JamWaits hw start ms n = (!jamDeleted m.hdr.attr && !(m.hdr.attr &&& 0x10 != 0 || m.hdr.attr &&& 0x1 == 0)) := by
  rw [JamWaits, hm]
  simp only [hn, decide_true, Bool.and_true, JamMsg.dead, jamDeleted_iff, bne]
  generalize (m.hdr.attr &&& 1 == 0) = a
  generalize (m.hdr.attr &&& 16 == 0) = b
  generalize decide (2 ^ 31 ≤ m.hdr.attr.toNat) = d
  revert a b d
  decide

/-- What happens to the message at position `n`. -/
structure OneDone (kill : Bool) (load : UInt32 → JamMsg → MemMsg → Prop) (hw start : UInt32) (n : Nat) (ms : List (Option JamMsg)) (ok : Bool) (sent : List (UInt32 × MemMsg))
    (ms1 : List (Option JamMsg)) : Prop where
  grown : ms.length ≤ ms1.length
  others : ∀ j, j < ms.length → j ≠ n → ms1[j]? = ms[j]?
  this : (JamWaits hw start ms n = false ∧ ok = true ∧ sent = [] ∧ ms1[n]? = ms[n]?) ∨ (JamWaits hw start ms n = true ∧ ok = false ∧ sent = [] ∧ ms1[n]? = ms[n]?) ∨
    (JamWaits hw start ms n = true ∧ ok = true ∧ ∃ m m' mm, ms[n]? = some (some m) ∧ sent = [(start + UInt32.ofNat n, mm)] ∧ load (start + UInt32.ofNat n) m mm ∧
      ms1[n]? = some (some m') ∧ JamSent kill m m')

/-- The message that is handed over. -/
def loadsAs (o : JamOpt) (r : JamRun) (a : Area) (aka : Node4D) (num : UInt32) (m : JamMsg) (mm : MemMsg) : Prop :=
  ∃ old, jamLoaded o r a aka false num m.hdr m.subs m.text = .ok (mm, old)

theorem exportNum_spec {Inv : Nat → JamW → Prop} {Fit : MemMsg → Prop} {handle : JamHandler} (hh : JamKeeps Inv Fit i start c handle) (hI : JamElse Inv i)
    (hl : ∀ t, r.lock t = true) (hx : x.baseNum = start) {hw : UInt32} {k : Nat} {ms : List (Option JamMsg)} {w : JamW} (h : JamAt i start x c (k + 1) ms w) (hInv : Inv (k + 1) w) {n : Nat}
    (hn : n < ms.length) (hnum : hw.toNat < start.toNat + n)
    (hload : ∀ m, ms[n]? = some (some m) → JamWaits hw start ms n = true → ∃ mm, loadsAs o r a aka (start + UInt32.ofNat n) m mm ∧ Fit mm) :
    ∃ y ms1, jamExportNum o r handle i a aka false (start + UInt32.ofNat n) w = .ok y ∧ JamAt i start x c k ms1 y.w ∧ Inv k y.w ∧ y.w.hwFile i = w.hwFile i ∧
      OneDone (o.killSent && a.type = .netmail) (loadsAs o r a aka) hw start n ms y.ok y.sent ms1 := by
  have hg := jamGetArea_at (r := r) h
  obtain ⟨b, y, h1, h2, h3, h4, h5, h6⟩ := id h
  have hfew : n < 2 ^ 32 := h2.few (List.getElem?_eq_getElem hn)
  have hrec : (w.recOf i).baseNum = start := by rw [JamW.recOf, h4]; exact h5.trans hx
  unfold jamExportNum
  simp only [hg, h1, hrec, pos_sub, Bool.not_true, Bool.false_eq_true, if_false, jam_readHdr h2, ofNat_few hfew]
  -- nothing to do
  have skip : JamWaits hw start ms n = false → ∃ y ms1, (pure ⟨true, w, []⟩ : Except JErr JamDone) = .ok y ∧ JamAt i start x c k ms1 y.w ∧ Inv k y.w ∧ y.w.hwFile i = w.hwFile i ∧
      OneDone (o.killSent && a.type = .netmail) (loadsAs o r a aka) hw start n ms y.ok y.sent ms1 := fun hz =>
    ⟨⟨true, w, []⟩, ms, rfl, h.mono (Nat.le_succ k), hI.2 k w hInv, rfl, Nat.le_refl _, fun _ _ _ => rfl, .inl ⟨hz, rfl, rfl, rfl⟩⟩
  match hm : ms[n]? with
  | none => exact skip (by rw [JamWaits, hm])
  | some none => exact skip (by rw [JamWaits, hm])
  | some (some m) =>
    have hwt := waits_some (start := start) hm hnum
    simp only [liftJ]
    show ∃ y ms1, (if jamDeleted m.hdr.attr = true then _ else _ : Except JErr JamDone) = .ok y ∧ _
    by_cases hd : jamDeleted m.hdr.attr = true
    · rw [if_pos hd]
      exact skip (by rw [hwt, hd]; rfl)
    · rw [if_neg hd]
      show ∃ y ms1, (if (!false && (m.hdr.attr &&& 0x10 != 0 || m.hdr.attr &&& 0x1 == 0)) = true then _ else _ : Except JErr JamDone) = .ok y ∧ _
      by_cases hs : (m.hdr.attr &&& 0x10 != 0 || m.hdr.attr &&& 0x1 == 0) = true
      · rw [if_pos (by rw [hs]; rfl)]
        exact skip (by rw [hwt, hs]; simp)
      · rw [if_neg (by simpa using hs)]
        have hwt : JamWaits hw start ms n = true := by
          rw [hwt]
          simp only [Bool.not_eq_true] at hd hs
          rw [hd, hs]; rfl
        rw [jam_readText h2 hm]
        obtain ⟨mm, ⟨old, hlo⟩, hfit⟩ := hload m hm hwt
        obtain ⟨ok, w1, new, k1, k2, k3, k4⟩ := hh mm w x ms k hfit hInv h
        simp only [hlo]
        show ∃ y ms1, (handle mm w >>= _ : Except JErr JamDone) = .ok y ∧ _
        rw [k1]
        have hm1 : (ms ++ new)[n]? = some (some m) := by rw [List.getElem?_append_left hn]; exact hm
        cases ok with
        | false =>
          exact ⟨⟨false, w1, []⟩, ms ++ new, rfl, k3, k2, k4, by simp, fun j hj _ => List.getElem?_append_left hj, .inr (.inl ⟨hwt, rfl, rfl, by rw [hm1, hm]⟩)⟩
        | true =>
          obtain ⟨w2, m', q1, q2, q3, q4⟩ := mark_spec (o := o) (a := a) hl hx k3 hm1 (jamLoaded_old hlo)
          refine ⟨⟨true, w2, [(start + UInt32.ofNat n, mm)]⟩, (ms ++ new).set n (some m'), ?_, q2, q4.inv hI k2, (congrFun q4.hw i).trans k4, by simp, fun j hj hjn => ?_,
            .inr (.inr ⟨hwt, rfl, m, m', mm, hm, rfl, ⟨old, hlo⟩, ?_, q3⟩)⟩
          · show Except.ok (JamDone.mk (jamMarkSent o r i a (start + UInt32.ofNat n) m.hdr old w1).1 (jamMarkSent o r i a (start + UInt32.ofNat n) m.hdr old w1).2 _) = _
            rw [q1]
          · rw [List.getElem?_set_ne (fun e => hjn e.symm)]
            exact List.getElem?_append_left hj
          · exact List.getElem?_set_self (by simp; omega)

/-! ## The loop -/

/-- What an export from position `n` up to `p` does. -/
structure Scanning (kill : Bool) (load : UInt32 → JamMsg → MemMsg → Prop) (hw start : UInt32) (n p : Nat) (ms : List (Option JamMsg)) (sent : List (UInt32 × MemMsg))
    (ms' : List (Option JamMsg)) : Prop where
  nums : sent.map (·.1) = ((List.range' n (p - n)).filter (JamWaits hw start ms)).map fun k => start + UInt32.ofNat k
  what : ∀ x ∈ sent, ∃ k m, n ≤ k ∧ k < p ∧ ms[k]? = some (some m) ∧ x.1 = start + UInt32.ofNat k ∧ load x.1 m x.2
  marked : ∀ k m, n ≤ k → k < p → JamWaits hw start ms k = true → ms[k]? = some (some m) → ∃ m', ms'[k]? = some (some m') ∧ JamSent kill m m'
  others : ∀ k, k < ms.length → (k < n ∨ p ≤ k ∨ JamWaits hw start ms k = false) → ms'[k]? = ms[k]?
  grown : ms.length ≤ ms'.length

theorem Scanning.none {kill : Bool} {load : UInt32 → JamMsg → MemMsg → Prop} {hw : UInt32} {n : Nat} {ms ms' : List (Option JamMsg)}
    (h : ∀ k, k < ms.length → ms'[k]? = ms[k]?) (hg : ms.length ≤ ms'.length) : Scanning kill load hw start n n ms [] ms' where
  nums := by rw [Nat.sub_self]; rfl
  what := fun x hx => by cases hx
  marked := fun k m h1 h2 => by omega
  others := fun k hk _ => h k hk
  grown := hg

theorem waits_congr {hw : UInt32} {ms ms1 : List (Option JamMsg)} {k : Nat} (h : ms1[k]? = ms[k]?) : JamWaits hw start ms1 k = JamWaits hw start ms k := by
  rw [JamWaits, JamWaits, h]

theorem Scanning.cons {kill : Bool} {load : UInt32 → JamMsg → MemMsg → Prop} {hw : UInt32} {n p : Nat} {ms ms1 ms' : List (Option JamMsg)} {s s' : List (UInt32 × MemMsg)}
    (hp : n < p) (hpm : p ≤ ms.length) (h1 : OneDone kill load hw start n ms true s ms1) (h2 : Scanning kill load hw start (n + 1) p ms1 s' ms') :
    Scanning kill load hw start n p ms (s ++ s') ms' := by
  have same : ∀ j, j < ms.length → j ≠ n → ms1[j]? = ms[j]? := h1.others
  have hrest : (List.range' (n + 1) (p - (n + 1))).filter (JamWaits hw start ms1) = (List.range' (n + 1) (p - (n + 1))).filter (JamWaits hw start ms) := by
    apply List.filter_congr
    intro j hj
    have := List.mem_range'_1.1 hj
    exact waits_congr (same j (by omega) (by omega))
  have hr : List.range' n (p - n) = n :: List.range' (n + 1) (p - (n + 1)) := by
    rw [show p - n = (p - (n + 1)) + 1 by omega, List.range'_succ]
  have hn' : ms'[n]? = ms1[n]? := h2.others n (by have := h1.grown; omega) (.inl (by omega))
  refine ⟨?_, fun x hx => ?_, fun k m hk hkp hwt hm => ?_, fun k hk hc => ?_, Nat.le_trans h1.grown h2.grown⟩
  · rw [List.map_append, h2.nums, hrest, hr]
    rcases h1.this with ⟨e1, _, e3, _⟩ | ⟨_, e2, _⟩ | ⟨e1, _, m, m', mm, _, e3, _⟩
    · rw [e3, List.filter_cons_of_neg (by rw [e1]; decide)]; rfl
    · cases e2
    · rw [e3, List.filter_cons_of_pos e1]; rfl
  · rcases List.mem_append.1 hx with hx | hx
    · rcases h1.this with ⟨_, _, e3, _⟩ | ⟨_, e2, _⟩ | ⟨_, _, m, m', mm, hm, e3, e4, _⟩
      · rw [e3] at hx; cases hx
      · cases e2
      · rw [e3, List.mem_singleton] at hx
        subst hx
        exact ⟨n, m, Nat.le_refl n, hp, hm, rfl, e4⟩
    · obtain ⟨k, m, k0, k1, k2, k3, k4⟩ := h2.what x hx
      exact ⟨k, m, by omega, k1, by rw [← same k (by omega) (by omega)]; exact k2, k3, k4⟩
  · by_cases hkn : k = n
    · subst hkn
      rcases h1.this with ⟨e1, _, _, e4⟩ | ⟨_, e2, _⟩ | ⟨_, _, m0, m', mm, hm0, e3, e4, e5, e6⟩
      · rw [e1] at hwt; cases hwt
      · cases e2
      · rw [hm] at hm0
        cases hm0
        exact ⟨m', by rw [hn']; exact e5, e6⟩
    · have e := same k (by omega) hkn
      exact h2.marked k m (by omega) hkp (by rw [waits_congr e]; exact hwt) (by rw [e]; exact hm)
  · by_cases hkn : k = n
    · subst hkn
      rw [hn']
      rcases h1.this with ⟨_, _, _, e4⟩ | ⟨_, e2, _⟩ | ⟨e1, _⟩
      · exact e4
      · cases e2
      · rcases hc with hc | hc | hc
        · omega
        · omega
        · rw [e1] at hc; cases hc
    · have e := same k hk hkn
      rw [h2.others k (Nat.lt_of_lt_of_le hk h1.grown) ?_, e]
      rcases hc with hc | hc | hc
      · exact .inl (by omega)
      · exact .inr (.inl hc)
      · exact .inr (.inr (by rw [waits_congr e]; exact hc))

theorem num_lt {n p : Nat} (hp : start.toNat + p < 2 ^ 32) (hn : n ≤ p) : start + UInt32.ofNat n < start + UInt32.ofNat p ↔ n < p := by
  have e : ∀ q, q ≤ p → (start + UInt32.ofNat q).toNat = start.toNat + q := by
    intro q hq
    rw [UInt32.toNat_add, UInt32.toNat_ofNat']; omega
  rw [UInt32.lt_iff_toNat_lt, e n hn, e p (Nat.le_refl p)]
  omega

theorem num_next (n : Nat) : start + UInt32.ofNat n + 1 = start + UInt32.ofNat (n + 1) := by
  rw [UInt32.ofNat_add, UInt32.add_assoc]; rfl

theorem loop_spec {Inv : Nat → JamW → Prop} {Fit : MemMsg → Prop} {handle : JamHandler} (hh : JamKeeps Inv Fit i start c handle) (hI : JamElse Inv i)
    (hl : ∀ t, r.lock t = true) (hx : x.baseNum = start) {hw : UInt32} {N : Nat} (hN : start.toNat + N < 2 ^ 32) {e : Nat} : ∀ (d fuel n : Nat) {ms : List (Option JamMsg)} {w : JamW} (done : List (UInt32 × MemMsg)),
    n + d = N → d < fuel → N ≤ ms.length → JamAt i start x c (d + e) ms w → Inv (d + e) w → hw.toNat < start.toNat + n →
    (∀ k m, n ≤ k → k < N → ms[k]? = some (some m) → JamWaits hw start ms k = true → ∃ mm, loadsAs o r a aka (start + UInt32.ofNat k) m mm ∧ Fit mm) →
    ∃ y p ms' s, jamLoop o r handle i a aka false (start + UInt32.ofNat N) fuel (start + UInt32.ofNat n) w done = .ok y ∧ y.sent = done ++ s ∧ n ≤ p ∧ p ≤ N ∧ (y.ok = true → p = N) ∧
      JamAt i start x c e ms' y.w ∧ Inv e y.w ∧ y.w.hwFile i = w.hwFile i ∧ Scanning (o.killSent && a.type = .netmail) (loadsAs o r a aka) hw start n p ms s ms' := by
  intro d
  induction d with
  | zero =>
    intro fuel n ms w done hd hf hms hat hInv hn hload
    obtain ⟨fuel, rfl⟩ := Nat.exists_eq_add_one_of_ne_zero (show fuel ≠ 0 by omega)
    unfold jamLoop
    rw [Nat.zero_add] at hat hInv
    have hstep : Inv e w.step := hI.1 e w w.step hInv (fun _ _ => ⟨rfl, rfl⟩) fun _ _ => rfl
    by_cases hc : r.ctrlc w.tick = true
    · rw [if_pos hc]
      exact ⟨_, n, ms, [], rfl, by simp, Nat.le_refl n, by omega, fun h => (by cases h), hat.step, hstep, rfl, .none (fun _ _ => rfl) (Nat.le_refl _)⟩
    · rw [if_neg hc, if_neg (by rw [num_lt hN (by omega)]; omega)]
      exact ⟨_, n, ms, [], rfl, by simp, Nat.le_refl n, by omega, fun _ => by omega, hat.step, hstep, rfl, .none (fun _ _ => rfl) (Nat.le_refl _)⟩
  | succ d ih =>
    intro fuel n ms w done hd hf hms hat hInv hn hload
    obtain ⟨fuel, rfl⟩ := Nat.exists_eq_add_one_of_ne_zero (show fuel ≠ 0 by omega)
    unfold jamLoop
    rw [show d + 1 + e = (d + e) + 1 by omega] at hat hInv
    have hstep : Inv (d + e + 1) w.step := hI.1 _ w w.step hInv (fun _ _ => ⟨rfl, rfl⟩) fun _ _ => rfl
    by_cases hc : r.ctrlc w.tick = true
    · rw [if_pos hc]
      exact ⟨_, n, ms, [], rfl, by simp, Nat.le_refl n, by omega, fun h => (by cases h), hat.step.mono (by omega), hI.mono hstep (by omega), rfl, .none (fun _ _ => rfl) (Nat.le_refl _)⟩
    · rw [if_neg hc, if_pos (by rw [num_lt hN (by omega)]; omega)]
      obtain ⟨y, ms1, e1, e2, e3, e4, e5⟩ := exportNum_spec (aka := aka) hh hI hl hx hat.step hstep (n := n) (by omega) hn (hload n · (Nat.le_refl n) (by omega))
      rw [e1]
      show ∃ y' p ms' s, (if (!y.ok) = true then _ else _ : Except JErr JamDone) = .ok y' ∧ _
      obtain ⟨yok, yw, ys⟩ := y
      cases yok with
      | false =>
        refine ⟨⟨false, yw, done ++ ys⟩, n, ms1, ys, rfl, rfl, Nat.le_refl n, by omega, fun h => (by cases h), e2.mono (by omega), hI.mono e3 (by omega), e4, ?_⟩
        rcases e5.this with ⟨_, h, _⟩ | ⟨_, _, h3, h4⟩ | ⟨_, h, _⟩
        · cases h
        · simp only at h3
          subst h3
          refine .none (fun k hk => ?_) e5.grown
          by_cases hkn : k = n
          · rw [hkn]; exact h4
          · exact e5.others k hk hkn
        · cases h
      | true =>
        rw [if_neg (by simp), num_next]
        have hsame := e5.others
        have hgr := e5.grown
        obtain ⟨y', p, ms', s, f1, f2, f3, f4, f5, f6, f7, f8, f9⟩ := ih fuel (n + 1) (ms := ms1) (done ++ ys) (by omega) (by omega) (by omega) e2 e3 (by omega) (fun k m h1 h2 h3 h4 => by
          have e := hsame k (by omega) (by omega)
          exact hload k m (by omega) h2 (by rw [← e]; exact h3) (by rw [← waits_congr e]; exact h4))
        exact ⟨y', p, ms', ys ++ s, f1, by rw [f2, List.append_assoc], by omega, f4, f5, f6, f7, f8.trans e4, .cons (by omega) (by omega) e5 f9⟩

/-! ## The whole area -/

theorem Scanning.all {kill : Bool} {load : UInt32 → JamMsg → MemMsg → Prop} {hw : UInt32} {n p : Nat} {ms ms' : List (Option JamMsg)} {s : List (UInt32 × MemMsg)} (hnp : n ≤ p)
    (hn : n = 0 ∨ start.toNat + n ≤ hw.toNat + 1) (h : Scanning kill load hw start n p ms s ms') : JamScanned kill load hw start p ms s ms' := by
  have hz : ∀ k, k < n → JamWaits hw start ms k = false := by
    intro k hk
    unfold JamWaits
    split
    · rw [decide_eq_false (by omega), Bool.and_false]
    · rfl
  refine ⟨?_, fun x hx => ?_, fun k m hk hw hm => ?_, fun k hk hc => h.others k hk (.inr hc), h.grown⟩
  · rw [h.nums]
    have e : List.range p = List.range' 0 n ++ List.range' n (p - n) := by
      rw [List.range_eq_range', show p = n + (p - n) by omega, ← List.range'_append]
      simp
    rw [e, List.filter_append]
    rw [(List.filter_eq_nil_iff (p := JamWaits hw start ms) (l := List.range' 0 n)).2 (fun k hk => by
      have := List.mem_range'_1.1 hk
      rw [hz k (by omega)]; decide)]
    rfl
  · obtain ⟨k, m, _, h2⟩ := h.what x hx
    exact ⟨k, m, h2⟩
  · by_cases hkn : k < n
    · rw [hz k hkn] at hw; cases hw
    · exact h.marked k m (by omega) hk hw hm

end

end CM
