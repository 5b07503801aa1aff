import Verif.Lemmas.JamLink
import Verif.Lemmas.JamRead
import Verif.Spec.JamLink
/-! # Links between replies: the messages of a base -/

set_option linter.unusedSimpArgs false

namespace CM

/-- The table entry of a message. -/
def linkOf : Option JamMsg → JamLink
  | none => { msgId := 0xffffffffffffffff, reply := 0xffffffffffffffff, to := 0, first := 0, next := 0 }
  | some m => { msgId := m.hdr.msgIdCrc.toUInt64, reply := m.hdr.replyCrc.toUInt64, to := m.hdr.replyTo.toUInt64, first := m.hdr.reply1st.toUInt64,
                next := m.hdr.replyNext.toUInt64 }

theorem ofNat_few {n : Nat} (h : n < 2 ^ 32) : (UInt32.ofNat n).toNat = n := by rw [UInt32.toNat_ofNat']; omega

theorem JamHolds.few {b : JamBase} {start : UInt32} {ms : List (Option JamMsg)} (h : JamHolds b start ms) {n : Nat} {o : Option JamMsg} (hm : ms[n]? = some o) : n < 2 ^ 32 := by
  obtain ⟨off, h⟩ := h
  have := h.few
  have := (List.getElem?_eq_some_iff.1 hm).1
  omega

theorem jamLinkOf_eq {b : JamBase} {start : UInt32} {ms : List (Option JamMsg)} (h : JamHolds b start ms) {n : Nat} {o : Option JamMsg} (hm : ms[n]? = some o) :
    jamLinkOf b n = linkOf o := by
  rw [jamLinkOf, jam_head h, ofNat_few (h.few hm), hm]
  cases o <;> rfl

theorem jamTable {b : JamBase} {start : UInt32} {ms : List (Option JamMsg)} (h : JamHolds b start ms) :
    (List.range ms.length).map (jamLinkOf b) = ms.map linkOf := by
  apply List.ext_getElem?
  intro k
  rw [List.getElem?_map, List.getElem?_map]
  by_cases hk : k < ms.length
  · rw [List.getElem?_eq_getElem (by simpa using hk), List.getElem?_eq_getElem hk]
    simp only [List.getElem_range, Option.map_some]
    rw [jamLinkOf_eq h (List.getElem?_eq_getElem hk)]
  · rw [List.getElem?_eq_none (by simp; omega), List.getElem?_eq_none (by omega)]
    rfl

/-- The table has the checksums of the messages. -/
structure IdsOf (ms : List (Option JamMsg)) (T : List JamLink) : Prop where
  len : T.length = ms.length
  ids : ∀ (k : Nat) (t : JamLink) (o : Option JamMsg), T[k]? = some t → ms[k]? = some o → t.msgId = (linkOf o).msgId ∧ t.reply = (linkOf o).reply

theorem idsOf_map (ms : List (Option JamMsg)) : IdsOf ms (ms.map linkOf) where
  len := List.length_map _
  ids := fun k t o h1 h2 => by
    rw [List.getElem?_map, h2] at h1
    cases h1
    exact ⟨rfl, rfl⟩

theorem Hooks.idsOf {base : UInt32} {R : Nat → Nat → Prop} {ms : List (Option JamMsg)} {T : List JamLink} (h : Hooks base R (ms.map linkOf) T) : IdsOf ms T where
  len := by rw [h.len, List.length_map]
  ids := fun k t o h1 h2 => h.ids (by rw [List.getElem?_map, h2]; rfl) h1

theorem crc_lt (x : UInt32) : x.toUInt64 ≠ 0xffffffffffffffff := fun e => by
  have := congrArg UInt64.toNat e
  have h := x.toNat_lt
  rw [UInt32.toNat_toUInt64] at this
  rw [this] at h
  revert h
  decide

theorem crc_inj {x y : UInt32} : x.toUInt64 = y.toUInt64 ↔ x = y := by
  constructor
  · intro e
    have := congrArg UInt64.toNat e
    rw [UInt32.toNat_toUInt64, UInt32.toNat_toUInt64] at this
    exact UInt32.toNat_inj.1 this
  · rintro rfl; rfl

theorem zero_inj {x : UInt32} : x.toUInt64 = 0 ↔ x = 0 := crc_inj (y := 0)

theorem isReply_spec {b : JamBase} {start : UInt32} {ms : List (Option JamMsg)} (h : JamHolds b start ms) {T : List JamLink} (hT : IdsOf ms T) (quick : Bool) {i j : Nat}
    (hi : i < ms.length) (hj : j < ms.length) (hn : ¬(ms[i]? = some none ∧ ms[j]? = some none)) :
    ∃ v, jamIsReply quick b T i j = .ok v ∧ (v = true ↔ AnswersAt quick ms i j) := by
  have hTi : T[i]? = some (T[i]'(hT.len ▸ hi)) := List.getElem?_eq_getElem _
  have hTj : T[j]? = some (T[j]'(hT.len ▸ hj)) := List.getElem?_eq_getElem _
  generalize T[i]'(hT.len ▸ hi) = t at hTi
  generalize T[j]'(hT.len ▸ hj) = u at hTj
  have hmi : ms[i]? = some (ms[i]'hi) := List.getElem?_eq_getElem _
  have hmj : ms[j]? = some (ms[j]'hj) := List.getElem?_eq_getElem _
  generalize ms[i]'hi = o at hmi
  generalize ms[j]'hj = q at hmj
  have e1 := (hT.ids i t o hTi hmi).1
  have e2 := (hT.ids j u q hTj hmj).2
  have r1 := jam_readHdr h (UInt32.ofNat i)
  have r2 := jam_readHdr h (UInt32.ofNat j)
  rw [ofNat_few (h.few hmi), hmi] at r1
  rw [ofNat_few (h.few hmj), hmj] at r2
  unfold jamIsReply
  simp only [hTi, hTj, e1, e2]
  match o, q, hmi, hmj with
  | none, none, hmi, hmj => exact absurd ⟨hmi, hmj⟩ hn
  | none, some y, hmi, hmj =>
    refine ⟨false, if_pos (fun e => crc_lt _ e.symm), ⟨fun h => (by cases h), ?_⟩⟩
    rintro ⟨x, _, hx, _⟩
    rw [hmi] at hx; cases hx
  | some x, none, hmi, hmj =>
    refine ⟨false, if_pos (fun e => crc_lt _ e), ⟨fun h => (by cases h), ?_⟩⟩
    rintro ⟨_, y, _, hy, _⟩
    rw [hmj] at hy; cases hy
  | some x, some y, hmi, hmj =>
    have hA : AnswersAt quick ms i j ↔ Answers quick x y := by
      constructor
      · rintro ⟨x', y', hx, hy, ha⟩
        rw [hmi] at hx; rw [hmj] at hy; cases hx; cases hy; exact ha
      · exact fun ha => ⟨x, y, hmi, hmj, ha⟩
    rw [hA]
    by_cases hc : x.hdr.msgIdCrc = y.hdr.replyCrc
    rotate_left
    · exact ⟨false, if_pos (fun e => hc (crc_inj.1 e)), ⟨fun h => (by cases h), fun h => absurd h.1 hc⟩⟩
    rw [if_neg (fun h => h (crc_inj.2 hc))]
    cases quick
    rotate_left
    · exact ⟨true, rfl, ⟨fun _ => ⟨hc, .inl rfl⟩, fun _ => rfl⟩⟩
    rw [if_neg (by simp), r1, r2]
    dsimp only [bind, Except.bind, pure, Except.pure]
    match hf : y.subs.find? (·.loId == 5), hg : x.subs.find? (·.loId == 4) with
    | some f, some g =>
      simp only [hf, hg]
      refine ⟨_, rfl, ?_⟩
      rw [decide_eq_true_iff]
      constructor
      · exact fun hh => ⟨hc, .inr ⟨f, g, hf, hg, hh⟩⟩
      · rintro ⟨_, hq | ⟨f', g', hf', hg', hh⟩⟩
        · cases hq
        · rw [hf] at hf'; rw [hg] at hg'; cases hf'; cases hg'; exact hh
    | none, o =>
      simp only [hf]
      refine ⟨false, rfl, ⟨fun h => (by cases h), ?_⟩⟩
      rintro ⟨_, hq | ⟨f', g', hf', _⟩⟩
      · cases hq
      · rw [hf] at hf'; cases hf'
    | some _, none =>
      simp only [hf, hg]
      refine ⟨false, rfl, ⟨fun h => (by cases h), ?_⟩⟩
      rintro ⟨_, hq | ⟨f', g', _, hg', _⟩⟩
      · cases hq
      · rw [hg] at hg'; cases hg'

section
variable {b : JamBase} {start : UInt32} {ms : List (Option JamMsg)} (h : JamHolds b start ms) (quick : Bool)
include h

theorem jamTry_spec (hb : start.toNat + ms.length ≤ 2 ^ 32) (h0 : start ≠ 0) {T : List JamLink} (hT : Hooks start (AnswersAt quick ms) (ms.map linkOf) T) {i j : Nat}
    (hi : i < ms.length) (hj : j < ms.length) (hn : ¬(ms[i]? = some none ∧ ms[j]? = some none)) :
    ∃ T', jamTry quick b start T i j = .ok T' ∧ Hooks start (AnswersAt quick ms) (ms.map linkOf) T' ∧ Hooks start (AnswersAt quick ms) T T' ∧
      (AnswersAt quick ms i j → ∀ t : JamLink, T'[j]? = some t → t.to ≠ 0) := by
  obtain ⟨v, e, hv⟩ := isReply_spec h hT.idsOf quick hi hj hn
  unfold jamTry
  rw [e]
  cases v
  · exact ⟨T, rfl, hT, .refl, fun ha => by have := hv.2 ha; cases this⟩
  · have ha := hv.1 rfl
    refine ⟨_, rfl, .step _ _ hT ha, .step _ _ .refl ha, fun _ t ht => ?_⟩
    rcases (setReply_hooked T start i j).set t ht with e | e
    · exact e
    · exact absurd e (numOf_ne hb h0 hi)

theorem jamFold_spec (hb : start.toNat + ms.length ≤ 2 ^ 32) (h0 : start ≠ 0) (f : Nat → Nat × Nat) : ∀ (ds : List Nat) {T : List JamLink}
    (_ : Hooks start (AnswersAt quick ms) (ms.map linkOf) T)
    (_ : ∀ d ∈ ds, (f d).1 < ms.length ∧ (f d).2 < ms.length ∧ ¬(ms[(f d).1]? = some none ∧ ms[(f d).2]? = some none)),
    ∃ T', ds.foldlM (fun T d => jamTry quick b start T (f d).1 (f d).2) T = .ok T' ∧ Hooks start (AnswersAt quick ms) (ms.map linkOf) T' ∧
      Hooks start (AnswersAt quick ms) T T' ∧
      ∀ d ∈ ds, AnswersAt quick ms (f d).1 (f d).2 → ∀ t : JamLink, T'[(f d).2]? = some t → t.to ≠ 0
  | [], T, hT, _ => ⟨T, rfl, hT, .refl, fun d hd => by cases hd⟩
  | d :: ds, T, hT, hd => by
    obtain ⟨h1, h2, h3⟩ := hd d (by simp)
    obtain ⟨T1, e1, g1, k1, s1⟩ := jamTry_spec h quick hb h0 hT h1 h2 h3
    obtain ⟨T2, e2, g2, k2, s2⟩ := jamFold_spec hb h0 f ds g1 fun d hm => hd d (by simp [hm])
    refine ⟨T2, by rw [List.foldlM_cons, e1]; exact e2, g2, k1.trans k2, fun x hx ha t ht => ?_⟩
    rcases List.mem_cons.1 hx with rfl | hx
    · obtain ⟨t1, ht1⟩ := get_of_len k2.len.symm ht
      rw [k2.kept ht1 ht (s1 ha t1 ht1)]
      exact s1 ha t1 ht1
    · exact s2 x hx ha t ht

theorem jamLinkOne_spec (hb : start.toNat + ms.length ≤ 2 ^ 32) (h0 : start ≠ 0) {T : List JamLink} (hT : Hooks start (AnswersAt quick ms) (ms.map linkOf) T) {c : Nat}
    (hc : c < ms.length) :
    ∃ T', jamLinkOne quick b start ms.length T c = .ok T' ∧ Hooks start (AnswersAt quick ms) (ms.map linkOf) T' ∧ Hooks start (AnswersAt quick ms) T T' ∧
      ∀ d, (AnswersAt quick ms d c → ∀ t : JamLink, T'[c]? = some t → t.to ≠ 0) ∧ (AnswersAt quick ms c d → ∀ t : JamLink, T'[d]? = some t → t.to ≠ 0) := by
  have hmc : ms[c]? = some (ms[c]'hc) := List.getElem?_eq_getElem _
  generalize ms[c]'hc = o at hmc
  have look : ∀ {T : List JamLink}, Hooks start (AnswersAt quick ms) (ms.map linkOf) T →
      ((T[c]?.any fun x => jamHasCrc x.reply) = o.isSome) ∧ (T[c]?.any fun x => jamHasCrc x.msgId) = o.isSome := fun {T} hT => by
    have hl := hT.idsOf
    have hTc : T[c]? = some (T[c]'(hl.len ▸ hc)) := List.getElem?_eq_getElem _
    generalize T[c]'(hl.len ▸ hc) = t at hTc
    obtain ⟨e1, e2⟩ := hl.ids c t o hTc hmc
    rw [hTc]
    simp only [Option.any_some, e1, e2]
    match o with
    | none => exact ⟨rfl, rfl⟩
    | some x => exact ⟨bne_iff_ne.2 (crc_lt _), bne_iff_ne.2 (crc_lt _)⟩
  match o, hmc with
  | none, hmc =>
    refine ⟨T, ?_, hT, .refl, fun d => ⟨?_, ?_⟩⟩
    · unfold jamLinkOne
      rw [(look hT).1]
      show (Except.ok T >>= _) = _
      dsimp only [bind, Except.bind]
      rw [(look hT).2]
      rfl
    · rintro ⟨_, y, _, hy, _⟩; rw [hmc] at hy; cases hy
    · rintro ⟨y, _, hy, _, _⟩; rw [hmc] at hy; cases hy
  | some x, hmc =>
    have hne : ¬ms[c]? = some none := by rw [hmc]; simp
    obtain ⟨T1, e1, g1, k1, s1⟩ := jamFold_spec h quick hb h0 (fun d => (d, c)) (List.range ms.length) hT fun d hd => ⟨List.mem_range.1 hd, hc, fun e => hne e.2⟩
    obtain ⟨T2, e2, g2, k2, s2⟩ := jamFold_spec h quick hb h0 (fun d => (c, d)) (List.range ms.length) g1 fun d hd => ⟨hc, List.mem_range.1 hd, fun e => hne e.1⟩
    refine ⟨T2, ?_, g2, k1.trans k2, fun d => ⟨fun ha t ht => ?_, fun ha => ?_⟩⟩
    · unfold jamLinkOne
      rw [(look hT).1]
      simp only [Option.isSome_some, if_true]
      simp only at e1 e2
      rw [e1]
      dsimp only [bind, Except.bind]
      rw [(look g1).2]
      simp only [Option.isSome_some, if_true]
      exact e2
    · obtain ⟨_, _, hd, _⟩ := id ha
      obtain ⟨t1, ht1⟩ := get_of_len k2.len.symm ht
      have := s1 d (List.mem_range.2 (List.getElem?_eq_some_iff.1 hd).1) ha t1 ht1
      rw [k2.kept ht1 ht this]
      exact this
    · obtain ⟨_, _, _, hd, _⟩ := id ha
      exact s2 d (List.mem_range.2 (List.getElem?_eq_some_iff.1 hd).1) ha

theorem jamLinkFold_spec (hb : start.toNat + ms.length ≤ 2 ^ 32) (h0 : start ≠ 0) : ∀ (cs : List Nat) {T : List JamLink}
    (_ : Hooks start (AnswersAt quick ms) (ms.map linkOf) T) (_ : ∀ c ∈ cs, c < ms.length),
    ∃ T', cs.foldlM (jamLinkOne quick b start ms.length) T = .ok T' ∧ Hooks start (AnswersAt quick ms) (ms.map linkOf) T' ∧ Hooks start (AnswersAt quick ms) T T' ∧
      ∀ c ∈ cs, ∀ d, (AnswersAt quick ms d c → ∀ t : JamLink, T'[c]? = some t → t.to ≠ 0) ∧ (AnswersAt quick ms c d → ∀ t : JamLink, T'[d]? = some t → t.to ≠ 0)
  | [], T, hT, _ => ⟨T, rfl, hT, .refl, fun d hd => by cases hd⟩
  | c :: cs, T, hT, hd => by
    obtain ⟨T1, e1, g1, k1, s1⟩ := jamLinkOne_spec h quick hb h0 hT (hd c (by simp))
    obtain ⟨T2, e2, g2, k2, s2⟩ := jamLinkFold_spec hb h0 cs g1 fun d hm => hd d (by simp [hm])
    have keep : ∀ {j : Nat}, (∀ t : JamLink, T1[j]? = some t → t.to ≠ 0) → ∀ t : JamLink, T2[j]? = some t → t.to ≠ 0 := fun {j} hj t ht => by
      obtain ⟨t1, ht1⟩ := get_of_len k2.len.symm ht
      rw [k2.kept ht1 ht (hj t1 ht1)]
      exact hj t1 ht1
    refine ⟨T2, by rw [List.foldlM_cons, e1]; exact e2, g2, k1.trans k2, fun x hx d => ?_⟩
    rcases List.mem_cons.1 hx with rfl | hx
    · exact ⟨fun ha => keep ((s1 d).1 ha), fun ha => keep ((s1 d).2 ha)⟩
    · exact s2 x hx d

theorem jamLinks_spec (hb : start.toNat + ms.length ≤ 2 ^ 32) (h0 : start ≠ 0) (new : Nat) :
    ∃ T, jamLinks quick b start new ms.length = .ok (ms.map linkOf, T) ∧ Hooks start (AnswersAt quick ms) (ms.map linkOf) T ∧
      ∀ p k, AnswersAt quick ms p k → new ≤ p ∨ new ≤ k → ∀ t : JamLink, T[k]? = some t → t.to ≠ 0 := by
  obtain ⟨T, e, g, _, s⟩ := jamLinkFold_spec h quick hb h0 ((List.range ms.length).drop new) .refl fun c hc => List.mem_range.1 (List.mem_of_mem_drop hc)
  refine ⟨T, ?_, g, fun p k ha hn => ?_⟩
  · unfold jamLinks
    rw [jamTable h]
    simp only [e]
    rfl
  · have mem : ∀ c, c < ms.length → new ≤ c → c ∈ (List.range ms.length).drop new := fun c h1 h2 => by
      rw [List.mem_iff_getElem?]
      refine ⟨c - new, ?_⟩
      rw [List.getElem?_drop, show new + (c - new) = c by omega, List.getElem?_range h1]
    obtain ⟨_, _, hp, hk, _⟩ := id ha
    rcases hn with hn | hn
    · exact (s p (mem p (List.getElem?_eq_some_iff.1 hp).1 hn) k).2 ha
    · exact (s k (mem k (List.getElem?_eq_some_iff.1 hk).1 hn) p).1 ha

end

/-! ## Writing the links -/

theorem JamHolds.relock {b : JamBase} {start : UInt32} {ms : List (Option JamMsg)} (h : JamHolds b start ms) (l : Bool) : JamHolds { b with locked := l } start ms := by
  obtain ⟨off, h⟩ := h
  exact ⟨off, h.base, h.len, h.few, h.gone, fun i m hm => ⟨(h.there i m hm).1, by
    have g := (h.there i m hm).2
    exact ⟨g.lo, g.hi, g.small, g.hdr, g.subs, g.subLen, g.subMax, g.txtLen, g.text⟩⟩, h.apart⟩

/-- The message with other links. -/
def relink (y : JamLink) (m : JamMsg) : JamMsg :=
  { m with hdr := { m.hdr with replyTo := y.to.toUInt32, reply1st := y.first.toUInt32, replyNext := y.next.toUInt32 } }

theorem relink_same {y : JamLink} {m : JamMsg} (h1 : (linkOf (some m)).to = y.to) (h2 : (linkOf (some m)).first = y.first) (h3 : (linkOf (some m)).next = y.next) :
    relink y m = m := by
  simp only [linkOf] at h1 h2 h3
  unfold relink
  rw [← h1, ← h2, ← h3]
  simp only [UInt32.toUInt32_toUInt64]

/-- What writing leaves alone. -/
structure SameW (i : Nat) (w w' : JamW) : Prop where
  base : ∀ j, j ≠ i → w'.base j = w.base j
  hw : w'.hwFile = w.hwFile
  recs : w'.recs = w.recs
  order : w'.order = w.order

theorem SameW.refl (i : Nat) (w : JamW) : SameW i w w := ⟨fun _ _ => rfl, rfl, rfl, rfl⟩

theorem SameW.trans {i : Nat} {a b c : JamW} (h1 : SameW i a b) (h2 : SameW i b c) : SameW i a c :=
  ⟨fun j hj => (h2.base j hj).trans (h1.base j hj), h2.hw.trans h1.hw, h2.recs.trans h1.recs, h2.order.trans h1.order⟩

theorem setBase_same (i : Nat) (w : JamW) (b : JamBase) : SameW i w (w.setBase i b) := ⟨fun _ hj => if_neg hj, rfl, rfl, rfl⟩

theorem setBase_self (i : Nat) (w : JamW) (b : JamBase) : (w.setBase i b).base i = some b := if_pos rfl

theorem jamLockW_ok {r : JamRun} (hr : ∀ t, r.lock t = true) {w : JamW} {i : Nat} {b : JamBase} (hb : w.base i = some b) :
    ∃ w', jamLockW r w i = (true, w') ∧ w'.base i = some { b with locked := true } ∧ SameW i w w' := by
  unfold jamLockW
  rw [hb]
  by_cases hl : b.locked = true
  · refine ⟨w, by simp only [hl, if_true], ?_, .refl i w⟩
    rw [hb]
    cases b
    simp only at hl
    rw [hl]
  · refine ⟨(w.setBase i { b with locked := true }).step, by simp only [hl, hr, Bool.false_eq_true, if_false, if_true], setBase_self i w _, ?_⟩
    exact ⟨fun _ hj => if_neg hj, rfl, rfl, rfl⟩

theorem jamUnlockW_ok {w : JamW} {i : Nat} {b : JamBase} (hb : w.base i = some b) :
    (jamUnlockW w i).base i = some { b with locked := false } ∧ SameW i w (jamUnlockW w i) := by
  unfold jamUnlockW
  rw [hb]
  exact ⟨setBase_self i w _, setBase_same i w _⟩

theorem linkWrite_spec {r : JamRun} (hr : ∀ t, r.lock t = true) {start : UInt32} {ms : List (Option JamMsg)} {i : Nat} {new : List JamLink} (hnew : new.length = ms.length) :
    ∀ (cs : List Nat) {w : JamW} {b : JamBase} {cur : List (Option JamMsg)}, cs.Nodup → w.base i = some b → JamHolds b start cur → cur.length = ms.length →
      (∀ c ∈ cs, c < ms.length ∧ cur[c]? = ms[c]?) →
      ∃ w' b' fin, jamLinkWrite r i (ms.map linkOf) new cs w = (true, w') ∧ w'.base i = some b' ∧ JamHolds b' start fin ∧ fin.length = ms.length ∧
        (∀ k ∈ cs, ∀ y o, new[k]? = some y → ms[k]? = some o → fin[k]? = some (o.map (relink y))) ∧ (∀ k, k ∉ cs → fin[k]? = cur[k]?) ∧ SameW i w w'
  | [], w, b, cur, _, hw, hh, hl, _ => ⟨w, b, cur, rfl, hw, hh, hl, fun k hk => (by cases hk), fun _ _ => rfl, .refl i w⟩
  | c :: cs, w, b, cur, hnd, hw, hh, hl, hc => by
    obtain ⟨hcs, hnd⟩ := List.nodup_cons.1 hnd
    obtain ⟨hcl, hcm⟩ := hc c (by simp)
    have hmc : ms[c]? = some (ms[c]'hcl) := List.getElem?_eq_getElem _
    generalize ms[c]'hcl = o at hmc
    rw [hmc] at hcm
    have hyc : new[c]? = some (new[c]'(hnew ▸ hcl)) := List.getElem?_eq_getElem _
    generalize new[c]'(hnew ▸ hcl) = y at hyc
    have hold : (ms.map linkOf)[c]? = some (linkOf o) := by rw [List.getElem?_map, hmc]; rfl
    -- going on from a state where `c` has been dealt with
    have go : ∀ {w1 : JamW} {b1 : JamBase} {cur1 : List (Option JamMsg)}, w1.base i = some b1 → JamHolds b1 start cur1 → cur1.length = ms.length →
        (∀ k, k ≠ c → cur1[k]? = cur[k]?) → cur1[c]? = some (o.map (relink y)) → SameW i w w1 →
        ∃ w' b' fin, jamLinkWrite r i (ms.map linkOf) new cs w1 = (true, w') ∧ w'.base i = some b' ∧ JamHolds b' start fin ∧ fin.length = ms.length ∧
          (∀ k ∈ c :: cs, ∀ y o, new[k]? = some y → ms[k]? = some o → fin[k]? = some (o.map (relink y))) ∧ (∀ k, k ∉ c :: cs → fin[k]? = cur[k]?) ∧ SameW i w w' :=
      fun {w1 b1 cur1} g1 g2 g3 g4 g5 g6 => by
        obtain ⟨w', b', fin, f1, f2, f3, f4, f5, f6, f7⟩ := linkWrite_spec hr hnew cs hnd g1 g2 g3 fun k hk => by
          have hne : k ≠ c := fun e => hcs (e ▸ hk)
          rw [g4 k hne]
          exact hc k (by simp [hk])
        refine ⟨w', b', fin, f1, f2, f3, f4, fun k hk y' o' hy' ho' => ?_, fun k hk => ?_, g6.trans f7⟩
        · rcases List.mem_cons.1 hk with rfl | hk
          · rw [f6 k hcs, g5]
            rw [hyc] at hy'; rw [hmc] at ho'; cases hy'; cases ho'; rfl
          · exact f5 k hk y' o' hy' ho'
        · rw [f6 k (fun h => hk (by simp [h])), g4 k (fun e => hk (by simp [e]))]
    rw [jamLinkWrite]
    simp only [hold, hyc]
    by_cases hch : (linkOf o).to ≠ y.to ∨ (linkOf o).first ≠ y.first ∨ (linkOf o).next ≠ y.next
    · rw [if_pos hch]
      obtain ⟨w1, l1, l2, l3⟩ := jamLockW_ok hr hw
      rw [l1]
      simp only [Bool.not_true, Bool.false_eq_true, if_false, l2]
      have hh1 := hh.relock true
      rw [jam_head hh1, ofNat_few (hh.few hcm), hcm]
      cases o with
      | none => exact go l2 hh1 hl (fun _ _ => rfl) hcm l3
      | some m =>
        have hcm' : cur[(UInt32.ofNat c).toNat]? = some (some m) := by rw [ofNat_few (hh.few hcm)]; exact hcm
        obtain ⟨b2, c1, c2, _⟩ := jam_change r.e hh1 rfl (UInt32.ofNat c) hcm' (relink y m).hdr rfl rfl rfl (fun h => h)
        rw [ofNat_few (hh.few hcm)] at c2
        have c1' : jamChange r.e { b with locked := true } (UInt32.ofNat c)
            { m.hdr with replyTo := y.to.toUInt32, reply1st := y.first.toUInt32, replyNext := y.next.toUInt32 } = .ok b2 := c1
        simp only [c1']
        obtain ⟨u1, u2⟩ := jamUnlockW_ok (setBase_self i w1 b2)
        refine go u1 (c2.relock false) (by rw [List.length_set]; exact hl) (fun k hk => List.getElem?_set_ne (fun e => hk e.symm)) ?_
          ((l3.trans (setBase_same i w1 b2)).trans u2)
        rw [List.getElem?_set_self (List.getElem?_eq_some_iff.1 hcm).1]
        rfl
    · rw [if_neg hch]
      have hs : (linkOf o).to = y.to ∧ (linkOf o).first = y.first ∧ (linkOf o).next = y.next := by
        refine ⟨Decidable.byContradiction fun h => hch (.inl h), Decidable.byContradiction fun h => hch (.inr (.inl h)), Decidable.byContradiction fun h => hch (.inr (.inr h))⟩
      refine go hw hh hl (fun _ _ => rfl) ?_ (.refl i w)
      rw [hcm]
      match o, hs with
      | none, _ => rfl
      | some m, hs => rw [Option.map_some, relink_same hs.1 hs.2.1 hs.2.2]

/-! ## From the table to the messages -/

theorem numOf_eq {base : UInt32} {p : Nat} {x : UInt32} : x.toUInt64 = numOf base p ↔ x = base + UInt32.ofNat p := by
  unfold numOf
  rw [crc_inj, UInt32.add_comm]

theorem numOf_32 (base : UInt32) (p : Nat) : (numOf base p).toUInt32.toUInt64 = numOf base p := by
  unfold numOf
  rw [UInt32.toUInt32_toUInt64]

section
variable {quick : Bool} {start : UInt32} {ms fin : List (Option JamMsg)} {T : List JamLink}
  (hb : start.toNat + ms.length ≤ 2 ^ 32) (h0 : start ≠ 0) (hT : Hooks start (AnswersAt quick ms) (ms.map linkOf) T)
include hb h0 hT

theorem links_relinks : Relinks start (AnswersAt quick ms) (ms.map linkOf) T :=
  hT.relinks (by rw [List.length_map]; exact hb) h0 fun p k ha => by
    obtain ⟨_, _, hp, hk, _⟩ := ha
    rw [List.length_map]
    exact ⟨(List.getElem?_eq_some_iff.1 hp).1, (List.getElem?_eq_some_iff.1 hk).1⟩

/-- The table after linking shows the links of the messages that are written. -/
theorem links_fin {k : Nat} {x : JamMsg} {y : JamLink} (hx : ms[k]? = some (some x)) (hy : T[k]? = some y) : linkOf (some (relink y x)) = y := by
  have R := links_relinks hb h0 hT
  have hm : (ms.map linkOf)[k]? = some (linkOf (some x)) := by rw [List.getElem?_map, hx]; rfl
  have e1 := R.ids k _ _ hm hy
  have e2 : y.to.toUInt32.toUInt64 = y.to := by
    rcases R.to k _ _ hm hy with e | ⟨_, p, _, e⟩
    · rw [e]; exact congrArg UInt32.toUInt64 (UInt32.toUInt32_toUInt64 _)
    · rw [e, numOf_32]
  have e3 : y.first.toUInt32.toUInt64 = y.first := by
    rcases R.first k _ _ hm hy with e | ⟨_, p, _, _, _, e, _⟩
    · rw [e]; exact congrArg UInt32.toUInt64 (UInt32.toUInt32_toUInt64 _)
    · rw [e, numOf_32]
  have e4 : y.next.toUInt32.toUInt64 = y.next := by
    rcases R.next k _ _ hm hy with e | ⟨_, p, q, _, _, _, e, _⟩
    · rw [e]; exact congrArg UInt32.toUInt64 (UInt32.toUInt32_toUInt64 _)
    · rw [e, numOf_32]
  simp only [linkOf, relink, e2, e3, e4]
  cases y
  simp only [linkOf] at e1
  simp only [JamLink.mk.injEq, e1.1, e1.2, and_self]

theorem links_gone {k : Nat} {y : JamLink} (hx : ms[k]? = some none) (hy : T[k]? = some y) : y.to = 0 := by
  have R := links_relinks hb h0 hT
  rcases R.to k _ _ (by rw [List.getElem?_map, hx]; rfl) hy with e | ⟨_, p, ⟨_, _, _, ha, _⟩, _⟩
  · exact e
  · rw [hx] at ha; cases ha

variable (hf : ∀ (k : Nat) (y : JamLink) (o : Option JamMsg), T[k]? = some y → ms[k]? = some o → fin[k]? = some (o.map (relink y))) (hl : fin.length = ms.length)
include hf hl

theorem fin_get {k : Nat} {x' : JamMsg} (hx' : fin[k]? = some (some x')) :
    ∃ x y, ms[k]? = some (some x) ∧ T[k]? = some y ∧ x' = relink y x ∧ linkOf (some x') = y := by
  obtain ⟨o, ho⟩ := get_of_len hl.symm hx'
  obtain ⟨y, hy⟩ := get_of_len (hT.idsOf).len ho
  have e := hf k y o hy ho
  rw [hx'] at e
  match o, ho, e with
  | some x, ho, e =>
    cases e
    exact ⟨x, y, ho, hy, rfl, links_fin hb h0 hT ho hy⟩

theorem fin_to {p k : Nat} : RepliesTo start fin p k ↔ p < ms.length ∧ (∃ y : JamLink, T[k]? = some y ∧ y.to = numOf start p) ∨ (¬p < ms.length ∧ RepliesTo start fin p k) := by
  by_cases hp : p < ms.length
  · simp only [hp, true_and, not_true, false_and, or_false]
    constructor
    · rintro ⟨x', hx', e⟩
      obtain ⟨x, y, _, hy, _, e2⟩ := fin_get hb h0 hT hf hl hx'
      refine ⟨y, hy, ?_⟩
      rw [← e2]
      exact numOf_eq.2 e
    · rintro ⟨y, hy, e⟩
      obtain ⟨o, ho⟩ := get_of_len (hT.idsOf).len.symm hy
      match o, ho with
      | none, ho =>
        rw [links_gone hb h0 hT ho hy] at e
        exact absurd e.symm (numOf_ne hb h0 hp)
      | some x, ho =>
        refine ⟨relink y x, hf k y _ hy ho, numOf_eq.1 ?_⟩
        rw [← e]
        exact congrArg JamLink.to (links_fin hb h0 hT ho hy)
  · simp only [hp, false_and, not_false_eq_true, true_and, false_or]

omit hb h0 hT hf hl in
theorem chain_of {start : UInt32} {ms : List (Option JamMsg)} : ∀ {ks : List Nat} {link : UInt32}, ReplyChain start ms link ks → ChainOf start (ms.map linkOf) link.toUInt64 ks
  | [], link, h => by show link.toUInt64 = 0; rw [show link = 0 from h]; rfl
  | k :: ks, link, ⟨e, y, hy, h⟩ => ⟨numOf_eq.2 e, linkOf (some y), by rw [List.getElem?_map, hy]; rfl, chain_of h⟩

omit hl in
theorem of_chain : ∀ {ks : List Nat} {link : UInt32}, ChainOf start T link.toUInt64 ks → (∀ k ∈ ks, ∃ x, ms[k]? = some (some x)) → ReplyChain start fin link ks
  | [], link, h, _ => zero_inj.1 h
  | k :: ks, link, ⟨e, y, hy, h⟩, hk => by
    obtain ⟨x, hx⟩ := hk k (by simp)
    have ey := links_fin hb h0 hT hx hy
    refine ⟨numOf_eq.1 e, relink y x, hf k y _ hy hx, of_chain (link := (relink y x).hdr.replyNext) ?_ fun j hj => hk j (by simp [hj])⟩
    rw [show (relink y x).hdr.replyNext.toUInt64 = y.next from congrArg JamLink.next ey]
    exact h

theorem links_threads (h31 : ms.length ≤ 2 ^ 31) (ht : Threaded start ms)
    (hk : ∀ p (ks : List Nat), ks.Nodup → (∀ k ∈ ks, RepliesTo start fin p k) → ks.length ≤ 1001) : Threaded start fin := by
  classical
  have hP : ∀ p, ∃ ks : List Nat, (∃ x, ms[p]? = some (some x)) → ks.Nodup ∧
      (∀ x, ms[p]? = some (some x) → ReplyChain start ms x.hdr.reply1st ks) ∧ ∀ k, k ∈ ks ↔ RepliesTo start ms p k := fun p => by
    by_cases hp : ∃ x, ms[p]? = some (some x)
    · obtain ⟨x, hx⟩ := hp
      obtain ⟨ks, h1, h2, h3⟩ := ht.thread p x hx
      exact ⟨ks, fun _ => ⟨h1, fun x' hx' => by rw [hx] at hx'; cases hx'; exact h2, h3⟩⟩
    · exact ⟨[], fun h => absurd h hp⟩
  have hkids : ∃ kids : Nat → List Nat, ∀ p, (∃ x, ms[p]? = some (some x)) → (kids p).Nodup ∧
      (∀ x, ms[p]? = some (some x) → ReplyChain start ms x.hdr.reply1st (kids p)) ∧ ∀ k, k ∈ kids p ↔ RepliesTo start ms p k :=
    ⟨fun p => Classical.choose (hP p), fun p => Classical.choose_spec (hP p)⟩
  obtain ⟨kids, hkids⟩ := hkids
  have T0 : Threads start (fun p => ∃ x, ms[p]? = some (some x)) (ms.map linkOf) kids := by
    refine ⟨fun p t hp ht' => ?_, fun p k hp hlt => ?_, fun p hp _ => (hkids p hp).1, fun k t ht' e => ?_⟩
    · obtain ⟨x, hx⟩ := hp
      rw [List.getElem?_map, hx] at ht'
      cases ht'
      exact chain_of ((hkids p ⟨x, hx⟩).2.1 x hx)
    · rw [(hkids p hp).2.2 k]
      rw [List.length_map] at hlt
      constructor
      · rintro ⟨y, hy, e⟩
        exact ⟨linkOf (some y), by rw [List.getElem?_map, hy]; rfl, numOf_eq.2 e⟩
      · rintro ⟨t, ht', e⟩
        rw [List.getElem?_map] at ht'
        match hm : ms[k]? with
        | none => rw [hm] at ht'; cases ht'
        | some none =>
          rw [hm] at ht'; cases ht'
          exact absurd (show (0 : UInt64) = _ from e).symm (numOf_ne hb h0 hlt)
        | some (some y) => rw [hm] at ht'; cases ht'; exact ⟨y, hm, numOf_eq.1 e⟩
    · rw [List.getElem?_map] at ht'
      match hm : ms[k]? with
      | none => rw [hm] at ht'; cases ht'
      | some none => rw [hm] at ht'; cases ht'; rfl
      | some (some y) =>
        rw [hm] at ht'; cases ht'
        show y.hdr.replyNext.toUInt64 = 0
        rw [ht.free k y hm (zero_inj.1 e)]
        rfl
  obtain ⟨kids', T1⟩ := hT.threads (by rw [List.length_map]; exact hb) (by rw [List.length_map]; exact h31) h0 (fun p k ha => by
    obtain ⟨x, _, hp, hk, _⟩ := ha
    rw [List.length_map]
    exact ⟨(List.getElem?_eq_some_iff.1 hp).1, (List.getElem?_eq_some_iff.1 hk).1, x, hp⟩) T0 (fun p _ hp ks hn hks => hk p ks hn fun k hkm =>
      (fin_to hb h0 hT hf hl).2 (.inl ⟨by rw [List.length_map] at hp; exact hp, hks k hkm⟩))
  have hTl : T.length = ms.length := (hT.idsOf).len
  refine ⟨fun p x' hx' => ?_, fun k x' hx' e => ?_⟩
  · obtain ⟨x, y, hx, hy, e1, e2⟩ := fin_get hb h0 hT hf hl hx'
    have hp : p < ms.length := (List.getElem?_eq_some_iff.1 hx).1
    have hm := fun k => T1.mem p k ⟨x, hx⟩ (hTl ▸ hp)
    refine ⟨kids' p, T1.nodup p ⟨x, hx⟩ (hTl ▸ hp), of_chain hb h0 hT hf ?_ fun k hkm => ?_, fun k => ?_⟩
    · have := T1.chain p y ⟨x, hx⟩ hy
      rw [← e2] at this
      exact this
    · obtain ⟨z, hz, ez⟩ := (hm k).1 hkm
      obtain ⟨o, ho⟩ := get_of_len hTl.symm hz
      match o, ho with
      | none, ho =>
        rw [links_gone hb h0 hT ho hz] at ez
        exact absurd ez.symm (numOf_ne hb h0 hp)
      | some x, ho => exact ⟨x, ho⟩
    · rw [hm k, fin_to hb h0 hT hf hl]
      simp only [hp, true_and, not_true, false_and, or_false]
  · obtain ⟨x, y, hx, hy, e1, e2⟩ := fin_get hb h0 hT hf hl hx'
    have h1 : y.to = 0 := by
      rw [← e2]
      show x'.hdr.replyTo.toUInt64 = 0
      rw [e]; rfl
    have h2 := T1.free k y hy h1
    rw [← e2] at h2
    exact zero_inj.1 h2

theorem links_done {new : Nat} (h31 : ms.length ≤ 2 ^ 31)
    (hall : ∀ p k, AnswersAt quick ms p k → new ≤ p ∨ new ≤ k → ∀ t : JamLink, T[k]? = some t → t.to ≠ 0) : LinksDone quick start new ms fin := by
  have R := links_relinks hb h0 hT
  have hTl : T.length = ms.length := (hT.idsOf).len
  -- a message that has been hooked
  have hook : ∀ {p k : Nat} {y y' : JamLink}, AnswersAt quick ms p k → (ms.map linkOf)[k]? = some y → T[k]? = some y' → y.to = 0 → y'.to = numOf start p →
      ¬RepliesTo start ms p k ∧ RepliesTo start fin p k := fun {p k y y'} ha hy hy' e1 e2 => by
    obtain ⟨_, z, hp, hk, _⟩ := ha
    have hp := (List.getElem?_eq_some_iff.1 hp).1
    refine ⟨?_, (fin_to hb h0 hT hf hl).2 (.inl ⟨hp, y', hy', e2⟩)⟩
    rintro ⟨z', hz', e⟩
    rw [List.getElem?_map, hz'] at hy
    cases hy
    exact numOf_ne hb h0 hp ((numOf_eq.2 e).symm.trans e1)
  refine ⟨⟨hl, fun k hk => ?_, fun k x hx => ?_⟩, fun k x x' hx hx' => ?_, fun k x x' hx hx' => ?_, fun k x x' hx hx' => ?_, fun p k ha hn => ?_, fun ht hk => ?_⟩
  · obtain ⟨y, hy⟩ := get_of_len hTl hk
    exact hf k y none hy hk
  · obtain ⟨y, hy⟩ := get_of_len hTl hx
    exact ⟨relink y x, hf k y _ hy hx, rfl⟩
  · obtain ⟨z, y, hz, hy, e1, e2⟩ := fin_get hb h0 hT hf hl hx'
    rw [hx] at hz; cases hz
    rcases R.to k _ _ (by rw [List.getElem?_map, hx]; rfl) hy with e | ⟨e, p, ha, e'⟩
    · rw [← e2] at e
      exact .inl (crc_inj.1 e)
    · rw [← e2] at e'
      exact .inr ⟨zero_inj.1 e, p, ha, numOf_eq.1 e'⟩
  · obtain ⟨z, y, hz, hy, e1, e2⟩ := fin_get hb h0 hT hf hl hx'
    rw [hx] at hz; cases hz
    rcases R.first k _ _ (by rw [List.getElem?_map, hx]; rfl) hy with e | ⟨e, d, t, t', ha, e', g1, g2, g3, g4⟩
    · rw [← e2] at e
      exact .inl (crc_inj.1 e)
    · rw [← e2] at e'
      obtain ⟨q1, q2⟩ := hook ha g1 g2 g3 g4
      exact .inr ⟨zero_inj.1 e, d, ha, q1, q2, numOf_eq.1 e'⟩
  · obtain ⟨z, y, hz, hy, e1, e2⟩ := fin_get hb h0 hT hf hl hx'
    rw [hx] at hz; cases hz
    rcases R.next k _ _ (by rw [List.getElem?_map, hx]; rfl) hy with e | ⟨e, p, d, t, t', ha, e', g1, g2, g3, g4⟩
    · rw [← e2] at e
      exact .inl (crc_inj.1 e)
    · rw [← e2] at e'
      obtain ⟨q1, q2⟩ := hook ha g1 g2 g3 g4
      exact .inr ⟨zero_inj.1 e, p, d, ha, q1, q2, numOf_eq.1 e'⟩
  · obtain ⟨_, z, _, hk, _⟩ := id ha
    obtain ⟨y, hy⟩ := get_of_len hTl hk
    refine ⟨relink y z, hf k y _ hy hk, fun e => hall p k ha hn y hy ?_⟩
    rw [← links_fin hb h0 hT hk hy]
    show (relink y z).hdr.replyTo.toUInt64 = 0
    rw [e]; rfl
  · exact links_threads hb h0 hT hf hl h31 ht hk

end

end CM
