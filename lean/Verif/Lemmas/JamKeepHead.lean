import Verif.Lemmas.JamKeep
import Verif.Lemmas.MsgBase
/-! # Lemmas: header, attributes and text of a message in a JAM area -/

set_option linter.unusedSimpArgs false

namespace CM

/-! ## The header -/

theorem fieldStr_ok {n : Nat} {s : Str} (h0 : NoNul s) (hl : s.length + 1 ≤ n) : fieldStr n s = .ok s := by
  unfold fieldStr; rw [if_pos hl, cstr_all s h0]

theorem subjFiles_one (s : Str) (h : ∀ c ∈ s, c ≠ 32 ∧ c ≠ 44) (hne : s ≠ []) (hl : s.length ≤ 80) : subjFiles s.length s = [s] := by
  cases s with
  | nil => exact absurd rfl hne
  | cons a s =>
    have hw : ((a :: s).takeWhile fun c => c != 32 && c != 44).take 80 = a :: s := by
      have : (a :: s).takeWhile (fun c => c != 32 && c != 44) = a :: s := by
        have := List.takeWhile_append_of_pos (p := fun c : UInt8 => c != 32 && c != 44) (l₁ := a :: s) (l₂ := []) (by
          intro c hc; obtain ⟨h1, h2⟩ := h c hc; simp [h1, h2])
        simpa using this
      rw [this, List.take_of_length_le hl]
    rw [List.length_cons, subjFiles]
    simp only [hw]
    rw [if_neg (by simp)]
    simp only [List.drop_length, List.dropWhile_nil]
    cases s.length <;> rfl
    simp

theorem skip_field (id : UInt16) (hid : id = 11) : ∀ (fs : List Str) (y : JamReading), (fs.map (jamField id)).foldlM jamSubfield y = .ok y
  | [], _ => rfl
  | f :: fs, y => by
    subst hid
    rw [List.map_cons, List.foldlM_cons]
    have : jamSubfield y (jamField 11 f) = .ok y := rfl
    rw [this]
    exact skip_field 11 rfl fs y

theorem parse5D_print (n : Node4D) : parse5D (print4D n) = some n ∧ NoNul (print4D n) ∧ (print4D n).length ≤ 23 := by
  have hl := print4D_length n
  have hc := print4D_chars n
  have hx : ∀ c : UInt8, AddrChar c → c ≠ 64 ∧ c ≠ 0 := by
    intro c h
    rcases h with rfl | rfl | rfl | ⟨h1, h2⟩
    · decide
    · decide
    · decide
    · constructor
      · rintro rfl; revert h2; decide
      · rintro rfl; revert h1; decide
  refine ⟨?_, fun e => (hx 0 (hc 0 e)).2 rfl, hl⟩
  unfold parse5D mystrncpy
  rw [List.take_of_length_le (by omega)]
  have : (print4D n).takeWhile (· != 64) = print4D n := by
    have := List.takeWhile_append_of_pos (p := fun c : UInt8 => c != 64) (l₁ := print4D n) (l₂ := []) (by
      intro c h; simp [(hx c (hc c h)).1])
    simpa using this
  rw [this]; exact parse4D_print4D n

/-- What is known when the subfields of the header have been read. -/
def jamHeadRead (num : UInt32) (m : MemMsg) (buf : Option Str) : JamReading :=
  { buf := buf, file := if m.attr &&& 16 ≠ 0 then m.subject else [], hasAddr := decide (m.area = []),
    mm := { msgnum := num, area := m.area, frm := m.frm, to := m.to, subject := m.subject, orig := if m.area = [] then m.orig else m.origin4D, dest := if m.area = [] then m.dest else ⟨0, 0, 0, 0⟩ } }

theorem jamHeadRead_ok (num : UInt32) (m : MemMsg) (h : JamHeadOk m) :
    ∃ b, (jamHeadFields m).foldlM jamSubfield { mm := { msgnum := num, area := m.area } } = .ok (jamHeadRead num m (some b)) := by
  obtain ⟨⟨f0, fl⟩, ⟨t0, tl⟩, ⟨s0, sl⟩, hfile⟩ := h
  have cpy : ∀ (s : Str) (n : Nat), s.length ≤ n → mystrncpy s (n + 1) = s := by
    intro s n hs; unfold mystrncpy; rw [Nat.add_sub_cancel, List.take_of_length_le hs]
  -- From
  have h1 : ∃ b, ((if m.frm ≠ [] then [jamField 2 m.frm] else []) : List JamSub).foldlM jamSubfield { mm := { msgnum := num, area := m.area } } =
      .ok { buf := b, mm := { msgnum := num, area := m.area, frm := m.frm } } := by
    by_cases e : m.frm = []
    · refine ⟨none, ?_⟩
      rw [if_neg (by simp [e]), e]; rfl
    · refine ⟨some m.frm, ?_⟩
      rw [if_pos e]
      have hf : fieldStr 200 m.frm = .ok m.frm := fieldStr_ok f0 (by omega)
      simp only [List.foldlM_cons, List.foldlM_nil, jamSubfield, jamField, hf]
      simp [bind, Except.bind, pure, Except.pure, hf, cpy _ 35 fl]
  obtain ⟨b1, h1⟩ := h1
  have h2 : ∃ b, ((if m.to ≠ [] then [jamField 3 m.to] else []) : List JamSub).foldlM jamSubfield { buf := b1, mm := { msgnum := num, area := m.area, frm := m.frm } } =
      .ok { buf := b, mm := { msgnum := num, area := m.area, frm := m.frm, to := m.to } } := by
    by_cases e : m.to = []
    · refine ⟨b1, ?_⟩
      rw [if_neg (by simp [e]), e]; rfl
    · refine ⟨some m.to, ?_⟩
      rw [if_pos e]
      have hf : fieldStr 200 m.to = .ok m.to := fieldStr_ok t0 (by omega)
      simp [jamSubfield, jamField, bind, Except.bind, pure, Except.pure, hf, cpy _ 35 tl]
  obtain ⟨b2, h2⟩ := h2
  have h3 : ∃ b, ((if m.subject ≠ [] then [jamField 6 m.subject] else []) : List JamSub).foldlM jamSubfield { buf := b2, mm := { msgnum := num, area := m.area, frm := m.frm, to := m.to } } =
      .ok { buf := b, mm := { msgnum := num, area := m.area, frm := m.frm, to := m.to, subject := m.subject } } := by
    by_cases e : m.subject = []
    · refine ⟨b2, ?_⟩
      rw [if_neg (by simp [e]), e]; rfl
    · refine ⟨some m.subject, ?_⟩
      rw [if_pos e]
      have hf : fieldStr 200 m.subject = .ok m.subject := fieldStr_ok s0 (by omega)
      simp [jamSubfield, jamField, bind, Except.bind, pure, Except.pure, hf, cpy _ 71 sl]
  obtain ⟨b3, h3⟩ := h3
  have h4 : ∃ b, (if m.area = [] then [jamField 0 (print4D m.orig), jamField 1 (print4D m.dest)] else [jamField 0 (print4D m.origin4D)] : List JamSub).foldlM jamSubfield
      { buf := b3, mm := { msgnum := num, area := m.area, frm := m.frm, to := m.to, subject := m.subject } } =
      .ok { buf := some b, hasAddr := decide (m.area = []), mm := { msgnum := num, area := m.area, frm := m.frm, to := m.to, subject := m.subject, orig := if m.area = [] then m.orig else m.origin4D, dest := if m.area = [] then m.dest else ⟨0, 0, 0, 0⟩ } } := by
    have hp : ∀ n : Node4D, fieldStr 200 (print4D n) = .ok (print4D n) := fun n =>
      fieldStr_ok (parse5D_print n).2.1 (by have := (parse5D_print n).2.2; omega)
    by_cases e : m.area = []
    · refine ⟨print4D m.dest, ?_⟩
      simp [e, jamSubfield, jamField, bind, Except.bind, pure, Except.pure, hp, (parse5D_print _).1]
    · refine ⟨print4D m.origin4D, ?_⟩
      simp [e, jamSubfield, jamField, bind, Except.bind, pure, Except.pure, hp, (parse5D_print _).1]
  obtain ⟨b4, h4⟩ := h4
  have h5 : (if m.attr &&& 16 ≠ 0 then (subjFiles m.subject.length m.subject).map (jamField 9) else [] : List JamSub).foldlM jamSubfield
      { buf := some b4, hasAddr := decide (m.area = []), mm := { msgnum := num, area := m.area, frm := m.frm, to := m.to, subject := m.subject, orig := if m.area = [] then m.orig else m.origin4D, dest := if m.area = [] then m.dest else ⟨0, 0, 0, 0⟩ } } = .ok (jamHeadRead num m (some b4)) := by
    by_cases e : m.attr &&& 16 ≠ 0
    · obtain ⟨hne, hc⟩ := hfile e
      have hf : fieldStr 200 m.subject = .ok m.subject := fieldStr_ok s0 (by omega)
      rw [if_pos e, subjFiles_one _ hc hne (by omega)]
      simp [jamHeadRead, e, jamSubfield, jamField, bind, Except.bind, pure, Except.pure, hf]
    · rw [if_neg e]
      simp only [jamHeadRead, if_neg e]
      rfl
  refine ⟨b4, ?_⟩
  unfold jamHeadFields
  simp only [foldlM_append, h1, h2, h3, h4, h5, bind, Except.bind]
  split
  · exact skip_field 11 rfl _ _
  · rfl

/-! ## Attributes -/

theorem u16_bitVec (a : UInt16) (i : Nat) (hi : i < 16) (m : UInt16) (hm : m.toBitVec = BitVec.twoPow 16 i) : a &&& m ≠ 0 ↔ a.toBitVec.getLsbD i = true := by
  rw [Ne, ← UInt16.toBitVec_inj, UInt16.toBitVec_and, hm, BitVec.and_twoPow]
  have h0 : BitVec.twoPow 16 i ≠ 0#16 := by
    intro h
    have := congrArg (fun x => BitVec.getLsbD x i) h
    simp [BitVec.getLsbD_twoPow, hi] at this
  cases h : a.toBitVec.getLsbD i with
  | false => simp
  | true => simpa using h0

theorem u16_bits {a b : UInt16} (h : ∀ m : UInt16, m ∈ [1, 2, 4, 8, 16, 32, 64, 128, 256, 512, 1024, 2048, 4096, 8192, 16384, 32768] → (a &&& m ≠ 0 ↔ b &&& m ≠ 0)) : a = b := by
  apply UInt16.toBitVec_inj.1
  apply BitVec.eq_of_getLsbD_eq
  intro i hi
  have all : ∀ i : Fin 16, ∃ m ∈ ([1, 2, 4, 8, 16, 32, 64, 128, 256, 512, 1024, 2048, 4096, 8192, 16384, 32768] : List UInt16), m.toBitVec = BitVec.twoPow 16 i.val := by decide +kernel
  obtain ⟨m, hm, e⟩ := all ⟨i, hi⟩
  have := h m hm
  rw [u16_bitVec a i hi m e, u16_bitVec b i hi m e] at this
  exact Bool.eq_iff_iff.2 this

theorem or_and32 (a b c : UInt32) : (a ||| b) &&& c ≠ 0 ↔ a &&& c ≠ 0 ∨ b &&& c ≠ 0 := by
  have e : (a ||| b) &&& c = (a &&& c) ||| (b &&& c) := by
    apply UInt32.toBitVec_inj.1
    simp only [UInt32.toBitVec_and, UInt32.toBitVec_or, BitVec.and_or_distrib_right]
  rw [e, Ne, UInt32.or_eq_zero_iff]
  constructor
  · intro h
    by_cases h1 : a &&& c = 0
    · exact .inr fun h2 => h ⟨h1, h2⟩
    · exact .inl h1
  · rintro (h | h) ⟨h1, h2⟩
    · exact h h1
    · exact h h2

theorem attrIn_fold (at_ : UInt16) (bit : UInt32) : ∀ (fs : List (Str × UInt32 × UInt16)) (a : UInt32),
    (fs.foldl (fun a f => if at_ &&& f.2.2 ≠ 0 then a ||| f.2.1 else a) a) &&& bit ≠ 0 ↔ a &&& bit ≠ 0 ∨ ∃ f ∈ fs, at_ &&& f.2.2 ≠ 0 ∧ f.2.1 &&& bit ≠ 0
  | [], a => by simp
  | f :: fs, a => by
    rw [List.foldl_cons, attrIn_fold at_ bit fs]
    have step : (if at_ &&& f.2.2 ≠ 0 then a ||| f.2.1 else a) &&& bit ≠ 0 ↔ a &&& bit ≠ 0 ∨ (at_ &&& f.2.2 ≠ 0 ∧ f.2.1 &&& bit ≠ 0) := by
      by_cases h : at_ &&& f.2.2 ≠ 0
      · rw [if_pos h, or_and32]; simp [h]
      · rw [if_neg h]; simp [h]
    rw [step]
    simp only [List.mem_cons, exists_eq_or_imp, or_assoc]

def jamFlagTable2 : List (Str × UInt32 × UInt16) := jamFlagTable ++ [([], 0x2000, 16), ([], 0x1000, 2048)]

/-- The attributes that are stored are exactly those of the message that the table knows. -/
theorem jamAttrOf_bit (m : MemMsg) : ∀ f ∈ jamFlagTable, jamAttrOf m &&& f.2.1 ≠ 0 ↔ m.attr &&& f.2.2 ≠ 0 := by
  have hb : ∀ bit : UInt32, bit &&& 0x03000000 = 0 → (jamAttrOf m &&& bit ≠ 0 ↔ ∃ f ∈ jamFlagTable2, m.attr &&& f.2.2 ≠ 0 ∧ f.2.1 &&& bit ≠ 0) := by
    intro bit hbit
    have e : jamAttrOf m = ((jamFlagTable2).foldl (fun a f => if m.attr &&& f.2.2 ≠ 0 then a ||| f.2.1 else a) 0) ||| (if m.area = [] then 0x02000000 else 0x01000000) := by
      rw [jamFlagTable2, List.foldl_append]; rfl
    have hz : ¬ (if m.area = [] then 0x02000000 else 0x01000000 : UInt32) &&& bit ≠ 0 := by
      have h1 : (0x02000000 : UInt32) &&& bit = 0 := by
        have : (0x02000000 : UInt32) &&& bit = 0x02000000 &&& (bit &&& 0x03000000) := by
          rw [UInt32.and_comm bit, ← UInt32.and_assoc]; rfl
        rw [this, hbit]; rfl
      have h2 : (0x01000000 : UInt32) &&& bit = 0 := by
        have : (0x01000000 : UInt32) &&& bit = 0x01000000 &&& (bit &&& 0x03000000) := by
          rw [UInt32.and_comm bit, ← UInt32.and_assoc]; rfl
        rw [this, hbit]; rfl
      split
      · rw [h1]; simp
      · rw [h2]; simp
    rw [e, or_and32, attrIn_fold]
    simp only [UInt32.zero_and, ne_eq, not_true_eq_false, false_or]
    constructor
    · rintro (h | h)
      · exact h
      · exact absurd h hz
    · exact .inl
  intro f hf
  have hd : ∀ f ∈ jamFlagTable, f.2.1 &&& 0x03000000 = 0 := by decide
  have hu : ∀ f ∈ jamFlagTable, ∀ g ∈ jamFlagTable2, g.2.1 &&& f.2.1 ≠ 0 → g.2.2 = f.2.2 := by decide
  have hs : ∀ f ∈ jamFlagTable, f.2.1 &&& f.2.1 ≠ 0 := by decide
  rw [hb f.2.1 (hd f hf)]
  constructor
  · rintro ⟨g, hg, h1, h2⟩
    rw [← hu f hf g hg h2]; exact h1
  · intro h
    exact ⟨f, List.mem_append_left _ hf, h, hs f hf⟩

theorem flagOut_text (attr : UInt32) : ∀ (fs : List (Str × UInt32 × UInt16)) (a : UInt16), (∀ f ∈ fs, attr &&& f.2.1 ≠ 0 → f.2.2 ≠ 0) → (fs.foldl (jamFlagOut attr) (a, [])).2 = []
  | [], _, _ => rfl
  | f :: fs, a, h => by
    rw [List.foldl_cons]
    have : ∃ a', jamFlagOut attr (a, []) f = (a', []) := by
      unfold jamFlagOut
      by_cases h1 : attr &&& f.2.1 ≠ 0
      · rw [if_pos h1, if_pos (h f (by simp) h1)]; exact ⟨_, rfl⟩
      · rw [if_neg h1]; exact ⟨_, rfl⟩
    obtain ⟨a', e⟩ := this
    rw [e]
    exact flagOut_text attr fs a' fun g hg => h g (by simp [hg])

/-- Written and read again, the attributes that are kept are as they were, and no FLAGS line arises. -/
theorem jamAttr_back (m : MemMsg) (a0 : UInt16) (h0 : a0 = 0 ∨ a0 = 16 ∧ m.attr &&& 16 ≠ 0) :
    ((jamFlagTable.foldl (jamFlagOut (jamAttrOf m)) (a0, [])).1 &&& jamKeptFlags) = m.attr &&& jamAttrs ∧
      (jamFlagTable.foldl (jamFlagOut (jamAttrOf m)) (a0, [])).2 = [] := by
  constructor
  · apply u16_bits
    intro b hb
    have hk : ∀ x : UInt16, x &&& jamKeptFlags &&& b = x &&& (jamKeptFlags &&& b) := fun x => UInt16.and_assoc ..
    have ha : m.attr &&& jamAttrs &&& b = m.attr &&& (jamAttrs &&& b) := UInt16.and_assoc ..
    rw [hk, ha, flagOut_fold]
    have e1 : a0 &&& (jamKeptFlags &&& b) ≠ 0 ∨ (∃ f ∈ jamFlagTable, jamAttrOf m &&& f.2.1 ≠ 0 ∧ f.2.2 &&& (jamKeptFlags &&& b) ≠ 0) ↔
        a0 &&& (jamKeptFlags &&& b) ≠ 0 ∨ (∃ f ∈ jamFlagTable, m.attr &&& f.2.2 ≠ 0 ∧ f.2.2 &&& (jamKeptFlags &&& b) ≠ 0) := by
      constructor
      · rintro (h | ⟨f, hf, h1, h2⟩)
        · exact .inl h
        · exact .inr ⟨f, hf, (jamAttrOf_bit m f hf).1 h1, h2⟩
      · rintro (h | ⟨f, hf, h1, h2⟩)
        · exact .inl h
        · exact .inr ⟨f, hf, (jamAttrOf_bit m f hf).2 h1, h2⟩
    rw [e1]
    have fwd : ∀ b ∈ ([1, 2, 4, 8, 16, 32, 64, 128, 256, 512, 1024, 2048, 4096, 8192, 16384, 32768] : List UInt16), ∀ f ∈ jamFlagTable, f.2.2 &&& (jamKeptFlags &&& b) ≠ 0 → jamAttrs &&& b = f.2.2 := by decide +kernel
    have fwd16 : ∀ b ∈ ([1, 2, 4, 8, 16, 32, 64, 128, 256, 512, 1024, 2048, 4096, 8192, 16384, 32768] : List UInt16), 16 &&& (jamKeptFlags &&& b) ≠ 0 → jamAttrs &&& b = 16 := by decide +kernel
    have bwd : ∀ b ∈ ([1, 2, 4, 8, 16, 32, 64, 128, 256, 512, 1024, 2048, 4096, 8192, 16384, 32768] : List UInt16), jamAttrs &&& b = 0 ∨ ∃ f ∈ jamFlagTable, f.2.2 = jamAttrs &&& b ∧ f.2.2 &&& (jamKeptFlags &&& b) ≠ 0 := by decide +kernel
    constructor
    · rintro (h | ⟨f, hf, h1, h2⟩)
      · rcases h0 with rfl | ⟨rfl, h16⟩
        · simp at h
        · rw [fwd16 b hb h]; exact h16
      · rw [fwd b hb f hf h2]; exact h1
    · intro h
      rcases bwd b hb with e | ⟨f, hf, h1, h2⟩
      · rw [e] at h; simp at h
      · rw [← h1] at h
        exact .inr ⟨f, hf, h, h2⟩
  · apply flagOut_text
    intro f hf h e
    have := (jamAttrOf_bit m f hf).1 h
    rw [e] at this
    simp at this

/-! ## The lines that are added -/

/-- Adding the line changes only the text, and what MSGID, REPLY and RESCANNED set. -/
def LineQuiet (area : Str) (orig dest : Node4D) (l : Str) : Prop :=
  ∀ m : MemMsg, m.area = area → m.orig = orig → m.dest = dest → TextOK m.text →
    ∃ f i r tx, addLineJ m l = .ok (m.withText f i r tx) ∧ TextOK tx ∧ tx.flatten = m.text.flatten ++ l

theorem lineQuiet_fold {area : Str} {orig dest : Node4D} : ∀ (ls : List Str), (∀ l ∈ ls, LineQuiet area orig dest l) → ∀ m : MemMsg, m.area = area → m.orig = orig → m.dest = dest → TextOK m.text →
    ∃ f i r tx, ls.foldlM addLineJ m = .ok (m.withText f i r tx) ∧ TextOK tx ∧ tx.flatten = m.text.flatten ++ ls.flatten
  | [], _, m, _, _, _, ht => ⟨m.flags, m.msgid, m.reply, m.text, rfl, ht, by simp⟩
  | l :: ls, h, m, h1, h2, h3, ht => by
    obtain ⟨f, i, r, tx, e1, e2, e3⟩ := h l (by simp) m h1 h2 h3 ht
    obtain ⟨f', i', r', tx', e4, e5, e6⟩ := lineQuiet_fold ls (fun l hl => h l (by simp [hl])) (m.withText f i r tx) h1 h2 h3 e2
    refine ⟨f', i', r', tx', ?_, e5, ?_⟩
    · rw [List.foldlM_cons, e1]; exact e4
    · rw [e6]
      show tx.flatten ++ _ = _
      rw [e3]; simp

theorem lineQuiet_control {area : Str} {orig dest : Node4D} {l : Str} (h1 : ∃ v, l = 1 :: v) (hA : ¬ AddressLine l) (hlen : l.length ≤ 201)
    (h8 : (1 :: b!"MSGID:") <+: l ∨ (1 :: b!"REPLY:") <+: l → 8 ≤ l.length) (hp : ¬ (1 :: b!"PATH:") <+: l) : LineQuiet area orig dest l :=
  fun _ _ _ _ ht => addLineJ_control h1 hA hlen h8 (fun _ => hp) ht

theorem lineQuiet_address {orig dest : Node4D} {l : Str} (h1 : l.head? = some 1) (hlen : l.length ≤ 201)
    (hk : ∀ m : MemMsg, m.area = [] → m.orig = orig → m.dest = dest → processKludge m l = .ok m) : LineQuiet [] orig dest l := by
  intro m ha ho hd ht
  have hk := hk m ha ho hd
  obtain ⟨tx, e1, e2, e3⟩ := addText_ok m l ht (by unfold chunkLen; omega)
  refine ⟨m.flags, m.msgid, m.reply, tx, ?_, e2, e3⟩
  unfold addLineJ
  rw [mmAddLine_kludge m l m ha h1 hk, e1]
  rfl

theorem newLines_quiet (o : JamOpt) (netmail rescan : Bool) (aka orig dest : Node4D) (area : Str) (hn : netmail = true → area = []) :
    ∀ l ∈ jamNewLines o netmail rescan aka orig dest, LineQuiet area orig dest l := by
  intro l hl
  unfold jamNewLines at hl
  rcases List.mem_append.1 hl with hl | hl
  · by_cases hnet : netmail = true
    · rw [if_pos hnet] at hl
      rw [hn hnet]
      rcases List.mem_append.1 hl with hl | hl
      · rcases List.mem_append.1 hl with hl | hl
        · split at hl
          · rw [List.mem_singleton] at hl
            subst hl
            refine lineQuiet_address (by simp) ?_ ?_
            · have h1 := addr3_length dest
              have h2 := addr3_length orig
              unfold addr3 at h1 h2
              simp at h1 h2 ⊢
              omega
            · intro m ha ho hd
              have := kludge_intl m orig dest ha
              unfold addr3 at this
              rw [this]
              congr 1
              cases m
              simp only at ho hd
              subst ho hd
              rfl
          · cases hl
        · split at hl
          · rw [List.mem_singleton] at hl
            subst hl
            refine lineQuiet_address (by simp) ?_ ?_
            · have := dec5 orig.point
              simp; omega
            · intro m ha ho hd
              rw [kludge_fmpt m orig.point ha]
              congr 1
              cases m
              simp only at ho hd
              subst ho hd
              rfl
          · cases hl
      · split at hl
        · rw [List.mem_singleton] at hl
          subst hl
          refine lineQuiet_address (by simp) ?_ ?_
          · have := dec5 dest.point
            simp; omega
          · intro m ha ho hd
            rw [kludge_topt m dest.point ha]
            congr 1
            cases m
            simp only at ho hd
            subst ho hd
            rfl
        · cases hl
    · rw [if_neg hnet] at hl; cases hl
  · split at hl
    · rw [List.mem_singleton] at hl
      subst hl
      refine lineQuiet_control ⟨_, rfl⟩ ?_ ?_ ?_ ?_
      · unfold AddressLine; simp
      · have h1 := addr3_length aka
        have h2 := dec5 aka.point
        unfold addr3 at h1
        simp at h1 ⊢
        omega
      · simp
      · simp
    · split at hl
      · rw [List.mem_singleton] at hl
        subst hl
        refine lineQuiet_control ⟨_, rfl⟩ ?_ ?_ ?_ ?_
        · unfold AddressLine; simp [tidLine]
        · simp [tidLine]
        · simp [tidLine]
        · simp [tidLine]
      · cases hl

theorem jamOwnLines_eq (o : JamOpt) (a : Area) (aka : Node4D) (rescan : Bool) (m : MemMsg) :
    jamOwnLines o a aka rescan m = jamNewLines o (decide (a.type = .netmail)) rescan aka m.orig m.dest := by
  unfold jamOwnLines jamNewLines
  cases rescan <;> by_cases h : a.type = .netmail <;> simp [h]

/-! ## The text -/

theorem origins_ok : ∀ (ls : List Str) (n : Node4D), (∀ l ∈ ls, b!" * Origin: " <+: l → ∃ x, extractAddress (mystrncpy l (min l.length 200)) = .ok x) →
    ∃ n', ls.foldlM jamOrigin n = .ok n'
  | [], n, _ => ⟨n, rfl⟩
  | l :: ls, n, h => by
    have : ∃ n', jamOrigin n l = .ok n' := by
      unfold jamOrigin
      split
      · rename_i hc
        obtain ⟨x, hx⟩ := h l (by simp) ((startsWith_iff _ _).1 hc.2)
        rw [hx]
        cases x with
        | none => exact ⟨n, rfl⟩
        | some a => exact ⟨a, rfl⟩
      · exact ⟨n, rfl⟩
    obtain ⟨n', e⟩ := this
    obtain ⟨n'', e2⟩ := origins_ok ls n' fun l hl => h l (by simp [hl])
    exact ⟨n'', by rw [List.foldlM_cons, e]; exact e2⟩

theorem jamTextOut_ok {m : MemMsg} {ls : List Str} (h : ∀ l ∈ ls, JamLineOk (m.area ≠ []) l) (hl : ls.flatten.length < 2 ^ 31) (ht : TextOK m.text) :
    ∃ og tx, jamTextOut m ls.flatten = .ok { m with origin4D := og, text := tx } ∧ tx.flatten = m.text.flatten ++ ls.flatten := by
  unfold jamTextOut
  by_cases he : ls.flatten = []
  · exact ⟨m.origin4D, m.text, by rw [if_pos he], by rw [he]; simp⟩
  · rw [if_neg he]
    have h0 : NoNul ls.flatten := by
      intro hm
      obtain ⟨l, hl, hm⟩ := List.mem_flatten.1 hm
      obtain ⟨t, ht, -, -, h0⟩ := (h l hl).ends
      rw [ht] at hm
      rcases List.mem_append.1 hm with hm | hm
      · exact h0 hm
      · revert hm; decide
    have hor : ∃ og, (if m.area ≠ [] then (crLines (cstr ls.flatten)).foldlM jamOrigin m.origin4D else .ok m.origin4D : Except JErr Node4D) = .ok og := by
      by_cases ha : m.area ≠ []
      · rw [if_pos ha, cstr_all _ h0, crLines_lines ls fun l hl => by obtain ⟨t, ht, h13, -⟩ := (h l hl).ends; exact ⟨t, ht, h13⟩]
        exact origins_ok ls m.origin4D fun l hl => (h l hl).origin ha
      · rw [if_neg ha]; exact ⟨_, rfl⟩
    obtain ⟨og, hog⟩ := hor
    obtain ⟨tx, e1, e2, -⟩ := mmAddBuf_appends m.text ls.flatten ht (by unfold chunkLen; omega)
    refine ⟨og, tx, ?_, e2⟩
    rw [hog]
    show ((liftJ (mmAddBuf m.text ls.flatten)) >>= _) = _
    rw [e1]
    rfl

end CM
