import Verif.Lemmas.JamBase
/-! # JAM message bases hold what was put into them -/

set_option linter.unusedSimpArgs false

namespace CM

/-- Every message of a base is read back as it is, and for a number without a message that is reported. -/
theorem jam_get {b : JamBase} {start : UInt32} {ms : List (Option JamMsg)} (h : JamHolds b start ms) (n : UInt32) :
    jamGet b n = .ok (match ms[n.toNat]? with
      | some (some m) => .ok m
      | some none => .error .noMessage
      | none => .error .io) := by
  obtain ⟨off, h⟩ := h
  match hm : ms[n.toNat]? with
  | none => rw [jamGet, jamReadHdr, h.readNone hm]; rfl
  | some none =>
    obtain ⟨i, h1, h2⟩ := h.readGone hm
    rw [jamGet, jamReadHdr, h1]
    simp only [h2, if_true]
    rfl
  | some (some m) =>
    obtain ⟨i, h1, h2, h3⟩ := h.readIdx hm
    obtain ⟨_, hat⟩ := h.there _ _ hm
    have hhi := hat.hi
    simp only [JamMsg.size] at hhi
    have hsm := hat.subMax
    have hsl := hat.subLen
    have hr : jamReadHdr b n = .ok (.ok (m.hdr, m.subs)) := by
      rw [jamReadHdr, h1]
      simp only [h2, h3, hat.readHdr.1, hat.readHdr.2, Bool.false_eq_true, if_false]
      by_cases hz : m.hdr.subLen = 0
      · rw [if_pos hz]
        have h0 : subBytes m.subs = 0 := by rw [← hsl, hz]; rfl
        have : m.subs = [] := by
          match hs : m.subs with
          | [] => rfl
          | s :: t => rw [hs] at h0; simp only [subBytes, List.map_cons, List.sum_cons] at h0; omega
        rw [this]
      · rw [if_neg hz, if_neg (by rw [UInt32.le_iff_toNat_le]; show ¬ 2 ^ 31 ≤ _; omega), hsl, freadAt_ok (by omega)]
        have hp := jamParse_layout hat.subs (by rw [hat.subs.length]; omega)
        simp only [hp]
        rfl
    have ht : jamReadText b m.hdr.txtOffset m.hdr.txtLen = .ok m.text := by
      rw [jamReadText]
      have htl := hat.txtLen
      by_cases hz : m.hdr.txtLen = 0
      · rw [if_pos hz]
        rw [hz] at htl
        rw [List.eq_nil_of_length_eq_zero htl.symm]
      · rw [if_neg hz]
        rcases hat.text with e | ⟨e1, e2⟩
        · rw [e] at htl
          exact absurd (UInt32.toNat_inj.1 htl) hz
        · rw [htl, freadAt_ok e1, e2]
    rw [jamGet, hr]
    show (match jamReadText b m.hdr.txtOffset m.hdr.txtLen with
      | .error r => Except.ok (Except.error r)
      | .ok text => Except.ok (Except.ok (JamMsg.mk m.hdr m.subs text))) = _
    rw [ht]

/-- The number of messages in the header of the base is the number of messages that are there and
not marked as deleted, and the size of the base is the number of slots. -/
theorem jam_count {b : JamBase} {start : UInt32} {ms : List (Option JamMsg)} (h : JamHolds b start ms) :
    ∃ H, jamReadBase b = .ok H ∧ H.active.toNat = jamActive ms ∧ H.baseNum = start ∧ (jamSize b).toNat = ms.length := by
  obtain ⟨off, h⟩ := h
  obtain ⟨H, h1, h2, h3, _⟩ := h.readBase
  refine ⟨H, h1, h3, h2, ?_⟩
  rw [jamSize, h.len, Nat.mul_div_cancel_left _ (by omega), UInt32.toNat_ofNat']
  exact Nat.mod_eq_of_lt h.few

/-- A new base is empty. -/
theorem jam_create (e : JamEnv) (now start : UInt32) : ∃ b, jamCreate e now start = .ok b ∧ JamHolds b start [] := by
  have hB := JamBaseHdr.layout_bytes (e.junk 1024) (e.size _)
    { sig := jamSig, created := now, modCounter := 0 + 1, active := 0, pwCrc := 0xffffffff, baseNum := start, reserved := List.replicate 1000 0 }
    List.length_replicate
  refine ⟨_, rfl, fun _ => 0, ⟨{ sig := jamSig, created := now, modCounter := 0 + 1, active := 0, pwCrc := 0xffffffff, baseNum := start, reserved := List.replicate 1000 0 }, ?_, rfl, rfl⟩, rfl, by decide, fun i hi => by simp at hi, fun i m hi => by simp at hi, fun i j m m' _ hi => by simp at hi⟩
  · simp only [overlay, List.take_nil, List.drop_nil, List.nil_append, List.append_nil]
    rw [List.take_of_length_le (by rw [hB.size]; omega)]
    exact hB

theorem jam_crc_ok (e : JamEnv) (subs : List JamSub) (h : CanIndex e subs) : ∃ crc, jamUserCrc e subs = .ok crc := by
  cases hs : e.signedChar with
  | true =>
    have hu := jamUser_none subs fun s hm h3 => by
      obtain ⟨a, c⟩ := h s hm h3
      rw [c hs]; exact ⟨by simp, rfl⟩
    exact ⟨0xffffffff, by rw [jamUserCrc, hu]⟩
  | false =>
    obtain ⟨u, hu⟩ := jamUser_ok subs [] fun s hm h3 => (h s hm h3).1
    obtain ⟨x, hx⟩ := jamCrc32_unsigned u 0xffffffff
    rw [jamUserCrc, hu, hs]
    match u with
    | [] => exact ⟨_, rfl⟩
    | c :: t => exact ⟨x, hx⟩

/-- Adding a message: it is the last message of the base, and the others are as they were. -/
theorem jam_add (e : JamEnv) {b : JamBase} {start : UInt32} {ms : List (Option JamMsg)} (h : JamHolds b start ms) (hb : b.locked = true)
    (hd : JamHdr) (subs : List JamSub) (text : Data) (hi : CanIndex e subs) (hs : subBytes subs < 2 ^ 31)
    (h1 : b.hdr.length + 76 + subBytes subs < 2 ^ 32) (h2 : b.txt.length + text.length < 2 ^ 32) (h3 : ms.length + 1 < 2 ^ 32) :
    ∃ b' m, jamAdd e b hd subs text = .ok (.ok (b', m.hdr)) ∧ AddedMsg start ms.length hd subs text m ∧
      JamHolds b' start (ms ++ [some m]) ∧ b'.locked = true ∧ b'.hdr.length = b.hdr.length + 76 + subBytes subs ∧
      b'.txt.length = b.txt.length + text.length := by
  obtain ⟨off, h⟩ := h
  obtain ⟨H, hH, hst, hact, hres, hlen⟩ := h.readBase
  obtain ⟨crc, hc⟩ := jam_crc_ok e subs hi
  have hidx := h.len
  let nh : JamHdr := jamNewHdr b H hd subs text
  let ix : JamIdx := { userCrc := crc, hdrOffset := UInt32.ofNat b.hdr.length }
  let m : JamMsg := { hdr := nh, subs, text }
  let b1 : JamBase := { b with
    txt := b.txt ++ text, hdr := b.hdr ++ nh.bytes (e.junk 76) ++ subs.flatMap (JamSub.bytes (e.junk 16)), idx := b.idx ++ ix.bytes (e.junk 8) }
  have hN := JamHdr.layout_bytes (e.junk 76) (e.size _) nh
  have hS := SubsLayout.bytes (e.junk 16) (e.size _) subs fun s hm => by have := subBytes_mem hm; omega
  have hX := JamIdx.layout_bytes (e.junk 8) (e.size _) ix
  have hb1 : b1.hdr.length = b.hdr.length + 76 + subBytes subs := by
    show (b.hdr ++ nh.bytes (e.junk 76) ++ subs.flatMap (JamSub.bytes (e.junk 16))).length = _
    rw [List.length_append, List.length_append, hN.size, hS.length]
  obtain ⟨b', hw, w1, w2, w3, w4, w5, w6, w7⟩ := jamWriteBase_ok e (b := b1) hb
    { H with active := if jamDeleted nh.attr then H.active else H.active + 1 } hres (by omega)
  have hso : (UInt32.ofNat b.hdr.length).toNat = b.hdr.length := by simp only [UInt32.toNat_ofNat']; omega
  have hsl : nh.subLen.toNat = subBytes subs := by
    show (jamSubSize subs).toNat = _
    rw [jamSubSize_eq, UInt32.toNat_ofNat']; omega
  have htl : nh.txtLen.toNat = text.length := by
    show (UInt32.ofNat text.length).toNat = _
    rw [UInt32.toNat_ofNat']; omega
  have hg1 : ∀ k, k < b.hdr.length → b1.hdr[k]? = b.hdr[k]? := fun k hk => by
    show (b.hdr ++ nh.bytes (e.junk 76) ++ subs.flatMap (JamSub.bytes (e.junk 16)))[k]? = _
    rw [List.append_assoc, List.getElem?_append_left hk]
  have hg : ∀ k, 1024 ≤ k → k < b.hdr.length → b'.hdr[k]? = b.hdr[k]? := fun k ha hk => by rw [w6 k ha, hg1 k hk]
  have hi' : b'.idx = b.idx ++ ix.bytes (e.junk 8) := w2
  have ht' : b'.txt = b.txt ++ text := w1
  have fi : ∀ {o n v}, NumAt b.idx o n v → NumAt b'.idx o n v := fun hn => by
    refine hn.frame (fun k _ hk => ?_) (by rw [hi', List.length_append]; omega)
    rw [hi', List.getElem?_append_left (by have := hn.1; omega)]
  have hlast : ∀ i x, (ms ++ [some m])[i]? = some x → i < ms.length ∧ ms[i]? = some x ∨ i = ms.length ∧ x = some m := fun i x hx => by
    by_cases hlt : i < ms.length
    · rw [List.getElem?_append_left hlt] at hx; exact .inl ⟨hlt, hx⟩
    · rw [List.getElem?_append_right (by omega)] at hx
      by_cases h0 : i - ms.length = 0
      · rw [h0] at hx; simp only [List.getElem?_cons_zero, Option.some.injEq] at hx
        exact .inr ⟨by omega, hx.symm⟩
      · rw [List.getElem?_eq_none (by simp; omega)] at hx; cases hx
  have hnew : NumAt b'.idx (8 * ms.length + 4) 4 b.hdr.length ∧ MsgAt b' b.hdr.length m := by
    constructor
    · have hx := hX.hdrOffset
      have e1 : (b'.idx.drop (8 * ms.length)).take 8 = ix.bytes (e.junk 8) := by
        rw [hi', ← hidx, List.drop_left, List.take_of_length_le (by rw [hX.size]; omega)]
      rw [← e1] at hx
      have := hx.unslice (by omega) (by rw [hi', List.length_append, hX.size]; omega)
      rw [show ix.hdrOffset.toNat = b.hdr.length from hso] at this
      exact this
    · have e1 : (b'.hdr.drop b.hdr.length).take 76 = nh.bytes (e.junk 76) := by
        rw [slice_ext (g := b1.hdr) fun k hk _ => w6 k (by omega)]
        show ((b.hdr ++ nh.bytes (e.junk 76) ++ subs.flatMap (JamSub.bytes (e.junk 16))).drop b.hdr.length).take 76 = _
        rw [List.append_assoc, List.drop_left, List.take_left' hN.size]
      have e2 : (b'.hdr.drop (b.hdr.length + 76)).take (subBytes subs) = subs.flatMap (JamSub.bytes (e.junk 16)) := by
        rw [slice_ext (g := b1.hdr) fun k hk _ => w6 k (by omega)]
        show ((b.hdr ++ nh.bytes (e.junk 76) ++ subs.flatMap (JamSub.bytes (e.junk 16))).drop (b.hdr.length + 76)).take _ = _
        rw [List.drop_left' (by rw [List.length_append, hN.size]), List.take_of_length_le (by rw [hS.length]; omega)]
      refine { lo := hlen, hi := ?_, small := by omega, hdr := by rw [e1]; exact hN, subs := ?_, subLen := hsl, subMax := hs, txtLen := htl, text := ?_ }
      · show b.hdr.length + (76 + subBytes subs) ≤ _
        omega
      · show SubsLayout ((b'.hdr.drop (b.hdr.length + 76)).take (subBytes subs)) subs
        rw [e2]; exact hS
      · by_cases hz : text = []
        · exact .inl hz
        · refine .inr ?_
          have eo : nh.txtOffset.toNat = b.txt.length := by
            show (if text = [] then 0 else UInt32.ofNat b.txt.length : UInt32).toNat = _
            rw [if_neg hz, UInt32.toNat_ofNat']; omega
          show nh.txtOffset.toNat + text.length ≤ _ ∧ (b'.txt.drop nh.txtOffset.toNat).take text.length = text
          rw [eo, ht', List.length_append, List.drop_left]
          exact ⟨by omega, by rw [List.take_of_length_le (by omega)]⟩
  have hadd : jamAdd e b hd subs text = .ok (.ok (b', nh)) := by
    rw [jamAdd, if_neg (by simp [hb])]
    simp only [hH, hc]
    show (match jamWriteBase e b1 { H with active := if jamDeleted nh.attr then H.active else H.active + 1 } with
      | .error r => Except.ok (Except.error r)
      | .ok b => Except.ok (Except.ok (b, nh))) = _
    rw [hw]
  refine ⟨b', m, hadd, ⟨rfl, show le32 jamSig = _ by decide, ?_, hsl, htl, rfl, rfl⟩,
    ⟨fun i => if i = ms.length then b.hdr.length else off i, ⟨_, w7, hst, ?_⟩, ?_, by simp; omega, fun i hx => ?_, fun i x hx => ?_, fun i j x y hij hx hy => ?_⟩,
    w4, by omega, by rw [ht', List.length_append]⟩
  · show UInt32.ofNat (b.idx.length / 8) + H.baseNum = _
    rw [hst, hidx, Nat.mul_div_cancel_left _ (by omega), UInt32.add_comm]
  · have hle := jamActive_le ms
    show (if jamDeleted nh.attr then H.active else H.active + 1 : UInt32).toNat = _
    rw [jamActive_append, slotCount, jamDeleted_iff]
    show _ = jamActive ms + if (!decide (2 ^ 31 ≤ nh.attr.toNat)) = true then 1 else 0
    by_cases hdl : 2 ^ 31 ≤ nh.attr.toNat
    · rw [decide_eq_true hdl]; simpa using hact
    · rw [decide_eq_false hdl]
      simp only [Bool.false_eq_true, if_false, Bool.not_false, if_true, UInt32.toNat_add, hact]
      show (jamActive ms + 1) % 2 ^ 32 = _
      omega
  · rw [hi', List.length_append, hX.size, hidx, List.length_append]; simp; omega
  · rcases hlast i none hx with ⟨_, hx⟩ | ⟨_, hx⟩
    · exact ⟨fi (h.gone i hx).1, fi (h.gone i hx).2⟩
    · cases hx
  · rcases hlast i (some x) hx with ⟨hlt, hx⟩ | ⟨hi1, hx⟩
    · obtain ⟨p1, p2⟩ := h.there i x hx
      rw [if_neg (by omega)]
      refine ⟨fi p1, p2.frame (by omega) (fun k k1 k2 => hg k (by have := p2.lo; omega) (by have := p2.hi; omega)) ⟨text, ht'⟩⟩
    · rw [Option.some.inj hx, if_pos hi1, hi1]; exact hnew
  · rcases hlast i (some x) hx with ⟨hlt, hx⟩ | ⟨hi1, hx⟩ <;> rcases hlast j (some y) hy with ⟨hlt', hy⟩ | ⟨hj1, hy⟩
    · rw [if_neg (by omega), if_neg (by omega)]; exact h.apart i j x y hij hx hy
    · rw [if_neg (by omega), if_pos hj1]; exact .inl (h.there i x hx).2.hi
    · rw [if_pos hi1, if_neg (by omega)]; exact .inr (h.there j y hy).2.hi
    · omega

/-- Adding a number without a message. -/
theorem jam_add_empty (e : JamEnv) {b : JamBase} {start : UInt32} {ms : List (Option JamMsg)} (h : JamHolds b start ms) (hb : b.locked = true)
    (h3 : ms.length + 1 < 2 ^ 32) : ∃ b', jamAddEmpty e b = .ok b' ∧ JamHolds b' start (ms ++ [none]) ∧ b'.locked = true ∧
      b'.hdr = b.hdr ∧ b'.txt = b.txt := by
  obtain ⟨off, h⟩ := h
  have hidx := h.len
  have hX := JamIdx.layout_bytes (e.junk 8) (e.size _) { userCrc := 0xffffffff, hdrOffset := 0xffffffff }
  have fi : ∀ {o n v}, NumAt b.idx o n v → NumAt (b.idx ++ JamIdx.bytes (e.junk 8) { userCrc := 0xffffffff, hdrOffset := 0xffffffff }) o n v := fun hn => by
    refine hn.frame (fun k _ hk => ?_) (by rw [List.length_append]; omega)
    rw [List.getElem?_append_left (by have := hn.1; omega)]
  have hlast : ∀ i x, (ms ++ [none])[i]? = some x → i < ms.length ∧ ms[i]? = some x ∨ i = ms.length ∧ x = none := fun i x hx => by
    by_cases hlt : i < ms.length
    · rw [List.getElem?_append_left hlt] at hx; exact .inl ⟨hlt, hx⟩
    · rw [List.getElem?_append_right (by omega)] at hx
      by_cases h0 : i - ms.length = 0
      · rw [h0] at hx; simp only [List.getElem?_cons_zero, Option.some.injEq] at hx
        exact .inr ⟨by omega, hx.symm⟩
      · rw [List.getElem?_eq_none (by simp; omega)] at hx; cases hx
  obtain ⟨H, hH1, hH2, hH3⟩ := h.base
  refine ⟨_, if_neg (by simp [hb]), ⟨off, ⟨H, hH1, hH2, ?_⟩, ?_, by simp; omega, fun i hx => ?_, fun i x hx => ?_, fun i j x y hij hx hy => ?_⟩,
    hb, rfl, rfl⟩
  · rw [jamActive_append, hH3]; rfl
  · show (b.idx ++ _).length = _
    rw [List.length_append, hX.size, hidx, List.length_append]; simp; omega
  · rcases hlast i none hx with ⟨_, hx⟩ | ⟨hi, _⟩
    · exact ⟨fi (h.gone i hx).1, fi (h.gone i hx).2⟩
    · have e1 : ((b.idx ++ JamIdx.bytes (e.junk 8) { userCrc := 0xffffffff, hdrOffset := 0xffffffff }).drop (8 * ms.length)).take 8 =
          JamIdx.bytes (e.junk 8) { userCrc := 0xffffffff, hdrOffset := 0xffffffff } := by
        rw [← hidx, List.drop_left, List.take_of_length_le (by rw [hX.size]; omega)]
      have x1 := hX.hdrOffset
      have x2 := hX.userCrc
      rw [← e1] at x1 x2
      rw [hi]
      exact ⟨x2.unslice (by omega) (by rw [List.length_append, hX.size]; omega), x1.unslice (by omega) (by rw [List.length_append, hX.size]; omega)⟩
  · rcases hlast i (some x) hx with ⟨hlt, hx⟩ | ⟨_, hx⟩
    · obtain ⟨p1, p2⟩ := h.there i x hx
      exact ⟨fi p1, p2.frame (Nat.le_refl _) (fun _ _ _ => rfl) ⟨[], (List.append_nil _).symm⟩⟩
    · cases hx
  · rcases hlast i (some x) hx with ⟨_, hx⟩ | ⟨_, hx⟩
    · rcases hlast j (some y) hy with ⟨_, hy⟩ | ⟨_, hy⟩
      · exact h.apart i j x y hij hx hy
      · cases hy
    · cases hx

theorem getElem?_set_cases {α : Type} {ms : List α} {n i : Nat} {o x : α} (h : (ms.set n o)[i]? = some x) :
    (i = n ∧ x = o) ∨ (i ≠ n ∧ ms[i]? = some x) := by
  rw [List.getElem?_set] at h
  by_cases hi : n = i
  · rw [if_pos hi] at h
    split at h
    · exact .inl ⟨hi.symm, (Option.some.inj h).symm⟩
    · cases h
  · rw [if_neg hi] at h; exact .inr ⟨fun hh => hi hh.symm, h⟩

/-- Deleting a message: it is gone, and the others are as they were. -/
theorem jam_delete (e : JamEnv) {b : JamBase} {start : UInt32} {ms : List (Option JamMsg)} (h : JamHolds b start ms) (hb : b.locked = true)
    (n : UInt32) {m : JamMsg} (hm : ms[n.toNat]? = some (some m)) :
    ∃ b', jamDelete e b n = .ok b' ∧ JamHolds b' start (ms.set n.toNat none) ∧ b'.locked = true ∧ b'.hdr.length = b.hdr.length ∧ b'.txt = b.txt := by
  obtain ⟨off, h⟩ := h
  obtain ⟨H, hH, hst, hact, hres, hlen⟩ := h.readBase
  obtain ⟨i, hi1, hi2, hi3⟩ := h.readIdx hm
  obtain ⟨_, hat⟩ := h.there _ _ hm
  have hidx := h.len
  have hn : n.toNat < ms.length := (List.getElem?_eq_some_iff.1 hm).1
  have hhi := hat.hi
  have hlo := hat.lo
  have hsz : m.size = 76 + subBytes m.subs := rfl
  let nh : JamHdr := { m.hdr with attr := m.hdr.attr ||| 0x80000000 }
  let ix : JamIdx := { userCrc := 0xffffffff, hdrOffset := 0xffffffff }
  let b1 : JamBase := { b with
    hdr := overlay b.hdr i.hdrOffset.toNat (nh.bytes (e.junk 76)), idx := overlay b.idx (n.toNat * 8) (ix.bytes (e.junk 8)) }
  have hN := JamHdr.layout_bytes (e.junk 76) (e.size _) nh
  have hX := JamIdx.layout_bytes (e.junk 8) (e.size _) ix
  have hb1 : b1.hdr.length = b.hdr.length := overlay_length (by rw [hi2, hN.size]; omega)
  obtain ⟨b', hw, w1, w2, w3, w4, w5, w6, w7⟩ := jamWriteBase_ok e (b := b1) hb
    { H with active := if jamDeleted m.hdr.attr then H.active else H.active - 1 } hres (by omega)
  have hg : ∀ k, 1024 ≤ k → (k < off n.toNat ∨ off n.toNat + 76 ≤ k) → b'.hdr[k]? = b.hdr[k]? := fun k hk ho => by
    rw [w6 k hk]
    show (overlay b.hdr i.hdrOffset.toNat (nh.bytes (e.junk 76)))[k]? = _
    rw [hi2, overlay_get (by omega), hN.size]
    rcases ho with ho | ho
    · rw [if_pos ho]
    · rw [if_neg (by omega), if_neg (by omega)]
  have hil : b'.idx.length = b.idx.length := by
    rw [w2]; exact overlay_length (by rw [hX.size, hidx]; omega)
  have hig : ∀ k, (k < 8 * n.toNat ∨ 8 * n.toNat + 8 ≤ k) → b'.idx[k]? = b.idx[k]? := fun k ho => by
    rw [w2]
    show (overlay b.idx (n.toNat * 8) (ix.bytes (e.junk 8)))[k]? = _
    rw [overlay_get (by omega), hX.size]
    rcases ho with ho | ho
    · rw [if_pos (by omega)]
    · rw [if_neg (by omega), if_neg (by omega)]
  have fi : ∀ {j o k v}, j ≠ n.toNat → 8 * j ≤ o → o + k ≤ 8 * j + 8 → NumAt b.idx o k v → NumAt b'.idx o k v := fun hj h1 h2 hnum =>
    hnum.frame (fun k _ hk => hig k (by omega)) (by omega)
  have hdel : jamDelete e b n = .ok b' := by
    rw [jamDelete, if_neg (by simp [hb])]
    rw [hH, hi1]
    simp only [hi3, hi2, hat.readHdr.1, hat.readHdr.2, Bool.false_eq_true, if_false]
    rw [← hi2]
    exact hw
  refine ⟨b', hdel, ⟨off, ⟨_, w7, hst, ?_⟩, by rw [hil, hidx, List.length_set], by rw [List.length_set]; exact h.few, fun j hx => ?_, fun j x hx => ?_, fun j k x y hjk hx hy => ?_⟩,
    w4, by rw [w5, hb1], w1⟩
  · have hcnt := jamActive_set hm none
    have hle := jamActive_le ms
    have hfew := h.few
    show (if jamDeleted m.hdr.attr then H.active else H.active - 1 : UInt32).toNat = _
    rw [slotCount_some, show slotCount none = 0 from rfl] at hcnt
    by_cases hdl : 2 ^ 31 ≤ m.hdr.attr.toNat
    · rw [if_pos (by rw [jamDeleted_iff]; exact decide_eq_true hdl), hact]
      rw [if_pos hdl] at hcnt
      omega
    · rw [if_neg (by rw [jamDeleted_iff]; simpa using hdl), UInt32.toNat_sub, hact]
      rw [if_neg hdl] at hcnt
      show (2 ^ 32 - 1 + jamActive ms) % 2 ^ 32 = _
      omega
  · rcases getElem?_set_cases hx with ⟨hj, _⟩ | ⟨hj, hx⟩
    · have e1 : (b'.idx.drop (n.toNat * 8)).take 8 = ix.bytes (e.junk 8) := by
        have := overlay_slice (o := b.idx) (p := n.toNat * 8) (d := ix.bytes (e.junk 8)) (by rw [hX.size]; omega)
        rw [hX.size] at this
        rw [w2]; exact this
      have x1 := hX.hdrOffset
      have x2 := hX.userCrc
      rw [← e1] at x1 x2
      rw [hj, Nat.mul_comm]
      exact ⟨x2.unslice (by omega) (by omega), x1.unslice (by omega) (by omega)⟩
    · exact ⟨fi hj (by omega) (by omega) (h.gone j hx).1, fi hj (by omega) (by omega) (h.gone j hx).2⟩
  · rcases getElem?_set_cases hx with ⟨_, hx⟩ | ⟨hj, hx⟩
    · cases hx
    · obtain ⟨p1, p2⟩ := h.there j x hx
      refine ⟨fi hj (by omega) (by omega) p1, p2.frame (by omega) (fun k k1 k2 => hg k (by have := p2.lo; omega) ?_) ⟨[], by rw [List.append_nil]; exact w1⟩⟩
      have := h.apart _ _ _ _ hj hx hm
      omega
  · rcases getElem?_set_cases hx with ⟨_, hx⟩ | ⟨hj, hx⟩
    · cases hx
    · rcases getElem?_set_cases hy with ⟨_, hy⟩ | ⟨_, hy⟩
      · cases hy
      · exact h.apart j k x y hjk hx hy

/-- There is nothing to delete: nothing changes. -/
theorem jam_delete_none (e : JamEnv) {b : JamBase} {start : UInt32} {ms : List (Option JamMsg)} (h : JamHolds b start ms)
    (n : UInt32) (hm : ∀ m, ms[n.toNat]? ≠ some (some m)) : ∃ r, jamDelete e b n = .error r := by
  obtain ⟨off, h⟩ := h
  obtain ⟨H, hH, _⟩ := h.readBase
  rw [jamDelete]
  by_cases hb : b.locked
  · rw [if_neg (by simp [hb]), hH]
    match hx : ms[n.toNat]? with
    | none => rw [h.readNone hx]; exact ⟨_, rfl⟩
    | some none =>
      obtain ⟨i, h1, h2⟩ := h.readGone hx
      rw [h1]
      simp only [h2, if_true]
      exact ⟨_, rfl⟩
    | some (some m) => exact absurd hx (hm m)
  · rw [if_pos (by simp [hb])]; exact ⟨_, rfl⟩

/-- Changing the header of a message: the message has the new header, its subfields and its text are as they
were, and so are the other messages. The new header must refer to the same subfields and text. A
deleted message must stay deleted. -/
theorem jam_change (e : JamEnv) {b : JamBase} {start : UInt32} {ms : List (Option JamMsg)} (h : JamHolds b start ms) (hb : b.locked = true)
    (n : UInt32) {m : JamMsg} (hm : ms[n.toNat]? = some (some m)) (nh : JamHdr) (h1 : nh.subLen = m.hdr.subLen) (h2 : nh.txtOffset = m.hdr.txtOffset)
    (h3 : nh.txtLen = m.hdr.txtLen) (h4 : m.dead = true → JamMsg.dead { m with hdr := nh } = true) :
    ∃ b', jamChange e b n nh = .ok b' ∧ JamHolds b' start (ms.set n.toNat (some { m with hdr := nh })) ∧ b'.locked = true ∧
      b'.hdr.length = b.hdr.length ∧ b'.txt = b.txt := by
  obtain ⟨off, h⟩ := h
  obtain ⟨H, hH, hst, hact, hres, hlen⟩ := h.readBase
  obtain ⟨i, hi1, hi2, hi3⟩ := h.readIdx hm
  obtain ⟨hix, hat⟩ := h.there _ _ hm
  have hidx := h.len
  have hn : n.toNat < ms.length := (List.getElem?_eq_some_iff.1 hm).1
  have hhi := hat.hi
  have hlo := hat.lo
  have hsz : m.size = 76 + subBytes m.subs := rfl
  let b1 : JamBase := { b with hdr := overlay b.hdr i.hdrOffset.toNat (nh.bytes (e.junk 76)) }
  have hN := JamHdr.layout_bytes (e.junk 76) (e.size _) nh
  have hb1 : b1.hdr.length = b.hdr.length := overlay_length (by rw [hi2, hN.size]; omega)
  obtain ⟨b', hw, w1, w2, w3, w4, w5, w6, w7⟩ := jamWriteBase_ok e (b := b1) hb
    { H with active := if jamDeleted nh.attr && !jamDeleted m.hdr.attr then H.active - 1 else H.active } hres (by omega)
  have hg : ∀ k, 1024 ≤ k → (k < off n.toNat ∨ off n.toNat + 76 ≤ k) → b'.hdr[k]? = b.hdr[k]? := fun k hk ho => by
    rw [w6 k hk]
    show (overlay b.hdr i.hdrOffset.toNat (nh.bytes (e.junk 76)))[k]? = _
    rw [hi2, overlay_get (by omega), hN.size]
    rcases ho with ho | ho
    · rw [if_pos ho]
    · rw [if_neg (by omega), if_neg (by omega)]
  have hi' : b'.idx = b.idx := w2
  have hchg : jamChange e b n nh = .ok b' := by
    rw [jamChange, if_neg (by simp [hb])]
    rw [hH, hi1]
    simp only [hi2, hat.readHdr.1, hat.readHdr.2]
    rw [← hi2]
    exact hw
  have hnew : MsgAt b' (off n.toNat) { m with hdr := nh } := by
    have e1 : (b'.hdr.drop (off n.toNat)).take 76 = nh.bytes (e.junk 76) := by
      rw [slice_ext (g := b1.hdr) fun k hk _ => w6 k (by omega)]
      have := overlay_slice (o := b.hdr) (p := i.hdrOffset.toNat) (d := nh.bytes (e.junk 76)) (by rw [hN.size]; omega)
      rw [hN.size, hi2] at this
      show ((overlay b.hdr i.hdrOffset.toNat (nh.bytes (e.junk 76))).drop (off n.toNat)).take 76 = _
      rw [hi2]; exact this
    refine { lo := hlo, hi := by show off n.toNat + m.size ≤ _; omega, small := hat.small, hdr := by rw [e1]; exact hN, subs := ?_, subLen := ?_, subMax := hat.subMax, txtLen := ?_, text := ?_ }
    · rw [slice_ext (g := b.hdr) fun k k1 k2 => hg k (by omega) (by omega)]; exact hat.subs
    · show nh.subLen.toNat = _
      rw [h1]; exact hat.subLen
    · show nh.txtLen.toNat = _
      rw [h3]; exact hat.txtLen
    · show _ ∨ nh.txtOffset.toNat + _ ≤ _ ∧ _
      rw [w1, h2]; exact hat.text
  refine ⟨b', hchg, ⟨off, ⟨_, w7, hst, ?_⟩, by rw [hi', hidx, List.length_set], by rw [List.length_set]; exact h.few, fun j hx => ?_, fun j x hx => ?_, fun j k x y hjk hx hy => ?_⟩,
    w4, by rw [w5, hb1], w1⟩
  · have hcnt := jamActive_set hm (some { m with hdr := nh })
    have hle := jamActive_le ms
    have hfew := h.few
    show (if jamDeleted nh.attr && !jamDeleted m.hdr.attr then H.active - 1 else H.active : UInt32).toNat = _
    rw [slotCount_some, slotCount_some] at hcnt
    simp only [JamMsg.dead, decide_eq_true_eq] at h4
    by_cases hdl : 2 ^ 31 ≤ m.hdr.attr.toNat
    · rw [if_neg (by rw [jamDeleted_iff, jamDeleted_iff]; simp only [hdl]; simp), hact]
      rw [if_pos hdl, if_pos (h4 hdl)] at hcnt
      omega
    · rw [if_neg hdl] at hcnt
      by_cases hdn : 2 ^ 31 ≤ nh.attr.toNat
      · rw [if_pos (by rw [jamDeleted_iff, jamDeleted_iff]; simp only [hdl, hdn]; simp), UInt32.toNat_sub, hact]
        rw [if_pos hdn] at hcnt
        show (2 ^ 32 - 1 + jamActive ms) % 2 ^ 32 = _
        omega
      · rw [if_neg (by rw [jamDeleted_iff, jamDeleted_iff]; simp only [hdn]; simp), hact]
        rw [if_neg hdn] at hcnt
        omega
  · rcases getElem?_set_cases hx with ⟨_, hx⟩ | ⟨_, hx⟩
    · cases hx
    · rw [hi']; exact h.gone j hx
  · rw [hi']
    rcases getElem?_set_cases hx with ⟨hj, hx⟩ | ⟨hj, hx⟩
    · rw [hj, Option.some.inj hx]; exact ⟨hix, hnew⟩
    · obtain ⟨p1, p2⟩ := h.there j x hx
      refine ⟨p1, p2.frame (by omega) (fun k k1 k2 => hg k (by have := p2.lo; omega) ?_) ⟨[], by rw [List.append_nil]; exact w1⟩⟩
      have := h.apart _ _ _ _ hj hx hm
      omega
  · rcases getElem?_set_cases hx with ⟨hj, hx⟩ | ⟨hj, hx⟩ <;> rcases getElem?_set_cases hy with ⟨hk, hy⟩ | ⟨hk, hy⟩
    · omega
    · rw [hj, Option.some.inj hx]; exact h.apart _ k m y (fun hh => hk hh.symm) hm hy
    · rw [hk, Option.some.inj hy]; exact h.apart j _ x m hj hx hm
    · exact h.apart j k x y hjk hx hy

/-- Whatever is added and deleted, in whatever order: no operation goes wrong, and the base holds what it should
hold. With `jam_get` and `jam_count`, every message that was added and not deleted can be read
back as it was added, and the counter is right. -/
theorem jam_history_partial (e : JamEnv) {start : UInt32} (ops : List JamOp) : ∀ {b : JamBase} {ms : List (Option JamMsg)}, JamHolds b start ms → b.locked = true →
    JamRoom b ms ops → (∀ op ∈ ops, op.CanIndex e) →
    ∃ b' ms', jamRun e b ops = .ok b' ∧ JamAll start ms ops ms' ∧ JamHolds b' start ms' := by
  induction ops with
  | nil => intro b ms h _ _ _; exact ⟨b, ms, rfl, .nil, h⟩
  | cons op ops ih =>
    intro b ms h hb ⟨r1, r2, r3⟩ hc
    have hc' := fun o ho => hc o (List.mem_cons_of_mem _ ho)
    simp only [List.map_cons, List.sum_cons, List.length_cons] at r1 r2 r3
    cases op with
    | add hd subs text =>
      rw [show (JamOp.add hd subs text).hdrSize = 76 + subBytes subs from rfl] at r1
      rw [show (JamOp.add hd subs text).txtSize = text.length from rfl] at r2
      obtain ⟨c1, c2⟩ := hc (.add hd subs text) (List.mem_cons_self ..)
      obtain ⟨b', m, a1, a2, a3, a4, a5, a6⟩ := jam_add e h hb hd subs text c1 c2 (by omega) (by omega) (by omega)
      obtain ⟨b'', ms'', i1, i2, i3⟩ := ih a3 a4 ⟨by omega, by omega, by rw [List.length_append]; simp; omega⟩ hc'
      refine ⟨b'', ms'', ?_, .cons (.add a2) i2, i3⟩
      rw [jamRun, jamDo, a1]; exact i1
    | empty =>
      rw [show JamOp.empty.hdrSize = 0 from rfl] at r1
      rw [show JamOp.empty.txtSize = 0 from rfl] at r2
      obtain ⟨b', a1, a2, a3, a4, a5⟩ := jam_add_empty e h hb (by omega)
      obtain ⟨b'', ms'', i1, i2, i3⟩ := ih a2 a3 ⟨by rw [a4]; omega, by rw [a5]; omega, by rw [List.length_append]; simp; omega⟩ hc'
      refine ⟨b'', ms'', ?_, .cons .empty i2, i3⟩
      rw [jamRun, jamDo, a1]; exact i1
    | delete n =>
      rw [show (JamOp.delete n).hdrSize = 0 from rfl] at r1
      rw [show (JamOp.delete n).txtSize = 0 from rfl] at r2
      by_cases hm : ∃ m, ms[n.toNat]? = some (some m)
      · obtain ⟨m, hm⟩ := hm
        obtain ⟨b', a1, a2, a3, a4, a5⟩ := jam_delete e h hb n hm
        obtain ⟨b'', ms'', i1, i2, i3⟩ := ih a2 a3 ⟨by omega, by rw [a5]; omega, by rw [List.length_set]; omega⟩ hc'
        refine ⟨b'', ms'', ?_, .cons (.delete hm) i2, i3⟩
        rw [jamRun, jamDo, a1]; exact i1
      · have hm : ∀ m, ms[n.toNat]? ≠ some (some m) := fun m hh => hm ⟨m, hh⟩
        obtain ⟨r, a1⟩ := jam_delete_none e h n hm
        obtain ⟨b'', ms'', i1, i2, i3⟩ := ih h hb ⟨by omega, by omega, by omega⟩ hc'
        refine ⟨b'', ms'', ?_, .cons (.deleteNone hm) i2, i3⟩
        rw [jamRun, jamDo, a1]; exact i1

end CM
