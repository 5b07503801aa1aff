import Verif.Lemmas.MemMsg

set_option linter.unusedSimpArgs false
namespace CM

/-! ## C11: packet headers -/

theorem pwField_length (s : Str) : (pwField s).length = 8 := by simp [pwField]

theorem getElem!_append_at (a b : List UInt8) (c : UInt8) (i : Nat) (h : a.length = i) : (a ++ c :: b)[i]! = c := by
  subst h
  rw [getElem!_pos _ _ (by simp)]
  simp

/-- A 16-bit field at a known offset. -/
theorem word_at (a b : List UInt8) (x : UInt16) (off : Nat) (h : a.length = off) : word (a ++ (le16 x ++ b)) off = x := by
  have e1 : (a ++ (le16 x ++ b))[off]! = UInt8.ofNat (x.toNat % 256) := getElem!_append_at a _ _ _ h
  have e2 : (a ++ (le16 x ++ b))[off + 1]! = UInt8.ofNat (x.toNat / 256) := by
    have : a ++ (le16 x ++ b) = (a ++ [UInt8.ofNat (x.toNat % 256)]) ++ UInt8.ofNat (x.toNat / 256) :: b := by
      simp [le16]
    rw [this]
    exact getElem!_append_at _ _ _ _ (by simp [h])
  rw [word, e1, e2, rd16_le16]

theorem pktHeaderA_length (o d : Node4D) (t : PktDate) : (pktHeaderA o d t).length = 24 := rfl

theorem pktHeaderB_length (pw : Str) : (pktHeaderB pw).length = 10 := by simp [pktHeaderB, pwField_length]

theorem pktHeaderC_length (o d : Node4D) : (pktHeaderC o d).length = 24 := rfl

theorem pktHeader_length (o d : Node4D) (pw : Str) (t : PktDate) : (pktHeader o d pw t).length = 58 := by
  simp [pktHeader, pktHeaderA_length, pktHeaderB_length, pktHeaderC_length]

theorem getElem!_append_left (a b : List UInt8) (i : Nat) (h : i < a.length) : (a ++ b)[i]! = a[i]! := by
  rw [getElem!_pos (a ++ b) i (by simp; omega), getElem!_pos a i h]
  simp [List.getElem_append_left h]

theorem getElem!_append_right (a b : List UInt8) (i : Nat) (h : i < b.length) : (a ++ b)[a.length + i]! = b[i]! := by
  rw [getElem!_pos (a ++ b) (a.length + i) (by simp; omega), getElem!_pos b i h]
  simp [List.getElem_append_right]

/-- Bytes of the three parts of the header. -/
theorem pktHeader_getA (o d : Node4D) (pw : Str) (t : PktDate) (i : Nat) (h : i < 24) :
    (pktHeader o d pw t)[i]! = (pktHeaderA o d t)[i]! :=
  getElem!_append_left _ _ _ (by rw [pktHeaderA_length]; exact h)

theorem pktHeader_getC (o d : Node4D) (pw : Str) (t : PktDate) (i : Nat) (h : i < 24) :
    (pktHeader o d pw t)[34 + i]! = (pktHeaderC o d)[i]! := by
  have e : pktHeader o d pw t = (pktHeaderA o d t ++ pktHeaderB pw) ++ pktHeaderC o d := by
    simp [pktHeader]
  have l : (pktHeaderA o d t ++ pktHeaderB pw).length = 34 := by
    simp [pktHeaderA_length, pktHeaderB_length]
  rw [e, ← l]
  exact getElem!_append_right _ _ _ (by rw [pktHeaderC_length]; exact h)

theorem pktHeader_fields (o d : Node4D) (pw : Str) (t : PktDate) :
    word (pktHeader o d pw t) 0 = o.node ∧ word (pktHeader o d pw t) 2 = d.node ∧
    word (pktHeader o d pw t) 16 = 0 ∧ word (pktHeader o d pw t) 18 = 2 ∧
    word (pktHeader o d pw t) 20 = o.net ∧ word (pktHeader o d pw t) 22 = d.net ∧
    word (pktHeader o d pw t) 46 = o.zone ∧ word (pktHeader o d pw t) 48 = d.zone ∧
    word (pktHeader o d pw t) 50 = o.point ∧ word (pktHeader o d pw t) 52 = d.point ∧
    (pktHeader o d pw t)[40]! = (pktHeader o d pw t)[45]! ∧
    (pktHeader o d pw t)[41]! = (pktHeader o d pw t)[44]! ∧
    word (pktHeader o d pw t) 34 = o.zone ∧ word (pktHeader o d pw t) 36 = d.zone := by
  have a := pktHeader_getA o d pw t
  have c := pktHeader_getC o d pw t
  have wa : ∀ i, i + 1 < 24 → word (pktHeader o d pw t) i = word (pktHeaderA o d t) i := fun i h => by
    rw [word, word, a i (by omega), a (i + 1) h]
  have wc : ∀ i, i + 1 < 24 → word (pktHeader o d pw t) (34 + i) = word (pktHeaderC o d) i := fun i h => by
    rw [word, word, c i (by omega), Nat.add_assoc, c (i + 1) h]
  refine ⟨?_, ?_, ?_, ?_, ?_, ?_, ?_, ?_, ?_, ?_, ?_, ?_, ?_, ?_⟩
  · rw [wa 0 (by omega)]; exact rd16_le16 _
  · rw [wa 2 (by omega)]; exact rd16_le16 _
  · rw [wa 16 (by omega)]; exact rd16_le16 _
  · rw [wa 18 (by omega)]; exact rd16_le16 _
  · rw [wa 20 (by omega)]; exact rd16_le16 _
  · rw [wa 22 (by omega)]; exact rd16_le16 _
  · rw [wc 12 (by omega)]; exact rd16_le16 _
  · rw [wc 14 (by omega)]; exact rd16_le16 _
  · rw [wc 16 (by omega)]; exact rd16_le16 _
  · rw [wc 18 (by omega)]; exact rd16_le16 _
  · rw [c 6 (by omega), c 11 (by omega)]; rfl
  · rw [c 7 (by omega), c 10 (by omega)]; rfl
  · rw [wc 0 (by omega)]; exact rd16_le16 _
  · rw [wc 2 (by omega)]; exact rd16_le16 _

/-- C11. A packet header gives back the addresses it was made from, for all addresses whose origin
has a zone (or neither has one) and whose origin is not a point of net 65535; the type is 2. -/
theorem pktHeader_addresses (o d : Node4D) (pw : Str) (t : PktDate) (hz : o.zone ≠ 0 ∨ d.zone = 0)
    (hn : o.point = 0 ∨ o.net ≠ 0xffff) :
    word (pktHeader o d pw t) 18 = 2 ∧ pktAddresses (pktHeader o d pw t) = (o, d) := by
  obtain ⟨f1, f2, f3, f4, f5, f6, f7, f8, f9, f10, f11, f12, f13, f14⟩ := pktHeader_fields o d pw t
  refine ⟨f4, ?_⟩
  have hnn : ¬ (o.point ≠ 0 ∧ o.net = 0xffff) := by
    rintro ⟨h1, h2⟩
    rcases hn with h | h
    · exact h1 h
    · exact h h2
  simp only [pktAddresses, f1, f2, f3, f5, f6, f7, f8, f9, f10, f13, f14]
  rw [if_neg (by decide), if_pos ⟨f11, f12⟩, if_neg hnn]
  by_cases hzo : o.zone = 0
  · have hd : d.zone = 0 := by
      rcases hz with h | h
      · exact absurd hzo h
      · exact h
    cases o; cases d; simp_all
  · simp [hzo]

/-- C11. The password field gives back every password of at most eight bytes. -/
theorem pktHeader_password (o d : Node4D) (pw : Str) (t : PktDate) (h : NoNul pw) (hl : pw.length ≤ 8) :
    pktPassword (pktHeader o d pw t) = pw := by
  have e : (pktHeader o d pw t).drop 26 = pwField pw ++ pktHeaderC o d := by
    have : pktHeader o d pw t = (pktHeaderA o d t ++ [0xfe, 1]) ++ (pwField pw ++ pktHeaderC o d) := by
      simp [pktHeader, pktHeaderB]
    rw [this]
    exact List.drop_left' (by simp [pktHeaderA_length])
  have e2 : (pwField pw ++ pktHeaderC o d).take 8 = pwField pw := by
    rw [List.take_append_of_le_length (by rw [pwField_length]; omega), List.take_of_length_le (by rw [pwField_length]; omega)]
  rw [pktPassword, e, e2, pwField, cstr, List.take_append, List.take_of_length_le hl]
  by_cases h8 : pw.length = 8
  · simp [h8, noNul_takeWhile h]
  · obtain ⟨k, hk⟩ : ∃ k, 8 - pw.length = k + 1 := ⟨7 - pw.length, by omega⟩
    rw [List.take_replicate, hk, Nat.min_eq_left (by omega), List.replicate_succ]
    exact takeWhile_nul h _

/-- C11 (violated). With an origin without zone the destination zone is lost. -/
theorem pktHeader_zone_lost (o d : Node4D) (pw : Str) (t : PktDate) (h : o.zone = 0) :
    (pktAddresses (pktHeader o d pw t)).2.zone = 0 := by
  obtain ⟨f1, f2, f3, f4, f5, f6, f7, f8, f9, f10, f11, f12, f13, f14⟩ := pktHeader_fields o d pw t
  simp only [pktAddresses, f1, f2, f3, f5, f6, f7, f8, f9, f10, f13, f14]
  rw [if_neg (by decide), if_pos ⟨f11, f12⟩]
  simp [h]

/-- C11 (violated). A point of net 65535 is read as a point of net 0. -/
theorem pktHeader_net_lost (o d : Node4D) (pw : Str) (t : PktDate) (h : o.net = 0xffff) (hp : o.point ≠ 0) :
    (pktAddresses (pktHeader o d pw t)).1.net = 0 := by
  obtain ⟨f1, f2, f3, f4, f5, f6, f7, f8, f9, f10, f11, f12, f13, f14⟩ := pktHeader_fields o d pw t
  have f15 : word (pktHeader o d pw t) 38 = 0 := by
    have c := pktHeader_getC o d pw t
    have : word (pktHeader o d pw t) 38 = word (pktHeaderC o d) 4 := by
      rw [word, word, c 4 (by omega), c 5 (by omega)]
    rw [this]; exact rd16_le16 _
  simp only [pktAddresses, f1, f2, f3, f5, f6, f7, f8, f9, f10, f13, f14, f15]
  rw [if_neg (by decide), if_pos ⟨f11, f12⟩]
  simp [h, hp]

/-! ## C12, C13: the message stream -/

/-- What a message text means: the first line is an area name or text, the others are lines. -/
def interpText (m : MemMsg) (t : Str) : Except UB (Option MemMsg) :=
  match pieces t with
  | [] => .ok (some m)
  | l :: ls => match firstLine m l with
    | .error e => .error e
    | .ok none => .ok none
    | .ok (some m) => addLines m ls

/-- The fresh message for a packed message. -/
def rawStart (cfg : PktCfg) (po pd : Node4D) (r : RawMsg) : MemMsg :=
  { orig := ⟨0, word r.hdr 6, word r.hdr 2, 0⟩
    dest := ⟨po.zone, word r.hdr 8, word r.hdr 4, 0⟩
    attr := word r.hdr 10
    cost := word r.hdr 12
    pktOrig := po
    pktDest := pd
    flags := if cfg.noSecurity then 8 else 0
    date := r.date
    to := r.to
    frm := r.frm
    subject := r.subject }

/-- The message a packed message is handed over as. -/
def interpMsg (cfg : PktCfg) (po pd : Node4D) (r : RawMsg) : Except UB (Option MemMsg) :=
  match interpText (rawStart cfg po pd r) r.text with
  | .error e => .error e
  | .ok none => .ok none
  | .ok (some m) => .ok (some { m with flags := m.flags ||| 4 })

/-- No message of the packet is refused because of its password. -/
def PasswordOK (cfg : PktCfg) (po : Node4D) (pw : Str) : Prop :=
  ∀ area, wrongPassword cfg (findNode cfg.nodes po) pw area = false

theorem word_of_u16At {b : List UInt8} {off n : Nat} (hl : off + 1 < b.length) (h : u16At b off = n) :
    word b off = UInt16.ofNat n := by
  rw [← h, word, rd16, u16At, getElem!_pos b off (by omega), getElem!_pos b (off + 1) hl]
  simp [List.getElem?_eq_getElem (show off < b.length by omega), List.getElem?_eq_getElem hl]

theorem u16At_of_word {b : List UInt8} {off : Nat} (hl : off + 1 < b.length) : u16At b off = (word b off).toNat := by
  have e1 := (b[off]?.getD 0).toNat_lt
  have e2 := (b[off + 1]?.getD 0).toNat_lt
  rw [word_of_u16At hl rfl]
  simp only [u16At, UInt16.toNat_ofNat'] at *
  omega

/-- The header strings of a well-formed message. -/
theorem readHdrStrings_ok (r : RawMsg) (h : r.OK) (s : List UInt8) :
    readHdrStrings (r.date ++ 0 :: (r.to ++ 0 :: (r.frm ++ 0 :: (r.subject ++ 0 :: s)))) =
      { date := r.date, to := r.to, frm := r.frm, subject := r.subject, rest := s, short := false, long := false } := by
  unfold readHdrStrings
  simp only [readNull_ok 20 r.date _ h.date.1 h.date.2, readNull_ok 36 r.to _ h.to.1 h.to.2,
    readNull_ok 36 r.frm _ h.frm.1 h.frm.2, readNull_ok 72 r.subject _ h.subject.1 h.subject.2,
    Bool.false_eq_true, if_false, Bool.or_false]

theorem readHdrStrings_inv (s : List UInt8) (hs : (readHdrStrings s).short = false)
    (hl : (readHdrStrings s).long = false) :
    let h := readHdrStrings s
    s = h.date ++ 0 :: (h.to ++ 0 :: (h.frm ++ 0 :: (h.subject ++ 0 :: h.rest))) ∧
    (NoNul h.date ∧ h.date.length ≤ 19) ∧ (NoNul h.to ∧ h.to.length ≤ 35) ∧
    (NoNul h.frm ∧ h.frm.length ≤ 35) ∧ (NoNul h.subject ∧ h.subject.length ≤ 71) := by
  unfold readHdrStrings at *
  simp only at hs hl ⊢
  by_cases h1 : (readNull 20 s).short = true
  · simp [h1] at hs
  · rw [if_neg h1] at hs hl ⊢
    by_cases h2 : (readNull 36 (readNull 20 s).rest).short = true
    · simp [h2] at hs
    · rw [if_neg h2] at hs hl ⊢
      by_cases h3 : (readNull 36 (readNull 36 (readNull 20 s).rest).rest).short = true
      · simp [h3] at hs
      · rw [if_neg h3] at hs hl ⊢
        simp only [Bool.or_eq_false_iff] at hs hl ⊢
        obtain ⟨⟨⟨l1, l2⟩, l3⟩, l4⟩ := hl
        obtain ⟨a1, a2, a3⟩ := readNull_inv 20 s (by simpa using h1) l1
        obtain ⟨b1, b2, b3⟩ := readNull_inv 36 _ (by simpa using h2) l2
        obtain ⟨c1, c2, c3⟩ := readNull_inv 36 _ (by simpa using h3) l3
        obtain ⟨d1, d2, d3⟩ := readNull_inv 72 _ hs l4
        refine ⟨?_, ⟨a2, a3⟩, ⟨b2, b3⟩, ⟨c2, c3⟩, d2, d3⟩
        rw [← d1, ← c1, ← b1, ← a1]

/-- Go on after the first line. -/
def firstThen (o : Except UB (Option MemMsg)) (l : RC) : Except UB (Option (Option (MemMsg × List UInt8))) :=
  match o with
  | .error e => .error e
  | .ok none => .ok none
  | .ok (some m) => readRest m l

/-- First line and the rest of the text together. -/
theorem text_interp (m : MemMsg) (t : Str) (s : List UInt8) (h : NoNul t) :
    firstThen (firstLine m (readCR (t ++ 0 :: s)).line) (readCR (t ++ 0 :: s)) = withRest s (interpText m t) := by
  unfold interpText firstThen
  rcases readCR_text t s h with ⟨h1, h2⟩ | ⟨l, r, hne, h1, h2, h3⟩
  · rw [h1, h2]
    by_cases ht : t = []
    · subst ht
      simp only [firstLine, if_true]
      rw [show startsWith [] b!"AREA:" = false from rfl]
      simp [mmAddLine_nil, readRest, withRest]
    · rw [if_neg ht]
      simp only [addLines, readRest, if_true]
      cases firstLine m t with
      | error e => rfl
      | ok o => cases o <;> rfl
  · rw [h3, h2]
    simp only [readRest, Bool.false_eq_true, if_false]
    cases hf : firstLine m l with
    | error e => rfl
    | ok o =>
      cases o with
      | none => rfl
      | some m1 =>
        have hr : NoNul r := fun hm => h (by rw [h1]; simp [hm])
        simp only
        rw [readText_pieces _ m1 r s hr (by simp; omega)]

/-- Reading one well-formed message. -/
theorem readMsgs_step (cfg : PktCfg) (po pd : Node4D) (pw : Str) (handler : List MemMsg → MemMsg → Bool)
    (ctrlc : Nat → Bool) (f : Nat) (r : RawMsg) (h : r.OK) (s : List UInt8) (acc : List MemMsg)
    (hp : PasswordOK cfg po pw) (hc : ctrlc acc.length = false) :
    readMsgs cfg po pd pw handler ctrlc (f + 1) r.hdr
      (r.date ++ 0 :: (r.to ++ 0 :: (r.frm ++ 0 :: (r.subject ++ 0 :: (r.text ++ 0 :: s))))) acc =
    (match interpMsg cfg po pd r with
      | .error e => .error e
      | .ok none => .ok none
      | .ok (some m) =>
        if handler acc m = false then .ok (some (.abort, acc ++ [m])) else
        match nextHdr r.hdr s with
        | none => .ok (some (.bad .msgHeaderShort, acc ++ [m]))
        | some h => readMsgs cfg po pd pw handler ctrlc f h (s.drop 14) (acc ++ [m])) := by
  have ht : word r.hdr 0 = 2 := word_of_u16At (by rw [h.hdr]; omega) h.type
  conv => lhs; unfold readMsgs
  rw [if_pos ⟨ht, hc⟩]
  simp only [readHdrStrings_ok r h, Bool.false_eq_true, if_false]
  have hi := text_interp (rawStart cfg po pd r) r.text s h.text
  have hst : pktMessage cfg po pd r.hdr (HdrStrings.mk r.date r.to r.frm r.subject (r.text ++ 0 :: s) false false)
      = rawStart cfg po pd r := rfl
  rw [hst]
  unfold interpMsg
  cases hf : firstLine (rawStart cfg po pd r) (readCR (r.text ++ 0 :: s)).line with
  | error e =>
    rw [hf] at hi
    simp only [firstThen] at hi ⊢
    cases hx : interpText (rawStart cfg po pd r) r.text with
    | error e' => rw [hx] at hi; simp only [withRest, Except.error.injEq] at hi; subst hi; rfl
    | ok o => rw [hx] at hi; cases o <;> simp [withRest] at hi
  | ok o =>
    cases o with
    | none =>
      rw [hf] at hi
      simp only [firstThen] at hi ⊢
      cases hx : interpText (rawStart cfg po pd r) r.text with
      | error e' => rw [hx] at hi; simp [withRest] at hi
      | ok o => rw [hx] at hi; cases o <;> simp [withRest] at hi; rfl
    | some m1 =>
      rw [hf] at hi
      simp only [firstThen] at hi ⊢
      rw [hp m1.area]
      simp only [Bool.false_eq_true, if_false]
      rw [hi]
      cases interpText (rawStart cfg po pd r) r.text with
      | error e => rfl
      | ok o =>
        cases o with
        | none => rfl
        | some m2 => simp only [withRest]; rfl

theorem RawMsg.bytes_split (r : RawMsg) (s : List UInt8) : r.bytes ++ s =
    r.hdr ++ (r.date ++ 0 :: (r.to ++ 0 :: (r.frm ++ 0 :: (r.subject ++ 0 :: (r.text ++ 0 :: s))))) := by
  simp [RawMsg.bytes]

theorem RawMsg.bytes_length (r : RawMsg) (h : r.OK) : 19 ≤ r.bytes.length := by
  have := h.hdr
  simp [RawMsg.bytes]; omega

theorem nextHdr_raw (old : List UInt8) (r : RawMsg) (h : r.OK) (s : List UInt8) :
    nextHdr old (r.bytes ++ s) = some (r.hdr ++ old.drop 14) ∧
      (r.bytes ++ s).drop 14 = r.date ++ 0 :: (r.to ++ 0 :: (r.frm ++ 0 :: (r.subject ++ 0 :: (r.text ++ 0 :: s)))) := by
  rw [RawMsg.bytes_split]
  have e1 : (r.hdr ++ (r.date ++ 0 :: (r.to ++ 0 :: (r.frm ++ 0 :: (r.subject ++ 0 :: (r.text ++ 0 :: s)))))).take 14 = r.hdr :=
    List.take_left' h.hdr
  refine ⟨?_, List.drop_left' h.hdr⟩
  unfold nextHdr
  simp only [e1, h.hdr]
  rfl

theorem nextHdr_tail (old t : List UInt8) (h : PktTail false t) :
    ∃ h', nextHdr old t = some h' ∧ word h' 0 = 0 := by
  rcases h with ⟨r, rfl⟩ | ⟨_, rfl⟩
  · refine ⟨(0 :: 0 :: r).take 14 ++ old.drop ((0 :: 0 :: r).take 14).length, ?_, ?_⟩
    · unfold nextHdr
      simp only
      rw [if_neg (by simp)]
    · simp [word, rd16]
  · exact ⟨List.replicate 14 0, by simp [nextHdr], by simp [word, rd16]⟩

/-- C12/C13. A stream of well-formed messages with a proper end is read as exactly its messages, in
order, each handed over once. -/
theorem readMsgs_all (cfg : PktCfg) (po pd : Node4D) (pw : Str) (hp : PasswordOK cfg po pw)
    (rs : List RawMsg) (r : RawMsg) (hr : r.OK) (hrs : ∀ r ∈ rs, r.OK) (m : MemMsg) (ms : List MemMsg)
    (hm : interpMsg cfg po pd r = .ok (some m))
    (hms : rs.map (interpMsg cfg po pd) = ms.map fun m => .ok (some m))
    (tail : List UInt8) (ht : PktTail false tail) (f : Nat) (hf : rs.length + 1 < f) (acc : List MemMsg) :
    readMsgs cfg po pd pw (fun _ _ => true) (fun _ => false) f r.hdr
      (r.date ++ 0 :: (r.to ++ 0 :: (r.frm ++ 0 :: (r.subject ++ 0 :: (r.text ++ 0 :: (rs.flatMap RawMsg.bytes ++ tail))))))
      acc = .ok (some (.done, acc ++ m :: ms)) := by
  induction rs generalizing r m ms f acc with
  | nil =>
    obtain ⟨f, rfl⟩ : ∃ g, f = g + 2 := ⟨f - 2, by simp at hf; omega⟩
    cases ms with
    | cons _ _ => simp at hms
    | nil =>
      rw [readMsgs_step cfg po pd pw _ _ (f + 1) r hr _ acc hp rfl, hm]
      obtain ⟨h', h1, h2⟩ := nextHdr_tail r.hdr tail ht
      simp only [List.flatMap_nil, List.nil_append, h1, Bool.true_eq_false, if_false]
      unfold readMsgs
      rw [if_neg (by rw [h2]; simp), if_neg (by rw [h2]; simp)]
  | cons r' rs ih =>
    obtain ⟨f, rfl⟩ : ∃ g, f = g + 1 := ⟨f - 1, by omega⟩
    cases ms with
    | nil => simp at hms
    | cons m' ms =>
      simp only [List.map_cons, List.cons.injEq] at hms
      have hr' := hrs r' (by simp)
      rw [readMsgs_step cfg po pd pw _ _ f r hr _ acc hp rfl, hm]
      obtain ⟨h1, h2⟩ := nextHdr_raw r.hdr r' hr' (rs.flatMap RawMsg.bytes ++ tail)
      simp only [List.flatMap_cons, List.append_assoc, h1, h2, Bool.true_eq_false, if_false]
      have hd : r.hdr.drop 14 = [] := List.drop_of_length_le (by rw [hr.hdr]; omega)
      rw [hd, List.append_nil, ih r' hr' (fun x hx => hrs x (by simp [hx])) m' ms hms.1 hms.2 f
        (by simp at hf; omega)]
      simp

/-- The inverse: whatever the handler does, a packet that is read to its end consists of well-formed
messages and a proper end, and exactly these messages were handed over. -/
theorem readMsgs_inv (cfg : PktCfg) (po pd : Node4D) (pw : Str) (handler : List MemMsg → MemMsg → Bool)
    (ctrlc : Nat → Bool) (f : Nat) (hdr s : List UInt8) (acc out : List MemMsg) (hl : hdr.length = 14)
    (h : readMsgs cfg po pd pw handler ctrlc f hdr s acc = .ok (some (.done, out))) :
    (word hdr 0 = 0 ∧ out = acc) ∨
    ∃ (rs : List RawMsg) (tail : List UInt8) (ms : List MemMsg), rs ≠ [] ∧ hdr ++ s = rs.flatMap RawMsg.bytes ++ tail ∧
      (∀ r ∈ rs, r.OK) ∧ PktTail false tail ∧
      (rs.map (interpMsg cfg po pd) = ms.map fun m => .ok (some m)) ∧ out = acc ++ ms := by
  induction f generalizing hdr s acc with
  | zero => simp [readMsgs] at h
  | succ f ih =>
    unfold readMsgs at h
    by_cases hw : word hdr 0 = 2 ∧ ctrlc acc.length = false
    · right
      rw [if_pos hw] at h
      simp only at h
      by_cases hs : (readHdrStrings s).short = true
      · rw [if_pos hs] at h; simp at h
      · rw [if_neg hs] at h
        by_cases hlg : (readHdrStrings s).long = true
        · rw [if_pos hlg] at h; simp at h
        · rw [if_neg hlg] at h
          obtain ⟨e1, e2, e3, e4, e5⟩ := readHdrStrings_inv s (by simpa using hs) (by simpa using hlg)
          generalize hH : readHdrStrings s = H at h e1 e2 e3 e4 e5
          rcases split_nul H.rest with hn | ⟨t, rest, hn, ht⟩
          · -- no terminator: the text cannot be complete
            exfalso
            split at h
            · simp at h
            · simp at h
            · rename_i m hm
              split at h
              · simp at h
              · split at h
                · simp at h
                · simp at h
                · simp at h
                · rename_i m2 s2 hr
                  unfold readRest at hr
                  obtain ⟨q1, q2⟩ := readCR_noNul _ hn
                  rw [q1] at hr
                  simp only [Bool.false_eq_true, if_false] at hr
                  exact readText_noNul _ _ _ q2 _ hr
          · let r : RawMsg := ⟨hdr, H.date, H.to, H.frm, H.subject, t⟩
            have hr : r.OK := ⟨hl, by rw [u16At_of_word (by show 0 + 1 < hdr.length; omega)]; show (word hdr 0).toNat = 2; rw [hw.1]; rfl,
              e2, e3, e4, e5, hn⟩
            have hst : pktMessage cfg po pd hdr H = rawStart cfg po pd r := rfl
            have hi := text_interp (rawStart cfg po pd r) t rest hn
            rw [hst, ht] at h
            split at h
            · simp at h
            · simp at h
            · rename_i m hm
              rw [hm] at hi
              simp only [firstThen] at hi
              split at h
              · simp at h
              · rw [hi] at h
                cases hx : interpText (rawStart cfg po pd r) t with
                | error e => rw [hx] at h; simp [withRest] at h
                | ok o =>
                  cases o with
                  | none => rw [hx] at h; simp [withRest] at h
                  | some m1 =>
                    rw [hx] at h
                    simp only [withRest] at h
                    have hmsg : interpMsg cfg po pd r = .ok (some { m1 with flags := m1.flags ||| 4 }) := by
                      unfold interpMsg
                      rw [show r.text = t from rfl, hx]
                    split at h
                    · simp at h
                    · cases hnx : nextHdr hdr rest with
                      | none => rw [hnx] at h; simp at h
                      | some h' =>
                        rw [hnx] at h
                        simp only at h
                        have hbytes : hdr ++ s = r.bytes ++ rest := by
                          rw [RawMsg.bytes_split, e1, ht]
                        have hh0 : hdr[0]! ≠ 0 := by
                          intro e
                          have hx1 : word hdr 0 = 2 := hw.1
                          unfold word at hx1
                          rw [e] at hx1
                          have : (rd16 0 hdr[0 + 1]!).toNat = 2 := by rw [hx1]; rfl
                          simp only [rd16, UInt16.toNat_ofNat'] at this
                          have hb := (hdr[0 + 1]!).toNat_lt
                          have h0 : (0 : UInt8).toNat = 0 := rfl
                          omega
                        have hl' : h'.length = 14 := by
                          unfold nextHdr at hnx
                          simp only at hnx
                          split at hnx
                          · split at hnx
                            · simp at hnx
                            · simp only [Option.some.injEq] at hnx; subst hnx; simp
                          · simp only [Option.some.injEq] at hnx; subst hnx
                            simp [hl]; omega
                        -- the end of the packet, seen from the next header
                        have htail : word h' 0 = 0 → PktTail false rest := by
                          intro h0
                          unfold nextHdr at hnx
                          simp only at hnx
                          match rest, hnx with
                          | [], hnx =>
                            rw [if_pos (by simp), List.take_nil, List.nil_append, if_pos hh0] at hnx
                            simp at hnx
                          | [c], hnx =>
                            by_cases hc : c = 0
                            · subst hc; exact Or.inr ⟨rfl, rfl⟩
                            · simp [hc] at hnx
                          | a :: b :: q, hnx =>
                            left
                            rw [if_neg (by simp)] at hnx
                            simp only [Option.some.injEq] at hnx
                            subst hnx
                            simp only [List.take_succ_cons, List.cons_append, word] at h0
                            have h00 : (rd16 a b).toNat = 0 := by
                              have : rd16 a b = 0 := by simpa using h0
                              rw [this]; rfl
                            have ha := a.toNat_lt; have hb := b.toNat_lt
                            simp only [rd16, UInt16.toNat_ofNat'] at h00
                            refine ⟨q, ?_⟩
                            have : a = 0 ∧ b = 0 := by
                              constructor <;> (apply UInt8.toNat_inj.1; show _ = 0; omega)
                            rw [this.1, this.2]
                        rcases ih h' (rest.drop 14) (acc ++ [_]) hl' h with ⟨g1, g2⟩ | ⟨rs, tail, ms, g0, g1, g2, g3, g4, g5⟩
                        · exact ⟨[r], rest, [_], by simp, by simp [hbytes], by simpa using hr, htail g1,
                            by simp only [List.map_cons, List.map_nil, hmsg], g2⟩
                        · have hlen : 14 ≤ rest.length := by
                            cases rs with
                            | nil => exact absurd rfl g0
                            | cons r' rs' =>
                              have := congrArg List.length g1
                              have h19 := RawMsg.bytes_length r' (g2 r' (by simp))
                              simp [hl'] at this
                              omega
                          have hh' : h' ++ rest.drop 14 = rest := by
                            unfold nextHdr at hnx
                            simp only at hnx
                            rw [if_neg (by simp; omega)] at hnx
                            simp only [Option.some.injEq] at hnx
                            have : hdr.drop (rest.take 14).length = [] :=
                              List.drop_of_length_le (by simp [hl]; omega)
                            rw [this, List.append_nil] at hnx
                            rw [← hnx, List.take_append_drop]
                          rw [hh'] at g1
                          refine ⟨r :: rs, tail, _ :: ms, by simp, ?_, ?_, g3, ?_, by rw [g5]; simp; rfl⟩
                          · rw [hbytes, g1]; simp
                          · intro x hx
                            simp only [List.mem_cons] at hx
                            rcases hx with rfl | hx
                            · exact hr
                            · exact g2 x hx
                          · simp only [List.map_cons, hmsg, g4]
    · rw [if_neg hw] at h
      by_cases h0 : word hdr 0 ≠ 0
      · rw [if_pos h0] at h; simp at h
      · rw [if_neg h0] at h
        simp only [Except.ok.injEq, Option.some.injEq, Prod.mk.injEq, true_and] at h
        exact Or.inl ⟨by simpa using h0, h.symm⟩

end CM
