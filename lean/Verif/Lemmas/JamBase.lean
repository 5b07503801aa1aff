import Verif.Lemmas.Jam
/-! # Operations on a JAM base -/

set_option linter.unusedSimpArgs false

namespace CM

/-! ## Counting -/

/-- What a slot adds to the number of messages. -/
def slotCount (o : Option JamMsg) : Nat := if o.any (fun m => !m.dead) then 1 else 0

theorem jamActive_cons (o : Option JamMsg) (ms : List (Option JamMsg)) : jamActive (o :: ms) = slotCount o + jamActive ms := by
  simp only [jamActive, slotCount, List.filter_cons]
  split <;> simp <;> omega

theorem jamActive_append (ms : List (Option JamMsg)) (o : Option JamMsg) : jamActive (ms ++ [o]) = jamActive ms + slotCount o := by
  induction ms with
  | nil =>
    show jamActive [o] = jamActive [] + _
    rw [jamActive_cons, Nat.add_comm]
  | cons x t ih => rw [List.cons_append, jamActive_cons, jamActive_cons, ih]; omega

theorem jamActive_set {ms : List (Option JamMsg)} {i : Nat} {o : Option JamMsg} (h : ms[i]? = some o) (o' : Option JamMsg) :
    jamActive (ms.set i o') + slotCount o = jamActive ms + slotCount o' := by
  induction ms generalizing i with
  | nil => simp at h
  | cons x t ih =>
    cases i with
    | zero =>
      simp only [List.getElem?_cons_zero, Option.some.injEq] at h
      subst h
      rw [List.set_cons_zero, jamActive_cons, jamActive_cons]; omega
    | succ i =>
      rw [List.getElem?_cons_succ] at h
      have := ih h
      rw [List.set_cons_succ, jamActive_cons, jamActive_cons]; omega

theorem jamActive_le (ms : List (Option JamMsg)) : jamActive ms ≤ ms.length := List.length_filter_le _ _

theorem jamDeleted_iff (a : UInt32) : jamDeleted a = decide (2 ^ 31 ≤ a.toNat) := by
  have hlt := a.toNat_lt
  have h1 : (a &&& 0x80000000 = 0) ↔ a.toNat &&& 2 ^ 31 = 0 := by rw [← UInt32.toNat_inj, UInt32.toNat_and]; exact Iff.rfl
  rw [nat_bit] at h1
  rw [jamDeleted]
  by_cases h : 2 ^ 31 ≤ a.toNat
  · rw [decide_eq_true h, bne_iff_ne, ne_eq, h1]; omega
  · rw [decide_eq_false h, bne_eq_false_iff_eq, h1]; omega

theorem slotCount_some (m : JamMsg) : slotCount (some m) = if 2 ^ 31 ≤ m.hdr.attr.toNat then 0 else 1 := by
  simp only [slotCount, Option.any_some, JamMsg.dead]
  by_cases h : 2 ^ 31 ≤ m.hdr.attr.toNat <;> simp [h]

theorem dead_or (a : UInt32) : 2 ^ 31 ≤ (a ||| 0x80000000).toNat := by
  rw [UInt32.toNat_or]; exact Nat.right_le_or

/-! ## Messages that are not touched -/

theorem MsgAt.frame {b b' : JamBase} {off : Nat} {m : JamMsg} (h : MsgAt b off m) (hl : b.hdr.length ≤ b'.hdr.length)
    (hh : ∀ k, off ≤ k → k < off + m.size → b'.hdr[k]? = b.hdr[k]?) (ht : ∃ t, b'.txt = b.txt ++ t) : MsgAt b' off m := by
  obtain ⟨t, ht⟩ := ht
  have hs : m.size = 76 + subBytes m.subs := rfl
  refine { lo := h.lo, hi := Nat.le_trans h.hi hl, small := h.small, hdr := ?_, subs := ?_, subLen := h.subLen, subMax := h.subMax,
           txtLen := h.txtLen, text := ?_ }
  · rw [slice_ext fun k h1 h2 => hh k h1 (by omega)]; exact h.hdr
  · rw [slice_ext fun k h1 h2 => hh k (by omega) (by omega)]; exact h.subs
  · rcases h.text with e | ⟨e1, e2⟩
    · exact .inl e
    · refine .inr ⟨by rw [ht, List.length_append]; omega, ?_⟩
      rw [← e2, ht]
      have hlen : (List.take m.text.length (List.drop m.hdr.txtOffset.toNat b.txt)).length = m.text.length := by
        simp only [List.length_take, List.length_drop]; omega
      rw [hlen]
      refine slice_ext fun k h1 h2 => ?_
      rw [List.getElem?_append_left (by omega)]

/-! ## Reading -/

theorem HoldsAt.readBase {b : JamBase} {start : UInt32} {ms : List (Option JamMsg)} {off : Nat → Nat} (h : HoldsAt b start ms off) :
    ∃ H, jamReadBase b = .ok H ∧ H.baseNum = start ∧ H.active.toNat = jamActive ms ∧ H.reserved.length = 1000 ∧ 1024 ≤ b.hdr.length := by
  obtain ⟨H, h1, h2, h3⟩ := h.base
  have hl : 1024 ≤ b.hdr.length := by have := h1.size; simp only [List.length_take] at this; omega
  refine ⟨H, ?_, h2, h3, ?_, hl⟩
  · rw [jamReadBase, freadAt_ok (by omega), List.drop_zero]
    show Except.ok _ = _
    rw [h1.decode]
  · rw [← h1.reserved, List.length_take, List.length_drop, h1.size]; rfl

theorem HoldsAt.readIdx {b : JamBase} {start : UInt32} {ms : List (Option JamMsg)} {off : Nat → Nat} (h : HoldsAt b start ms off)
    {n : UInt32} {m : JamMsg} (hm : ms[n.toNat]? = some (some m)) :
    ∃ i, jamReadIdx b n = .ok i ∧ i.hdrOffset.toNat = off n.toNat ∧ i.gone = false := by
  have hn : n.toNat < ms.length := (List.getElem?_eq_some_iff.1 hm).1
  have hi : n.toNat * 8 + 8 ≤ b.idx.length := by rw [h.len]; omega
  obtain ⟨h1, h2⟩ := h.there _ _ hm
  have hs := h2.small
  have e : (UInt32.ofNat (off n.toNat)).toNat = off n.toNat := by simp only [UInt32.toNat_ofNat']; omega
  have hN : NumAt ((b.idx.drop (n.toNat * 8)).take 8) 4 4 (UInt32.ofNat (off n.toNat)).toNat := by
    rw [e]
    refine NumAt.slice ?_ (by omega) hi
    rwa [Nat.mul_comm]
  refine ⟨.ofBytes ((b.idx.drop (n.toNat * 8)).take 8), by rw [jamReadIdx, freadAt_ok hi]; rfl, ?_, ?_⟩
  · rw [JamIdx.ofBytes, get32_of hN, e]
  · rw [JamIdx.gone, JamIdx.ofBytes, get32_of hN]
    have : (UInt32.ofNat (off n.toNat) == 0xffffffff) = false := by
      rw [beq_eq_false_iff_ne]
      intro h0
      rw [h0] at e
      have : off n.toNat = 2 ^ 32 - 1 := e.symm
      omega
    rw [this]; rfl

theorem HoldsAt.readGone {b : JamBase} {start : UInt32} {ms : List (Option JamMsg)} {off : Nat → Nat} (h : HoldsAt b start ms off)
    {n : UInt32} (hm : ms[n.toNat]? = some none) : ∃ i, jamReadIdx b n = .ok i ∧ i.gone = true := by
  have hn : n.toNat < ms.length := (List.getElem?_eq_some_iff.1 hm).1
  have hi : n.toNat * 8 + 8 ≤ b.idx.length := by rw [h.len]; omega
  obtain ⟨h1, h2⟩ := h.gone _ hm
  have hN : NumAt ((b.idx.drop (n.toNat * 8)).take 8) 4 4 (0xffffffff : UInt32).toNat :=
    NumAt.slice (by rwa [Nat.mul_comm]) (by omega) hi
  have hN0 : NumAt ((b.idx.drop (n.toNat * 8)).take 8) 0 4 (0xffffffff : UInt32).toNat :=
    NumAt.slice (by rwa [Nat.mul_comm]) (by omega) hi
  refine ⟨.ofBytes ((b.idx.drop (n.toNat * 8)).take 8), by rw [jamReadIdx, freadAt_ok hi]; rfl, ?_⟩
  rw [JamIdx.gone, JamIdx.ofBytes, get32_of hN, get32_of hN0]; rfl

theorem HoldsAt.readNone {b : JamBase} {start : UInt32} {ms : List (Option JamMsg)} {off : Nat → Nat} (h : HoldsAt b start ms off)
    {n : UInt32} (hm : ms[n.toNat]? = none) : jamReadIdx b n = .error .io := by
  have hn : ms.length ≤ n.toNat := List.getElem?_eq_none_iff.1 hm
  rw [jamReadIdx, freadAt, if_neg (by rw [h.len]; omega)]; rfl

theorem MsgAt.readHdr {b : JamBase} {off : Nat} {m : JamMsg} (h : MsgAt b off m) :
    freadAt b.hdr off 76 = .ok ((b.hdr.drop off).take 76) ∧ JamHdr.ofBytes ((b.hdr.drop off).take 76) = m.hdr :=
  ⟨freadAt_ok (by have := h.hi; simp only [JamMsg.size] at this; omega), h.hdr.decode⟩

/-! ## Writing the header of the base -/

theorem jamWriteBase_ok (e : JamEnv) {b : JamBase} (hb : b.locked = true) (h : JamBaseHdr) (hr : h.reserved.length = 1000) (hl : 1024 ≤ b.hdr.length) :
    ∃ b', jamWriteBase e b h = .ok b' ∧ b'.txt = b.txt ∧ b'.idx = b.idx ∧ b'.lrd = b.lrd ∧ b'.locked = true ∧ b'.hdr.length = b.hdr.length ∧
      (∀ k, 1024 ≤ k → b'.hdr[k]? = b.hdr[k]?) ∧
      BaseLayout (b'.hdr.take 1024) { h with sig := jamSig, modCounter := h.modCounter + 1 } := by
  have hB := JamBaseHdr.layout_bytes (e.junk 1024) (e.size _) { h with sig := jamSig, modCounter := h.modCounter + 1 } hr
  refine ⟨_, if_pos hb, rfl, rfl, rfl, hb, overlay_length (by rw [hB.size]; omega), fun k hk => ?_, ?_⟩
  · rw [overlay_get (by omega), if_neg (by omega), if_neg (by rw [hB.size]; omega)]
  · have := overlay_slice (o := b.hdr) (p := 0) (d := JamBaseHdr.bytes (e.junk 1024) { h with sig := jamSig, modCounter := h.modCounter + 1 })
      (by rw [hB.size]; omega)
    rw [hB.size, List.drop_zero] at this
    rw [this]; exact hB

end CM
