import Verif.Spec.Jam
import Verif.Lemmas.Bytes
/-! # Lemmas on JAM message bases -/

set_option linter.unusedSimpArgs false

namespace CM

/-! ## Numbers in buffers -/

theorem leVal_le32 (x : UInt32) : leVal (le32 x) = x.toNat := by
  have := x.toNat_lt
  simp only [le32, leVal, UInt8.toNat_ofNat']
  omega

theorem leVal_le16 (x : UInt16) : leVal (le16 x) = x.toNat := by
  have := x.toNat_lt
  simp only [le16, leVal, UInt8.toNat_ofNat']
  omega

theorem leVal_lt (d : Data) : leVal d < 256 ^ d.length := by
  induction d with
  | nil => simp [leVal]
  | cons b r ih =>
    have := b.toNat_lt
    simp only [leVal, List.length_cons, Nat.pow_succ]
    omega

theorem leVal_inj : ∀ (a b : Data), a.length = b.length → leVal a = leVal b → a = b
  | [], [], _, _ => rfl
  | x :: a, y :: b, hl, h => by
    have hx := x.toNat_lt; have hy := y.toNat_lt
    simp only [leVal] at h
    have e1 : x.toNat = y.toNat := by omega
    have e2 : leVal a = leVal b := by omega
    rw [UInt8.toNat_inj.1 e1, leVal_inj a b (by simpa using hl) e2]
  | [], _ :: _, h, _ => by simp at h
  | _ :: _, [], h, _ => by simp at h

theorem numAt_le32 {d : Data} {off : Nat} {x : UInt32} (hl : off + 4 ≤ d.length) : NumAt d off 4 x.toNat ↔ (d.drop off).take 4 = le32 x := by
  constructor
  · intro h
    apply leVal_inj
    · simp only [List.length_take, List.length_drop, le32_length]; omega
    · rw [h.2, leVal_le32]
  · intro h
    exact ⟨hl, by rw [h, leVal_le32]⟩

theorem numAt_le16 {d : Data} {off : Nat} {x : UInt16} (hl : off + 2 ≤ d.length) : NumAt d off 2 x.toNat ↔ (d.drop off).take 2 = le16 x := by
  constructor
  · intro h
    apply leVal_inj
    · simp only [List.length_take, List.length_drop, le16_length]; omega
    · rw [h.2, leVal_le16]
  · intro h
    exact ⟨hl, by rw [h, leVal_le16]⟩

theorem rd32L_take (d : Data) : rd32L (d.take 4) = rd32L d := by
  match d with
  | [] | [_] | [_, _] | [_, _, _] => rfl
  | _ :: _ :: _ :: _ :: _ => rfl

theorem get32_of {d : Data} {off : Nat} {x : UInt32} (h : NumAt d off 4 x.toNat) : get32 d off = x := by
  have := (numAt_le32 h.1).1 h
  rw [get32, ← rd32L_take, this]
  have := rd32L_le32 x []
  rwa [List.append_nil] at this

theorem get16_of {d : Data} {off : Nat} {x : UInt16} (h : NumAt d off 2 x.toNat) : get16 d off = x := by
  have e := (numAt_le16 h.1).1 h
  rw [get16]
  match hd : d.drop off with
  | [] => rw [hd] at e; simp [le16] at e
  | [_] => rw [hd] at e; simp [le16] at e
  | a :: b :: r =>
    rw [hd] at e
    simp only [List.take_succ_cons, List.take_zero, le16, List.cons.injEq, and_true] at e
    obtain ⟨rfl, rfl⟩ := e
    exact rd16_le16 x

theorem le32_get32 {d : Data} {off : Nat} (h : off + 4 ≤ d.length) : le32 (get32 d off) = (d.drop off).take 4 := by
  rw [get32]
  match hd : d.drop off with
  | [] | [_] | [_, _] | [_, _, _] =>
    have := congrArg List.length hd
    simp only [List.length_drop, List.length_cons, List.length_nil] at this; omega
  | a :: b :: c :: e :: r => exact le32_rd32 a b c e

theorem le16_get16 {d : Data} {off : Nat} (h : off + 2 ≤ d.length) : le16 (get16 d off) = (d.drop off).take 2 := by
  rw [get16]
  match hd : d.drop off with
  | [] | [_] =>
    have := congrArg List.length hd
    simp only [List.length_drop, List.length_cons, List.length_nil] at this; omega
  | a :: b :: r => exact le16_rd16 a b

theorem glue (d : Data) (off n m : Nat) (h : off + n = m) : (d.drop off).take n ++ d.drop m = d.drop off := by
  subst h
  rw [← List.drop_drop]; exact List.take_append_drop _ _

/-! ## Writing a buffer from the beginning to the end -/

/-- The writes follow one another. -/
def Follow : Nat → List (Nat × Data) → Prop
  | _, [] => True
  | p, w :: ws => w.1 = p ∧ Follow (p + w.2.length) ws

theorem puts_follow : ∀ (ws : List (Nat × Data)) (pre rest : Data), Follow pre.length ws → (ws.flatMap (·.2)).length ≤ rest.length →
    puts (pre ++ rest) ws = pre ++ (ws.flatMap (·.2) ++ rest.drop (ws.flatMap (·.2)).length)
  | [], pre, rest, _, hl => by simp [puts]
  | w :: ws, pre, rest, h, hl => by
    obtain ⟨h1, h2⟩ := h
    simp only [List.flatMap_cons, List.length_append] at hl
    have e : overlay (pre ++ rest) w.1 w.2 = (pre ++ w.2) ++ rest.drop w.2.length := by
      simp only [overlay, h1, List.take_left, List.append_assoc]
      rw [← List.drop_drop, List.drop_left]
    have := puts_follow ws (pre ++ w.2) (rest.drop w.2.length) (by rw [List.length_append]; exact h2)
      (by rw [List.length_drop]; omega)
    rw [puts, List.foldl_cons, e]
    rw [puts] at this
    rw [this, List.drop_drop, List.flatMap_cons, List.length_append]
    simp only [List.append_assoc]

theorem puts_whole (ws : List (Nat × Data)) (junk : Data) (h : Follow 0 ws) (hl : (ws.flatMap (·.2)).length = junk.length) :
    puts junk ws = ws.flatMap (·.2) := by
  have := puts_follow ws [] junk h (by omega)
  rw [hl, List.drop_length] at this
  simpa using this

theorem JamBaseHdr.bytes_eq (junk : Data) (hj : junk.length = 1024) (h : JamBaseHdr) (hr : h.reserved.length = 1000) :
    h.bytes junk = le32 h.sig ++ (le32 h.created ++ (le32 h.modCounter ++ (le32 h.active ++ (le32 h.pwCrc ++ (le32 h.baseNum ++ h.reserved))))) := by
  rw [JamBaseHdr.bytes, puts_whole]
  · simp only [List.flatMap_cons, List.flatMap_nil, List.append_nil, List.append_assoc]
  · simp only [Follow, le32_length, le16_length, Nat.reduceAdd, and_self, true_and]
  · simp only [List.flatMap_cons, List.flatMap_nil, List.append_nil, List.length_append, le32_length, le16_length, hj, hr]

theorem JamBaseHdr.layout_bytes (junk : Data) (hj : junk.length = 1024) (h : JamBaseHdr) (hr : h.reserved.length = 1000) : BaseLayout (h.bytes junk) h := by
  rw [JamBaseHdr.bytes_eq junk hj h hr]
  have hl : (le32 h.sig ++ (le32 h.created ++ (le32 h.modCounter ++ (le32 h.active ++ (le32 h.pwCrc ++ (le32 h.baseNum ++ h.reserved)))))).length = 1024 := by
    simp only [List.length_append, le32_length, le16_length, hr]
  exact {
    size := hl
    sig := (numAt_le32 (by rw [hl]; decide)).2 rfl
    created := (numAt_le32 (by rw [hl]; decide)).2 rfl
    modCounter := (numAt_le32 (by rw [hl]; decide)).2 rfl
    active := (numAt_le32 (by rw [hl]; decide)).2 rfl
    pwCrc := (numAt_le32 (by rw [hl]; decide)).2 rfl
    baseNum := (numAt_le32 (by rw [hl]; decide)).2 rfl
    reserved := by
      show List.take 1000 h.reserved = _
      rw [List.take_of_length_le (by omega)]
  }

theorem BaseLayout.decode {d : Data} {h : JamBaseHdr} (hl : BaseLayout d h) : JamBaseHdr.ofBytes d = h := by
  simp only [JamBaseHdr.ofBytes, get32_of hl.sig, get32_of hl.created, get32_of hl.modCounter, get32_of hl.active, get32_of hl.pwCrc, get32_of hl.baseNum, hl.reserved]

theorem JamBaseHdr.bytes_ofBytes (junk d : Data) (hj : junk.length = 1024) (hd : d.length = 1024) : (JamBaseHdr.ofBytes d).bytes junk = d := by
  rw [JamBaseHdr.bytes_eq junk hj _ (by simp [JamBaseHdr.ofBytes, hd])]
  simp only [JamBaseHdr.ofBytes]
  rw [le32_get32 (d := d) (off := 0) (by omega), le32_get32 (d := d) (off := 4) (by omega), le32_get32 (d := d) (off := 8) (by omega), le32_get32 (d := d) (off := 12) (by omega), le32_get32 (d := d) (off := 16) (by omega), le32_get32 (d := d) (off := 20) (by omega)]
  rw [List.take_of_length_le (l := d.drop 24) (by simp; omega)]
  rw [glue d 20 4 24 rfl, glue d 16 4 20 rfl, glue d 12 4 16 rfl, glue d 8 4 12 rfl, glue d 4 4 8 rfl, glue d 0 4 4 rfl]
  rfl

theorem JamBaseHdr.layout_ofBytes (d : Data) (hd : d.length = 1024) : BaseLayout d (.ofBytes d) := by
  have := JamBaseHdr.layout_bytes (List.replicate 1024 0) List.length_replicate (.ofBytes d) (by simp [JamBaseHdr.ofBytes, hd])
  rwa [JamBaseHdr.bytes_ofBytes _ _ List.length_replicate hd] at this

theorem JamHdr.bytes_eq (junk : Data) (hj : junk.length = 76) (h : JamHdr) :
    h.bytes junk = le32 h.sig ++ (le16 h.revision ++ (le16 h.reserved ++ (le32 h.subLen ++ (le32 h.timesRead ++ (le32 h.msgIdCrc ++ (le32 h.replyCrc ++ (le32 h.replyTo ++ (le32 h.reply1st ++ (le32 h.replyNext ++ (le32 h.dateWritten ++ (le32 h.dateReceived ++ (le32 h.dateProcessed ++ (le32 h.msgNum ++ (le32 h.attr ++ (le32 h.attr2 ++ (le32 h.txtOffset ++ (le32 h.txtLen ++ (le32 h.pwCrc ++ (le32 h.cost))))))))))))))))))) := by
  rw [JamHdr.bytes, puts_whole]
  · simp only [List.flatMap_cons, List.flatMap_nil, List.append_nil, List.append_assoc]
  · simp only [Follow, le32_length, le16_length, Nat.reduceAdd, and_self, true_and]
  · simp only [List.flatMap_cons, List.flatMap_nil, List.append_nil, List.length_append, le32_length, le16_length, hj]

theorem JamHdr.layout_bytes (junk : Data) (hj : junk.length = 76) (h : JamHdr) : HdrLayout (h.bytes junk) h := by
  rw [JamHdr.bytes_eq junk hj h]
  have hl : (le32 h.sig ++ (le16 h.revision ++ (le16 h.reserved ++ (le32 h.subLen ++ (le32 h.timesRead ++ (le32 h.msgIdCrc ++ (le32 h.replyCrc ++ (le32 h.replyTo ++ (le32 h.reply1st ++ (le32 h.replyNext ++ (le32 h.dateWritten ++ (le32 h.dateReceived ++ (le32 h.dateProcessed ++ (le32 h.msgNum ++ (le32 h.attr ++ (le32 h.attr2 ++ (le32 h.txtOffset ++ (le32 h.txtLen ++ (le32 h.pwCrc ++ (le32 h.cost)))))))))))))))))))).length = 76 := by
    simp only [List.length_append, le32_length, le16_length]
  exact {
    size := hl
    sig := (numAt_le32 (by rw [hl]; decide)).2 rfl
    revision := (numAt_le16 (by rw [hl]; decide)).2 rfl
    reserved := (numAt_le16 (by rw [hl]; decide)).2 rfl
    subLen := (numAt_le32 (by rw [hl]; decide)).2 rfl
    timesRead := (numAt_le32 (by rw [hl]; decide)).2 rfl
    msgIdCrc := (numAt_le32 (by rw [hl]; decide)).2 rfl
    replyCrc := (numAt_le32 (by rw [hl]; decide)).2 rfl
    replyTo := (numAt_le32 (by rw [hl]; decide)).2 rfl
    reply1st := (numAt_le32 (by rw [hl]; decide)).2 rfl
    replyNext := (numAt_le32 (by rw [hl]; decide)).2 rfl
    dateWritten := (numAt_le32 (by rw [hl]; decide)).2 rfl
    dateReceived := (numAt_le32 (by rw [hl]; decide)).2 rfl
    dateProcessed := (numAt_le32 (by rw [hl]; decide)).2 rfl
    msgNum := (numAt_le32 (by rw [hl]; decide)).2 rfl
    attr := (numAt_le32 (by rw [hl]; decide)).2 rfl
    attr2 := (numAt_le32 (by rw [hl]; decide)).2 rfl
    txtOffset := (numAt_le32 (by rw [hl]; decide)).2 rfl
    txtLen := (numAt_le32 (by rw [hl]; decide)).2 rfl
    pwCrc := (numAt_le32 (by rw [hl]; decide)).2 rfl
    cost := (numAt_le32 (by rw [hl]; decide)).2 rfl
  }

theorem HdrLayout.decode {d : Data} {h : JamHdr} (hl : HdrLayout d h) : JamHdr.ofBytes d = h := by
  simp only [JamHdr.ofBytes, get32_of hl.sig, get16_of hl.revision, get16_of hl.reserved, get32_of hl.subLen, get32_of hl.timesRead, get32_of hl.msgIdCrc, get32_of hl.replyCrc, get32_of hl.replyTo, get32_of hl.reply1st, get32_of hl.replyNext, get32_of hl.dateWritten, get32_of hl.dateReceived, get32_of hl.dateProcessed, get32_of hl.msgNum, get32_of hl.attr, get32_of hl.attr2, get32_of hl.txtOffset, get32_of hl.txtLen, get32_of hl.pwCrc, get32_of hl.cost]

theorem JamHdr.bytes_ofBytes (junk d : Data) (hj : junk.length = 76) (hd : d.length = 76) : (JamHdr.ofBytes d).bytes junk = d := by
  rw [JamHdr.bytes_eq junk hj]
  simp only [JamHdr.ofBytes]
  rw [le32_get32 (d := d) (off := 0) (by omega), le16_get16 (d := d) (off := 4) (by omega), le16_get16 (d := d) (off := 6) (by omega), le32_get32 (d := d) (off := 8) (by omega), le32_get32 (d := d) (off := 12) (by omega), le32_get32 (d := d) (off := 16) (by omega), le32_get32 (d := d) (off := 20) (by omega), le32_get32 (d := d) (off := 24) (by omega), le32_get32 (d := d) (off := 28) (by omega), le32_get32 (d := d) (off := 32) (by omega), le32_get32 (d := d) (off := 36) (by omega), le32_get32 (d := d) (off := 40) (by omega), le32_get32 (d := d) (off := 44) (by omega), le32_get32 (d := d) (off := 48) (by omega), le32_get32 (d := d) (off := 52) (by omega), le32_get32 (d := d) (off := 56) (by omega), le32_get32 (d := d) (off := 60) (by omega), le32_get32 (d := d) (off := 64) (by omega), le32_get32 (d := d) (off := 68) (by omega), le32_get32 (d := d) (off := 72) (by omega)]
  rw [List.take_of_length_le (l := d.drop 72) (by simp; omega)]
  rw [glue d 68 4 72 rfl, glue d 64 4 68 rfl, glue d 60 4 64 rfl, glue d 56 4 60 rfl, glue d 52 4 56 rfl, glue d 48 4 52 rfl, glue d 44 4 48 rfl, glue d 40 4 44 rfl, glue d 36 4 40 rfl, glue d 32 4 36 rfl, glue d 28 4 32 rfl, glue d 24 4 28 rfl, glue d 20 4 24 rfl, glue d 16 4 20 rfl, glue d 12 4 16 rfl, glue d 8 4 12 rfl, glue d 6 2 8 rfl, glue d 4 2 6 rfl, glue d 0 4 4 rfl]
  rfl

theorem JamHdr.layout_ofBytes (d : Data) (hd : d.length = 76) : HdrLayout d (.ofBytes d) := by
  have := JamHdr.layout_bytes (List.replicate 76 0) (by simp) (.ofBytes d)
  rwa [JamHdr.bytes_ofBytes _ _ (by simp) hd] at this

theorem JamIdx.bytes_eq (junk : Data) (hj : junk.length = 8) (h : JamIdx) :
    h.bytes junk = le32 h.userCrc ++ (le32 h.hdrOffset) := by
  rw [JamIdx.bytes, puts_whole]
  · simp only [List.flatMap_cons, List.flatMap_nil, List.append_nil, List.append_assoc]
  · simp only [Follow, le32_length, le16_length, Nat.reduceAdd, and_self, true_and]
  · simp only [List.flatMap_cons, List.flatMap_nil, List.append_nil, List.length_append, le32_length, le16_length, hj]

theorem JamIdx.layout_bytes (junk : Data) (hj : junk.length = 8) (h : JamIdx) : IdxLayout (h.bytes junk) h := by
  rw [JamIdx.bytes_eq junk hj h]
  have hl : (le32 h.userCrc ++ (le32 h.hdrOffset)).length = 8 := by
    simp only [List.length_append, le32_length, le16_length]
  exact {
    size := hl
    userCrc := (numAt_le32 (by rw [hl]; decide)).2 rfl
    hdrOffset := (numAt_le32 (by rw [hl]; decide)).2 rfl
  }

theorem IdxLayout.decode {d : Data} {h : JamIdx} (hl : IdxLayout d h) : JamIdx.ofBytes d = h := by
  simp only [JamIdx.ofBytes, get32_of hl.userCrc, get32_of hl.hdrOffset]

theorem JamIdx.bytes_ofBytes (junk d : Data) (hj : junk.length = 8) (hd : d.length = 8) : (JamIdx.ofBytes d).bytes junk = d := by
  rw [JamIdx.bytes_eq junk hj]
  simp only [JamIdx.ofBytes]
  rw [le32_get32 (d := d) (off := 0) (by omega), le32_get32 (d := d) (off := 4) (by omega)]
  rw [List.take_of_length_le (l := d.drop 4) (by simp; omega)]
  rw [glue d 0 4 4 rfl]
  rfl

theorem JamIdx.layout_ofBytes (d : Data) (hd : d.length = 8) : IdxLayout d (.ofBytes d) := by
  have := JamIdx.layout_bytes (List.replicate 8 0) (by simp) (.ofBytes d)
  rwa [JamIdx.bytes_ofBytes _ _ (by simp) hd] at this

theorem JamLast.bytes_eq (junk : Data) (hj : junk.length = 16) (h : JamLast) :
    h.bytes junk = le32 h.userCrc ++ (le32 h.userId ++ (le32 h.lastRead ++ (le32 h.highRead))) := by
  rw [JamLast.bytes, puts_whole]
  · simp only [List.flatMap_cons, List.flatMap_nil, List.append_nil, List.append_assoc]
  · simp only [Follow, le32_length, le16_length, Nat.reduceAdd, and_self, true_and]
  · simp only [List.flatMap_cons, List.flatMap_nil, List.append_nil, List.length_append, le32_length, le16_length, hj]

theorem JamLast.layout_bytes (junk : Data) (hj : junk.length = 16) (h : JamLast) : LastLayout (h.bytes junk) h := by
  rw [JamLast.bytes_eq junk hj h]
  have hl : (le32 h.userCrc ++ (le32 h.userId ++ (le32 h.lastRead ++ (le32 h.highRead)))).length = 16 := by
    simp only [List.length_append, le32_length, le16_length]
  exact {
    size := hl
    userCrc := (numAt_le32 (by rw [hl]; decide)).2 rfl
    userId := (numAt_le32 (by rw [hl]; decide)).2 rfl
    lastRead := (numAt_le32 (by rw [hl]; decide)).2 rfl
    highRead := (numAt_le32 (by rw [hl]; decide)).2 rfl
  }

theorem LastLayout.decode {d : Data} {h : JamLast} (hl : LastLayout d h) : JamLast.ofBytes d = h := by
  simp only [JamLast.ofBytes, get32_of hl.userCrc, get32_of hl.userId, get32_of hl.lastRead, get32_of hl.highRead]

theorem JamLast.bytes_ofBytes (junk d : Data) (hj : junk.length = 16) (hd : d.length = 16) : (JamLast.ofBytes d).bytes junk = d := by
  rw [JamLast.bytes_eq junk hj]
  simp only [JamLast.ofBytes]
  rw [le32_get32 (d := d) (off := 0) (by omega), le32_get32 (d := d) (off := 4) (by omega), le32_get32 (d := d) (off := 8) (by omega), le32_get32 (d := d) (off := 12) (by omega)]
  rw [List.take_of_length_le (l := d.drop 12) (by simp; omega)]
  rw [glue d 8 4 12 rfl, glue d 4 4 8 rfl, glue d 0 4 4 rfl]
  rfl

theorem JamLast.layout_ofBytes (d : Data) (hd : d.length = 16) : LastLayout d (.ofBytes d) := by
  have := JamLast.layout_bytes (List.replicate 16 0) (by simp) (.ofBytes d)
  rwa [JamLast.bytes_ofBytes _ _ (by simp) hd] at this

/-! ## Parts of a file -/

theorem slice_ext {f g : Data} {a n : Nat} (h : ∀ k, a ≤ k → k < a + n → f[k]? = g[k]?) : (f.drop a).take n = (g.drop a).take n := by
  apply List.ext_getElem?
  intro k
  simp only [List.getElem?_take, List.getElem?_drop]
  by_cases hk : k < n
  · rw [if_pos hk, if_pos hk]; exact h _ (by omega) (by omega)
  · rw [if_neg hk, if_neg hk]

theorem overlay_get {o d : Data} {p : Nat} (hp : p ≤ o.length) (k : Nat) :
    (overlay o p d)[k]? = if k < p then o[k]? else if k < p + d.length then d[k - p]? else o[k]? := by
  simp only [overlay, List.append_assoc]
  by_cases h1 : k < p
  · rw [if_pos h1, List.getElem?_append_left (by simp; omega), List.getElem?_take, if_pos h1]
  · rw [if_neg h1, List.getElem?_append_right (by simp; omega), List.length_take, Nat.min_eq_left hp]
    by_cases h2 : k < p + d.length
    · rw [if_pos h2, List.getElem?_append_left (by omega)]
    · rw [if_neg h2, List.getElem?_append_right (by omega), List.getElem?_drop]
      congr 1; omega

theorem overlay_length {o d : Data} {p : Nat} (h : p + d.length ≤ o.length) : (overlay o p d).length = o.length := by
  simp only [overlay, List.length_append, List.length_take, List.length_drop]; omega

theorem overlay_slice {o d : Data} {p : Nat} (h : p + d.length ≤ o.length) : ((overlay o p d).drop p).take d.length = d := by
  apply List.ext_getElem?
  intro k
  simp only [List.getElem?_take, List.getElem?_drop, overlay_get (show p ≤ o.length by omega)]
  by_cases hk : k < d.length
  · rw [if_pos hk, if_neg (by omega), if_pos (by omega)]; congr 1; omega
  · rw [if_neg hk, List.getElem?_eq_none (by omega)]

theorem NumAt.frame {d d' : Data} {off n v : Nat} (h : NumAt d off n v) (hd : ∀ k, off ≤ k → k < off + n → d'[k]? = d[k]?)
    (hl : d.length ≤ d'.length) : NumAt d' off n v :=
  ⟨Nat.le_trans h.1 hl, by rw [slice_ext hd]; exact h.2⟩

theorem NumAt.slice {d : Data} {a n off k v : Nat} (h : NumAt d (a + off) k v) (hk : off + k ≤ n) (hl : a + n ≤ d.length) :
    NumAt ((d.drop a).take n) off k v := by
  refine ⟨by simp only [List.length_take, List.length_drop]; omega, ?_⟩
  rw [← h.2, List.drop_take, List.take_take, List.drop_drop, Nat.min_eq_left (by omega)]

theorem NumAt.unslice {d : Data} {a n off k v : Nat} (h : NumAt ((d.drop a).take n) off k v) (hk : off + k ≤ n) (hl : a + n ≤ d.length) :
    NumAt d (a + off) k v := by
  refine ⟨by omega, ?_⟩
  rw [← h.2, List.drop_take, List.take_take, List.drop_drop, Nat.min_eq_left (by omega)]

theorem freadAt_ok {f : Data} {p n : Nat} (h : p + n ≤ f.length) : freadAt f p n = .ok ((f.drop p).take n) := if_pos h

/-! ## Subfields -/

theorem JamSub.bytes_eq (junk : Data) (hj : junk.length = 16) (s : JamSub) :
    s.bytes junk = le16 s.loId ++ (le16 s.hiId ++ le32 (UInt32.ofNat s.data.length)) ++ s.data := by
  have h := puts_follow [(0, le16 s.loId), (2, le16 s.hiId), (4, le32 (UInt32.ofNat s.data.length))] [] junk
    (by simp only [Follow, le32_length, le16_length, List.length_nil, Nat.reduceAdd, and_self]) (by simp [hj])
  simp only [List.nil_append] at h
  rw [JamSub.bytes, h, List.take_left' (by simp)]
  simp only [List.flatMap_cons, List.flatMap_nil, List.append_nil, List.append_assoc]

theorem SubsLayout.bytes (junk : Data) (hj : junk.length = 16) : ∀ (subs : List JamSub), (∀ s ∈ subs, s.data.length < 2 ^ 32) →
    SubsLayout (subs.flatMap (JamSub.bytes junk)) subs
  | [], _ => rfl
  | s :: t, h => by
    have hs : (UInt32.ofNat s.data.length).toNat = s.data.length := by
      have := h s (List.mem_cons_self ..)
      simp only [UInt32.toNat_ofNat']; omega
    refine ⟨le16 s.loId ++ (le16 s.hiId ++ le32 (UInt32.ofNat s.data.length)), t.flatMap (JamSub.bytes junk), ?_, by simp, ?_, ?_, ?_,
      SubsLayout.bytes junk hj t fun x hx => h x (List.mem_cons_of_mem _ hx)⟩
    · rw [List.flatMap_cons, JamSub.bytes_eq junk hj]
    · exact (numAt_le16 (by simp)).2 rfl
    · exact (numAt_le16 (by simp)).2 rfl
    · have := (numAt_le32 (d := le16 s.loId ++ (le16 s.hiId ++ le32 (UInt32.ofNat s.data.length))) (off := 4)
        (x := UInt32.ofNat s.data.length) (by simp)).2 rfl
      rwa [hs] at this

theorem SubsLayout.length : ∀ {subs : List JamSub} {d : Data}, SubsLayout d subs → d.length = subBytes subs
  | [], d, h => by
    have : d = [] := h
    simp [this, subBytes]
  | s :: t, d, ⟨hd, rest, e, hl, _, _, _, hr⟩ => by
    have := hr.length
    simp only [subBytes, List.map_cons, List.sum_cons] at this ⊢
    simp only [e, List.length_append]; omega

theorem jamParse_layout : ∀ {subs : List JamSub} {d : Data}, SubsLayout d subs → d.length < 2 ^ 32 → jamParse d = .ok (.ok subs)
  | [], d, h, _ => by
    have : d = [] := h
    rw [this, jamParse]; simp
  | s :: t, d, ⟨hd, rest, e, hl, h1, h2, h3, hr⟩, hlen => by
    have hlen' : d.length = 8 + s.data.length + rest.length := by rw [e]; simp only [List.length_append]; omega
    have hne : d ≠ [] := by intro h; rw [h, List.length_nil] at hlen'; omega
    have fr : ∀ {off n v}, off + n ≤ 8 → NumAt hd off n v → NumAt d off n v := fun hb hn => by
      refine hn.frame (fun k _ hk => ?_) (by omega)
      rw [e, List.append_assoc, List.getElem?_append_left (by omega)]
    have g4 : (get32 d 4).toNat = s.data.length := by
      have e32 : (UInt32.ofNat s.data.length).toNat = s.data.length := by
        simp only [UInt32.toNat_ofNat']; omega
      have h3' := fr (by omega) h3
      rw [← e32] at h3'
      rw [get32_of h3', e32]
    rw [jamParse, if_neg hne, if_neg (by omega)]
    simp only [g4]
    rw [if_neg (by omega)]
    have hdrop : d.drop (8 + s.data.length) = rest := by
      rw [e, List.drop_left' (by simp [hl])]
    have hdat : (d.drop 8).take s.data.length = s.data := by
      rw [e, List.append_assoc, List.drop_left' hl, List.take_left' rfl]
    rw [hdrop, jamParse_layout hr (by omega), hdat, get16_of (fr (by omega) h1), get16_of (fr (by omega) h2)]
    rfl

theorem jamSubSize_eq (subs : List JamSub) : jamSubSize subs = UInt32.ofNat (subBytes subs) := by
  have : ∀ (l : List JamSub) (t : UInt32) (n : Nat), t = UInt32.ofNat n →
      l.foldl (fun t s => t + (8 + UInt32.ofNat s.data.length)) t = UInt32.ofNat (n + subBytes l) := by
    intro l
    induction l with
    | nil => intro t n h; simpa [subBytes] using h
    | cons s l ih =>
      intro t n h
      rw [List.foldl_cons, ih _ (n + (8 + s.data.length))]
      · simp only [subBytes, List.map_cons, List.sum_cons]; congr 1; omega
      · rw [h, UInt32.ofNat_add, UInt32.ofNat_add]; rfl
  have h := this subs 0 0 rfl
  rw [Nat.zero_add] at h
  exact h

theorem subBytes_mem {subs : List JamSub} {s : JamSub} (h : s ∈ subs) : s.data.length ≤ subBytes subs := by
  induction subs with
  | nil => cases h
  | cons x t ih =>
    simp only [subBytes, List.map_cons, List.sum_cons] at ih ⊢
    rcases List.mem_cons.1 h with rfl | h
    · omega
    · have := ih h; omega

/-! ## Checksum and names -/

theorem crc32tab_length : crc32tab.length = 256 := by decide +kernel

theorem jamCrc32_unsigned : ∀ (s : Data) (c : UInt32), ∃ x, jamCrc32 false s c = .ok x
  | [], c => ⟨c, rfl⟩
  | a :: s, c => by
    have hl : (c.toUInt8 ^^^ lower a).toNat < crc32tab.length := by
      rw [crc32tab_length]; exact UInt8.toNat_lt _
    obtain ⟨x, hx⟩ := jamCrc32_unsigned s ((c >>> 8) ^^^ crc32tab[(c.toUInt8 ^^^ lower a).toNat])
    refine ⟨x, ?_⟩
    rw [jamCrc32]
    simp only [charXor, Bool.false_and, Bool.false_eq_true, if_false]
    rw [List.getElem?_eq_getElem hl]
    exact hx

theorem jamUser_ok : ∀ (subs : List JamSub) (u : Data), (∀ s ∈ subs, s.loId = 3 → s.data.length ≤ 100) → ∃ x, jamUser subs u = .ok x
  | [], u, _ => ⟨u, rfl⟩
  | s :: t, u, h => by
    have ht := fun x hx => h x (List.mem_cons_of_mem _ hx)
    rw [jamUser]
    by_cases h3 : s.loId = 3
    · rw [if_pos h3, if_neg (by have := h s (List.mem_cons_self ..) h3; omega)]
      exact jamUser_ok t _ ht
    · rw [if_neg h3]; exact jamUser_ok t _ ht

theorem jamUser_none : ∀ (subs : List JamSub), (∀ s ∈ subs, s.loId = 3 → s.data.length ≤ 100 ∧ cstr s.data = []) → jamUser subs [] = .ok []
  | [], _ => rfl
  | s :: t, h => by
    have ht := fun x hx => h x (List.mem_cons_of_mem _ hx)
    rw [jamUser]
    by_cases h3 : s.loId = 3
    · obtain ⟨a, b⟩ := h s (List.mem_cons_self ..) h3
      rw [if_pos h3, if_neg (by omega), b]
      exact jamUser_none t ht
    · rw [if_neg h3]; exact jamUser_none t ht

end CM
