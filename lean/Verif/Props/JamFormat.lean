import Verif.Props.Jam
/-! # The format of JAM message bases -/

set_option linter.unusedSimpArgs false

namespace CM

/-! ## Structures -/

/-- What is written for the header of a base is its layout, whatever the buffer held before. -/
theorem jam_base_written (junk d : Data) (hj : junk.length = 1024) (h : JamBaseHdr) (hr : h.reserved.length = 1000) :
    d = h.bytes junk ↔ BaseLayout d h :=
  ⟨fun e => e ▸ JamBaseHdr.layout_bytes junk hj h hr, fun hl => by rw [← hl.decode, JamBaseHdr.bytes_ofBytes junk d hj hl.size]⟩

/-- What is read is what the layout says. -/
theorem jam_base_read (d : Data) (hd : d.length = 1024) (h : JamBaseHdr) : JamBaseHdr.ofBytes d = h ↔ BaseLayout d h :=
  ⟨fun e => e ▸ JamBaseHdr.layout_ofBytes d hd, fun hl => hl.decode⟩

theorem jam_header_written (junk d : Data) (hj : junk.length = 76) (h : JamHdr) : d = h.bytes junk ↔ HdrLayout d h :=
  ⟨fun e => e ▸ JamHdr.layout_bytes junk hj h, fun hl => by rw [← hl.decode, JamHdr.bytes_ofBytes junk d hj hl.size]⟩

theorem jam_header_read (d : Data) (hd : d.length = 76) (h : JamHdr) : JamHdr.ofBytes d = h ↔ HdrLayout d h :=
  ⟨fun e => e ▸ JamHdr.layout_ofBytes d hd, fun hl => hl.decode⟩

theorem jam_index_written (junk d : Data) (hj : junk.length = 8) (h : JamIdx) : d = h.bytes junk ↔ IdxLayout d h :=
  ⟨fun e => e ▸ JamIdx.layout_bytes junk hj h, fun hl => by rw [← hl.decode, JamIdx.bytes_ofBytes junk d hj hl.size]⟩

theorem jam_index_read (d : Data) (hd : d.length = 8) (h : JamIdx) : JamIdx.ofBytes d = h ↔ IdxLayout d h :=
  ⟨fun e => e ▸ JamIdx.layout_ofBytes d hd, fun hl => hl.decode⟩

theorem jam_lastread_written (junk d : Data) (hj : junk.length = 16) (h : JamLast) : d = h.bytes junk ↔ LastLayout d h :=
  ⟨fun e => e ▸ JamLast.layout_bytes junk hj h, fun hl => by rw [← hl.decode, JamLast.bytes_ofBytes junk d hj hl.size]⟩

theorem jam_lastread_read (d : Data) (hd : d.length = 16) (h : JamLast) : JamLast.ofBytes d = h ↔ LastLayout d h :=
  ⟨fun e => e ▸ JamLast.layout_ofBytes d hd, fun hl => hl.decode⟩

theorem SubsLayout.unique : ∀ {subs : List JamSub} {d d' : Data}, SubsLayout d subs → SubsLayout d' subs → d = d'
  | [], d, d', h, h' => by rw [show d = [] from h, show d' = [] from h']
  | s :: t, d, d', ⟨hd, rest, e, hl, h1, h2, h3, hr⟩, ⟨hd', rest', e', hl', h1', h2', h3', hr'⟩ => by
    rw [e, e', hr.unique hr']
    have e32 : (hd.drop 4).take 4 = (hd'.drop 4).take 4 :=
      leVal_inj _ _ (by simp [hl, hl']) (h3.2.trans h3'.2.symm)
    have e1 := leVal_inj _ _ (by simp [hl, hl']) (h1.2.trans h1'.2.symm)
    have e2 := leVal_inj _ _ (by simp [hl, hl']) (h2.2.trans h2'.2.symm)
    have g : ∀ x : Data, x.length = 8 → x = (x.drop 0).take 2 ++ ((x.drop 2).take 2 ++ (x.drop 4).take 4) := fun x hx => by
      rw [List.take_of_length_le (l := x.drop 4) (by simp [hx]), glue x 2 2 4 rfl, glue x 0 2 2 rfl, List.drop_zero]
    rw [g hd hl, g hd' hl', e1, e2, e32]

/-- What is written for subfields is their layout. -/
theorem jam_subfields_written (junk d : Data) (hj : junk.length = 16) (subs : List JamSub) (hs : subBytes subs < 2 ^ 32) :
    d = subs.flatMap (JamSub.bytes junk) ↔ SubsLayout d subs := by
  have := SubsLayout.bytes junk hj subs fun s hm => by have := subBytes_mem hm; omega
  exact ⟨fun e => e ▸ this, fun hl => hl.unique this⟩

/-- Subfields are read back as they were written. -/
theorem jam_subfields_read {d : Data} {subs : List JamSub} (h : SubsLayout d subs) (hs : subBytes subs < 2 ^ 32) :
    jamParse d = .ok (.ok subs) := jamParse_layout h (by rw [h.length]; exact hs)

/-! ## Checksum -/

/-- One bit of the checksum. -/
def bitN (n : Nat) : Nat := if n % 2 = 1 then n / 2 ^^^ 0xedb88320 else n / 2

def bitsN : Nat → Nat → Nat
  | 0, n => n
  | k + 1, n => bitsN k (bitN n)

theorem jcrcBit_toNat (c : UInt32) : (jcrcBit c).toNat = bitN c.toNat := by
  have h1 : (c &&& 1 = 1) ↔ c.toNat % 2 = 1 := by
    rw [← UInt32.toNat_inj, UInt32.toNat_and]
    show c.toNat &&& 1 = 1 ↔ _
    rw [Nat.and_one_is_mod]
  have h2 : (c >>> 1).toNat = c.toNat / 2 := by
    rw [UInt32.toNat_shiftRight]
    show c.toNat >>> 1 = _
    rw [Nat.shiftRight_eq_div_pow]
  rw [jcrcBit, bitN]
  by_cases h : c.toNat % 2 = 1
  · rw [if_pos (h1.2 h), if_pos h, UInt32.toNat_xor, h2]; rfl
  · rw [if_neg (fun hh => h (h1.1 hh)), if_neg h, h2]

theorem jcrcByte_toNat (c : UInt32) (x : UInt8) : (jcrcByte c x).toNat = bitsN 8 (c.toNat ^^^ x.toNat) := by
  have : (c ^^^ x.toUInt32).toNat = c.toNat ^^^ x.toNat := by rw [UInt32.toNat_xor]; rfl
  rw [← this]
  simp only [jcrcByte, jcrcBit_toNat, bitsN]

theorem bitN_xor (a b : Nat) : bitN (a ^^^ b) = bitN a ^^^ bitN b := by
  have hx : (a ^^^ b) / 2 = a / 2 ^^^ b / 2 := Nat.xor_div_two
  have hm := @Nat.xor_mod_two_eq_one a b
  simp only [bitN, hx]
  by_cases ha : a % 2 = 1 <;> by_cases hb : b % 2 = 1
  · rw [if_neg (by rw [hm]; simp [ha, hb]), if_pos ha, if_pos hb]
    rw [Nat.xor_assoc, Nat.xor_comm 0xedb88320 (b / 2 ^^^ 0xedb88320), Nat.xor_assoc, Nat.xor_self, Nat.xor_zero]
  · rw [if_pos (by rw [hm]; simp [ha, hb]), if_pos ha, if_neg hb]
    rw [Nat.xor_assoc, Nat.xor_comm (b / 2), ← Nat.xor_assoc]
  · rw [if_pos (by rw [hm]; simp [ha, hb]), if_neg ha, if_pos hb, Nat.xor_assoc]
  · rw [if_neg (by rw [hm]; simp [ha, hb]), if_neg ha, if_neg hb]

theorem bitsN_xor (k a b : Nat) : bitsN k (a ^^^ b) = bitsN k a ^^^ bitsN k b := by
  induction k generalizing a b with
  | zero => rfl
  | succ k ih => rw [bitsN, bitsN, bitsN, bitN_xor, ih]

theorem bitsN_shift (k q : Nat) : bitsN k (2 ^ k * q) = q := by
  induction k generalizing q with
  | zero => simp [bitsN]
  | succ k ih =>
    rw [bitsN, bitN, if_neg, Nat.pow_succ]
    · rw [show 2 ^ k * 2 * q / 2 = 2 ^ k * q by rw [Nat.mul_right_comm, Nat.mul_div_cancel _ (by omega)]]
      exact ih q
    · rw [Nat.pow_succ, Nat.mul_right_comm]; omega

theorem crc32tab_bits : ∀ r, r < 256 → (crc32tab[r]?).map UInt32.toNat = some (bitsN 8 r) := by decide +kernel

theorem bitsN_table (x : Nat) : bitsN 8 x = x / 256 ^^^ bitsN 8 (x % 256) := by
  have e1 : (x ^^^ x % 256) / 2 ^ 8 = x / 256 := by
    rw [Nat.xor_div_two_pow, show x % 256 / 2 ^ 8 = 0 by omega, Nat.xor_zero]
  have e2 : (x ^^^ x % 256) % 2 ^ 8 = 0 := by
    rw [Nat.xor_mod_two_pow, show x % 256 % 2 ^ 8 = x % 2 ^ 8 by omega, Nat.xor_self]
  have e3 : x ^^^ x % 256 = 2 ^ 8 * (x / 256) := by omega
  have e4 : x = (x ^^^ x % 256) ^^^ x % 256 := by rw [Nat.xor_assoc, Nat.xor_self, Nat.xor_zero]
  conv => lhs; rw [e4, bitsN_xor, e3, bitsN_shift]

theorem jcrcByte_table (c : UInt32) (x : UInt8) (t : UInt32) (h : crc32tab[(c.toUInt8 ^^^ x).toNat]? = some t) : (c >>> 8) ^^^ t = jcrcByte c x := by
  apply UInt32.toNat_inj.1
  have hl := crc32tab_bits (c.toUInt8 ^^^ x).toNat (UInt8.toNat_lt _)
  rw [h] at hl
  simp only [Option.map_some, Option.some.injEq] at hl
  have hx := x.toNat_lt
  have e8 : (c >>> 8).toNat = c.toNat / 256 := by
    rw [UInt32.toNat_shiftRight]
    show c.toNat >>> 8 = _
    rw [Nat.shiftRight_eq_div_pow]
  have eb : (c.toUInt8 ^^^ x).toNat = (c.toNat ^^^ x.toNat) % 256 := by
    rw [UInt8.toNat_xor, UInt32.toNat_toUInt8]
    rw [show (256 : Nat) = 2 ^ 8 from rfl, Nat.xor_mod_two_pow, Nat.mod_eq_of_lt (a := x.toNat) (by omega)]
  have ed : (c.toNat ^^^ x.toNat) / 256 = c.toNat / 256 := by
    rw [show (256 : Nat) = 2 ^ 8 from rfl, Nat.xor_div_two_pow, Nat.div_eq_of_lt (a := x.toNat) (by omega), Nat.xor_zero]
  rw [UInt32.toNat_xor, e8, hl, eb, jcrcByte_toNat, bitsN_table (c.toNat ^^^ x.toNat), ed]

/-- Where `char` is unsigned, `JAM_Crc32` is the checksum of the specification, of the name in lower case. -/
theorem jam_crc (s : Data) : jamCrc32 false s = .ok (jcrcOf (s.map lower)) := by
  have : ∀ (s : Data) (c : UInt32), jamCrc32 false s c = .ok ((s.map lower).foldl jcrcByte c) := by
    intro s
    induction s with
    | nil => intro c; rfl
    | cons a s ih =>
      intro c
      have hl : (c.toUInt8 ^^^ lower a).toNat < crc32tab.length := by
        rw [crc32tab_length]; exact UInt8.toNat_lt _
      rw [jamCrc32]
      simp only [charXor, Bool.false_and, Bool.false_eq_true, if_false]
      rw [List.getElem?_eq_getElem hl]
      simp only [ih]
      rw [jcrcByte_table c (lower a) _ (List.getElem?_eq_getElem hl)]
      rfl
  exact this s _

/-- Where `char` is signed (gcc on x86), the first character of every ASCII name makes `JAM_Crc32` read before
the beginning of its table. -/
theorem jam_crc_signed (c : UInt8) (s : Data) (hc : c < 128) : jamCrc32 true (c :: s) = .error .oobRead := by
  have h : ∀ c : UInt8, c < 128 → ∃ i, charXor true (0xffffffff : UInt32).toUInt8 (lower c) = .negSucc i := by
    intro c hc
    have hlow : ¬ 128 ≤ lower c := by
      rw [lower]
      rw [UInt8.lt_iff_toNat_lt] at hc
      simp only [UInt8.le_iff_toNat_le]
      split
      · rename_i h; rw [UInt8.toNat_add]
        have h2 := h.2
        have e90 : (90 : UInt8).toNat = 90 := rfl
        have e32 : (32 : UInt8).toNat = 32 := rfl
        have e128 : (128 : UInt8).toNat = 128 := rfl
        omega
      · have e128 : (128 : UInt8).toNat = 128 := rfl
        omega
    have hff : (0xffffffff : UInt32).toUInt8 = 255 := by decide
    rw [hff, charXor, if_pos (by simp [hlow])]
    have hlt := (255 ^^^ lower c).toNat_lt
    refine ⟨255 - (255 ^^^ lower c).toNat, ?_⟩
    omega
  obtain ⟨i, hi⟩ := h c hc
  rw [jamCrc32, hi]

end CM
