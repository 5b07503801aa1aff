import Verif.Model.Bytes

namespace CM

theorem rd16_le16 (x : UInt16) : rd16 (UInt8.ofNat (x.toNat % 256)) (UInt8.ofNat (x.toNat / 256)) = x := by
  apply UInt16.toNat_inj.1
  have := x.toNat_lt
  simp only [rd16, UInt16.toNat_ofNat', UInt8.toNat_ofNat']
  omega

theorem le16_rd16 (a b : UInt8) : le16 (rd16 a b) = [a, b] := by
  have ha := a.toNat_lt; have hb := b.toNat_lt
  have e : (rd16 a b).toNat = a.toNat + 256 * b.toNat := by
    simp only [rd16, UInt16.toNat_ofNat']; omega
  simp only [le16, e, List.cons.injEq, and_true]
  constructor <;> apply UInt8.toNat_inj.1 <;> simp only [UInt8.toNat_ofNat'] <;> omega

theorem rd32L_le32 (x : UInt32) (r : List UInt8) : rd32L (le32 x ++ r) = x := by
  apply UInt32.toNat_inj.1
  have := x.toNat_lt
  simp only [le32, List.cons_append, rd32L, rd32, UInt32.toNat_ofNat', UInt8.toNat_ofNat']
  omega

theorem le32_rd32 (a b c d : UInt8) : le32 (rd32 a b c d) = [a, b, c, d] := by
  have ha := a.toNat_lt; have hb := b.toNat_lt; have hc := c.toNat_lt; have hd := d.toNat_lt
  have e : (rd32 a b c d).toNat = a.toNat + 256 * b.toNat + 65536 * c.toNat + 16777216 * d.toNat := by
    simp only [rd32, UInt32.toNat_ofNat']; omega
  simp only [le32, e, List.cons.injEq, and_true]
  refine ⟨?_, ?_, ?_, ?_⟩ <;> apply UInt8.toNat_inj.1 <;> simp only [UInt8.toNat_ofNat'] <;> omega

@[simp] theorem le16_length (x : UInt16) : (le16 x).length = 2 := rfl
@[simp] theorem le32_length (x : UInt32) : (le32 x).length = 4 := rfl

theorem rd32L_append (a b : List UInt8) (h : 4 ≤ a.length) : rd32L (a ++ b) = rd32L a := by
  match a with
  | x :: y :: z :: w :: t => rfl
  | [] | [_] | [_, _] | [_, _, _] => simp at h

theorem nat_bit (n k : Nat) : n &&& 2 ^ k = 0 ↔ n / 2 ^ k % 2 = 0 := by
  have hb : n.testBit k = decide (n / 2 ^ k % 2 = 1) := Nat.testBit_eq_decide_div_mod_eq
  constructor
  · intro h
    have := congrArg (Nat.testBit · k) h
    simp only [Nat.testBit_and, Nat.testBit_two_pow_self, Bool.and_true, Nat.zero_testBit, hb, decide_eq_false_iff_not] at this
    omega
  · intro h
    apply Nat.eq_of_testBit_eq
    intro i
    rw [Nat.testBit_and, Nat.testBit_two_pow, Nat.zero_testBit]
    by_cases e : k = i
    · subst e; rw [hb]; simp; omega
    · simp [e]

end CM
