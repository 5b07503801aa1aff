import Verif.Lemmas.Node4D
/-! # Properties of node addresses (C01, C02, C61) -/

set_option linter.unusedSimpArgs false

namespace CM

/-- C01. Printing any address and parsing the result gives the same address, whatever the template
with point 0 (so also with `Parse4D`). -/
theorem parse4DTemplate_print4D (n tpl : Node4D) (htpl : tpl.point = 0) :
    parse4DTemplate (print4D n) tpl = some n := by
  have hd := fun k => dec_digits k
  have hz := fun (x : UInt16) => dec_ne_nil x.toNat
  unfold parse4DTemplate print4D
  split
  · simp only [List.foldlM_append, List.append_assoc, Option.bind_eq_bind]
    rw [p4_digits _ _ (hd _) (hz _) rfl]
    simp [p4step, decVal_dec]
    rw [p4_digits _ _ (hd _) (hz _) rfl]
    simp [p4step, decVal_dec]
    rw [p4_digits _ _ (hd _) (hz _) rfl]
    simp [p4step, decVal_dec]
    rw [p4_digits _ _ (hd _) (hz _) rfl]
    simp [p4fin, decVal_dec]
  · rename_i hp
    simp only [List.foldlM_append, List.append_assoc, Option.bind_eq_bind]
    rw [p4_digits _ _ (hd _) (hz _) rfl]
    simp [p4step, decVal_dec]
    rw [p4_digits _ _ (hd _) (hz _) rfl]
    simp [p4step, decVal_dec]
    rw [p4_digits _ _ (hd _) (hz _) rfl]
    simp [p4fin, decVal_dec]
    cases n; simp_all

/-- C01. `Parse4D` inverts `Print4D` on every address. -/
theorem parse4D_print4D (n : Node4D) : parse4D (print4D n) = some n :=
  parse4DTemplate_print4D n _ rfl

/-- C01. Printed addresses are distinct for distinct addresses. -/
theorem print4D_injective (a b : Node4D) (h : print4D a = print4D b) : a = b := by
  have := parse4D_print4D a
  rw [h, parse4D_print4D b] at this
  exact (Option.some.inj this).symm

/-- C01. A printed address fits every buffer the program prints it into (at least 24 bytes with
the terminating NUL). -/
theorem print4D_length (n : Node4D) : (print4D n).length ≤ 23 := by
  have h : ∀ x : UInt16, (dec x.toNat).length ≤ 5 := fun x =>
    dec_length_le (by omega) (by have := x.toNat_lt; omega)
  have h1 := h n.zone; have h2 := h n.net; have h3 := h n.node; have h4 := h n.point
  unfold print4D; split <;> simp <;> omega

example : parse4D (print4D ⟨2, 5020, 1042, 17⟩) = some ⟨2, 5020, 1042, 17⟩ := by decide
example : print4D ⟨65535, 65535, 65535, 65535⟩ = b!"65535:65535/65535.65535" := by decide

/-- C01. The parser accepts exactly the texts `[zone:][net/][node.]last` made of (possibly empty)
digit runs and gives them their meaning. -/
theorem parse4DTemplate_iff (s : Str) (tpl r : Node4D) :
    parse4DTemplate s tpl = some r ↔
      ∃ t : AddrText, t.Digits ∧ s = t.text ∧ r = t.meaning tpl := by
  have inv_meaning : ∀ {s u z n f l}, P4Inv tpl s u z n f l →
      p4fin u = (AddrText.mk z n f l).meaning tpl := by
    intro s u z n f l h
    have hval : l ≠ [] → u.val.toUInt16 = UInt16.ofNat (decVal l) := by
      intro hne; rw [h.hv hne, u32_u16]
    have hnd := h.hnd
    simp only [p4fin, AddrText.meaning, h.gv, h.gz, h.gn, h.gf, hnd]
    cases l with
    | nil => simp [compVal]
    | cons a l =>
      have hval := hval (by simp)
      simp only [List.isEmpty_cons, Bool.not_false, if_true, hval]
      cases z <;> cases n <;> cases f <;> simp [compVal]
  constructor
  · intro h
    simp only [parse4DTemplate, Option.map_eq_some_iff] at h
    obtain ⟨u, hu, hr⟩ := h
    obtain ⟨z, n, f, l, hi⟩ := p4_inv tpl s u hu
    exact ⟨⟨z, n, f, l⟩, ⟨hi.hz, hi.hn, hi.hf, hi.hl⟩, hi.hs, by rw [← hr, inv_meaning hi]⟩
  · rintro ⟨⟨z, n, f, l⟩, ⟨hz, hn, hf, hl⟩, hs, hr⟩
    simp only at hz hn hf hl
    obtain ⟨u, hu, hi⟩ := p4_complete tpl z n f l hz hn hf hl
    subst hs
    simp only [parse4DTemplate, AddrText.text, hu, Option.map_some]
    rw [hr, inv_meaning hi]

/-- A text with all parts, and one with a missing zone. -/
example : parse4DTemplate b!"5020/1042" ⟨2, 1, 1, 0⟩ = some ⟨2, 5020, 1042, 0⟩ ∧
    parse4DTemplate b!".7" ⟨2, 5020, 1042, 0⟩ = some ⟨2, 5020, 1042, 7⟩ ∧
    parse4DTemplate b!"2:5020/1042@fidonet" ⟨2, 1, 1, 0⟩ = none := by decide

/-- C61 (violated). Components that do not fit 16 bits are not rejected: they are silently
reduced modulo 65536, so different texts denote the same address. -/
theorem parse4D_accepts_out_of_range :
    parse4D b!"65538:1/1" = some ⟨2, 1, 1, 0⟩ ∧ parse4D b!"2:65537/1" = some ⟨2, 1, 1, 0⟩ := by
  decide

/-- C61 (violated). `zone:node.point` with the net left out puts the point into the net. -/
theorem parse4D_missing_net_misassigns :
    parse4DTemplate b!"2:5.3" ⟨1, 100, 1, 0⟩ = some ⟨2, 3, 5, 0⟩ := by decide

/-- C61. On texts whose components are below 65536 no reduction happens: the parsed numbers are the
decimal values. -/
theorem parse4D_in_range_partial (z n f p : Str) (tpl : Node4D)
    (hz : ∀ c ∈ z, isDigit c = true) (hn : ∀ c ∈ n, isDigit c = true)
    (hf : ∀ c ∈ f, isDigit c = true) (hp : ∀ c ∈ p, isDigit c = true)
    (ez : z ≠ []) (en : n ≠ []) (ef : f ≠ []) (ep : p ≠ [])
    (bz : decVal z < 65536) (bn : decVal n < 65536) (bf : decVal f < 65536)
    (bp : decVal p < 65536) :
    ∃ r, parse4DTemplate (z ++ b!":" ++ n ++ b!"/" ++ f ++ b!"." ++ p) tpl = some r ∧
      r.zone.toNat = decVal z ∧ r.net.toNat = decVal n ∧ r.node.toNat = decVal f ∧
      r.point.toNat = decVal p := by
  refine ⟨_, (parse4DTemplate_iff _ tpl _).2 ⟨⟨some z, some n, some f, p⟩, ⟨hz, hn, hf, hp⟩, ?_,
    rfl⟩, ?_⟩
  · simp [AddrText.text, sec]
  · simp [AddrText.meaning, odig, compVal, ez, en, ef, ep]
    omega

example : (∀ c ∈ b!"2", isDigit c = true) ∧ decVal b!"5020" < 65536 := by decide

/-! ## C02: comparison -/

private theorem u16_lt (a b : UInt16) : a < b ↔ a.toNat < b.toNat := Iff.rfl
private theorem u16_eq (a b : UInt16) : a = b ↔ a.toNat = b.toNat := UInt16.toNat_inj.symm

/-- C02. "Equal" means: same net, node and point, and same zone unless one of the zones is 0. -/
theorem compare4D_eq_zero_iff (a b : Node4D) :
    compare4D a b = 0 ↔ a.net = b.net ∧ a.node = b.node ∧ a.point = b.point ∧
      (a.zone = b.zone ∨ a.zone = 0 ∨ b.zone = 0) := by
  unfold compare4D
  simp only [u16_lt, u16_eq, GT.gt, ne_eq, UInt16.toNat_ofNat]
  repeat' split
  all_goals (constructor <;> intro h <;> omega)

/-- C02. With nonzero zones, "equal" is equality of addresses. -/
theorem compare4D_eq_zero_iff_eq (a b : Node4D) (ha : a.zone ≠ 0) (hb : b.zone ≠ 0) :
    compare4D a b = 0 ↔ a = b := by
  rw [compare4D_eq_zero_iff]
  cases a; cases b; simp_all; constructor <;> (intro h; simp_all)

/-- C02. Swapping the arguments negates the result. -/
theorem compare4D_antisymm (a b : Node4D) : compare4D b a = - compare4D a b := by
  unfold compare4D
  simp only [u16_lt, u16_eq, GT.gt, ne_eq, UInt16.toNat_ofNat]
  repeat' split
  all_goals first | rfl | omega

/-- C02. With nonzero zones the order is the lexicographic one on zone, net, node, point. -/
theorem compare4D_lt_iff (a b : Node4D) (ha : a.zone ≠ 0) (hb : b.zone ≠ 0) :
    compare4D a b < 0 ↔
      a.zone < b.zone ∨ a.zone = b.zone ∧ (a.net < b.net ∨ a.net = b.net ∧
        (a.node < b.node ∨ a.node = b.node ∧ a.point < b.point)) := by
  unfold compare4D
  simp only [u16_lt, u16_eq, GT.gt, ne_eq, UInt16.toNat_ofNat] at *
  repeat' split
  all_goals (constructor <;> intro h <;> omega)

/-- C02. With nonzero zones, "less" is transitive, hence (with `compare4D_antisymm` and
`compare4D_eq_zero_iff_eq`) a strict total order. -/
theorem compare4D_trans (a b c : Node4D) (ha : a.zone ≠ 0) (hb : b.zone ≠ 0) (hc : c.zone ≠ 0)
    (h1 : compare4D a b ≤ 0) (h2 : compare4D b c ≤ 0) : compare4D a c ≤ 0 := by
  have e1 := compare4D_antisymm b a
  have e2 := compare4D_antisymm c b
  have e3 := compare4D_antisymm c a
  have n1 : ¬ compare4D b a < 0 := by omega
  have n2 : ¬ compare4D c b < 0 := by omega
  have n3 : ¬ compare4D c a < 0 := by
    rw [compare4D_lt_iff _ _ (by assumption) (by assumption)] at *
    simp only [u16_lt, u16_eq] at *
    omega
  omega

/-- C02 (limits). With zone 0 as wildcard, "equal" is not transitive: 2:5/1 ~ 0:5/1 ~ 3:5/1 but
2:5/1 is not equal to 3:5/1. -/
theorem compare4D_eq_not_transitive :
    ∃ a b c, compare4D a b = 0 ∧ compare4D b c = 0 ∧ compare4D a c ≠ 0 :=
  ⟨⟨2, 5, 1, 0⟩, ⟨0, 5, 1, 0⟩, ⟨3, 5, 1, 0⟩, by decide⟩

example : compare4D ⟨2, 5020, 1042, 0⟩ ⟨2, 5020, 1042, 1⟩ < 0 := by decide

end CM
