import Verif.Model.Node4D
import Verif.Lemmas.Base
import Verif.Spec.Node4D
/-! # Lemmas about `Parse4DTemplate` -/

namespace CM

theorem u32_step (v : Nat) (c : UInt8) (h : isDigit c = true) :
    UInt32.ofNat v * 10 + (c - 48).toUInt32 = UInt32.ofNat (v * 10 + (c.toNat - 48)) := by
  rw [isDigit_iff] at h
  have hs : (c - 48).toNat = c.toNat - 48 := by
    have : (48 : UInt8) ≤ c := by rw [u8_le]; simpa using h.1
    simpa using UInt8.toNat_sub_of_le c 48 this
  apply UInt32.toNat_inj.1
  simp only [UInt32.toNat_add, UInt32.toNat_mul, UInt32.toNat_ofNat', UInt8.toNat_toUInt32, hs]
  simp

theorem not_sep_of_digit {c : UInt8} (h : isDigit c = true) :
    c ≠ 58 ∧ c ≠ 47 ∧ c ≠ 46 ∧ 48 ≤ c ∧ c ≤ 57 := by
  rw [isDigit_iff] at h
  simp only [ne_eq, u8_eq, u8_le]
  refine ⟨?_, ?_, ?_, ?_, ?_⟩ <;> simp <;> omega

theorem p4step_digit (s : P4) (c : UInt8) (h : isDigit c = true) :
    p4step s c = some { s with val := (if s.gotVal then s.val else 0) * 10 + (c - 48).toUInt32,
                               gotVal := true } := by
  obtain ⟨h1, h2, h3, h4, h5⟩ := not_sep_of_digit h
  simp [p4step, h1, h2, h3, h4, h5]

theorem p4_run (s : P4) (ds : Str) (v : Nat) (h : ∀ c ∈ ds, isDigit c = true)
    (hg : s.gotVal = true) (hv : s.val = UInt32.ofNat v) :
    ds.foldlM p4step s =
      some { s with val := UInt32.ofNat (ds.foldl (fun a c => a * 10 + (c.toNat - 48)) v) } := by
  induction ds generalizing s v with
  | nil => cases s; simp_all
  | cons c ds ih =>
    have hc := h c (by simp)
    simp only [List.foldlM_cons, p4step_digit s c hc, Option.bind_eq_bind, Option.bind_some, hg,
      if_true, hv, u32_step v c hc, List.foldl_cons]
    rw [ih _ (v * 10 + (c.toNat - 48)) (fun x hx => h x (by simp [hx])) rfl rfl]

/-- A nonempty run of digits sets `val` to its value. -/
theorem p4_digits (s : P4) (ds : Str) (h : ∀ c ∈ ds, isDigit c = true) (hne : ds ≠ [])
    (hg : s.gotVal = false) :
    ds.foldlM p4step s = some { s with val := UInt32.ofNat (decVal ds), gotVal := true } := by
  cases ds with
  | nil => exact absurd rfl hne
  | cons c ds =>
    have hc := h c (by simp)
    simp only [List.foldlM_cons, p4step_digit s c hc, Option.bind_eq_bind, Option.bind_some, hg]
    have hz : (0 : UInt32) * 10 + (c - 48).toUInt32 = UInt32.ofNat (c.toNat - 48) := by
      have := u32_step 0 c hc; simpa using this
    simp only [Bool.false_eq_true, if_false, hz]
    rw [p4_run _ ds _ (fun x hx => h x (by simp [hx])) rfl rfl]
    simp [decVal]

theorem u32_u16 (n : Nat) : (UInt32.ofNat n).toUInt16 = UInt16.ofNat n := by
  apply UInt16.toNat_inj.1; simp

theorem u16_ofNat_toNat (x : UInt16) : UInt16.ofNat x.toNat = x := by simp

/-- State after reading a (possibly empty) run of digits. -/
theorem p4_field (s : P4) (ds : Str) (h : ∀ c ∈ ds, isDigit c = true) (hg : s.gotVal = false) :
    ∃ v, ds.foldlM p4step s = some { s with val := v, gotVal := !ds.isEmpty } ∧
      (ds ≠ [] → v.toUInt16 = UInt16.ofNat (decVal ds)) := by
  by_cases hne : ds = []
  · subst hne; refine ⟨s.val, ?_, by simp⟩; cases s; simp_all
  · refine ⟨UInt32.ofNat (decVal ds), ?_, fun _ => u32_u16 _⟩
    rw [p4_digits s ds h hne hg]
    cases ds <;> simp_all

end CM

namespace CM

theorem p4step_some (s t : P4) (c : UInt8) (h : p4step s c = some t) :
    isDigit c = true ∨ c = 58 ∨ c = 47 ∨ c = 46 := by
  unfold p4step at h
  by_cases h1 : c = 58
  · simp [h1]
  by_cases h2 : c = 47
  · simp [h2]
  by_cases h3 : c = 46
  · simp [h3]
  by_cases h4 : 48 ≤ c ∧ c ≤ 57
  · left; simp [isDigit, h4]
  · simp [h1, h2, h3, h4] at h

/-- What is known about the state after a successfully read prefix. -/
structure P4Inv (tpl : Node4D) (s : Str) (t : P4) (z n f : Option Str) (last : Str) : Prop where
  hz : ∀ c ∈ odig z, isDigit c = true
  hn : ∀ c ∈ odig n, isDigit c = true
  hf : ∀ c ∈ odig f, isDigit c = true
  hl : ∀ c ∈ last, isDigit c = true
  hs : s = sec z 58 ++ sec n 47 ++ sec f 46 ++ last
  gz : t.gotZone = z.isSome
  gn : t.gotNet = n.isSome
  gf : t.gotNode = f.isSome
  gv : t.gotVal = !last.isEmpty
  hv : last ≠ [] → t.val = UInt32.ofNat (decVal last)
  hnd : t.nd = ⟨compVal (odig z) tpl.zone, compVal (odig n) tpl.net, compVal (odig f) tpl.node,
    tpl.point⟩

theorem P4Inv.dig {tpl s t z n f l} (h : P4Inv tpl s t z n f l) (c : UInt8)
    (hc : isDigit c = true) :
    ∃ t', p4step t c = some t' ∧ P4Inv tpl (s ++ [c]) t' z n f (l ++ [c]) := by
  refine ⟨_, p4step_digit t c hc, ⟨h.hz, h.hn, h.hf, ?_, ?_, h.gz, h.gn, h.gf, ?_, ?_, h.hnd⟩⟩
  · intro x hx; rcases List.mem_append.1 hx with hx | hx
    · exact h.hl x hx
    · simp at hx; subst hx; exact hc
  · rw [h.hs]; simp
  · simp
  · intro _
    show (if t.gotVal = true then t.val else 0) * 10 + (c - 48).toUInt32 = _
    rw [decVal_append_one, ← u32_step _ _ hc, h.gv]
    cases l with
    | nil => simp [decVal]
    | cons a l => simp [h.hv]

theorem P4Inv.val16 {tpl s t z n f l} (h : P4Inv tpl s t z n f l) (hne : l ≠ []) :
    t.val.toUInt16 = UInt16.ofNat (decVal l) := by rw [h.hv hne, u32_u16]

theorem P4Inv.sepZ {tpl s t l} (h : P4Inv tpl s t none none none l) :
    ∃ t', p4step t 58 = some t' ∧ P4Inv tpl (s ++ [58]) t' (some l) none none [] := by
  refine ⟨{ t with nd := if t.gotVal then { t.nd with zone := t.val.toUInt16 } else t.nd,
                   gotZone := true, gotVal := false }, ?_,
    ⟨h.hl, by simp [odig], by simp [odig], by simp, ?_, rfl, by simp [h.gn], by simp [h.gf],
      by simp, by simp, ?_⟩⟩
  · simp [p4step, h.gz, h.gn, h.gf]
  · rw [h.hs]; simp [sec]
  · have h1 := h.hnd; have h2 := h.val16; have h3 := h.gv
    cases l with
    | nil => simp_all [compVal, odig]
    | cons a l => simp_all [compVal, odig]

theorem P4Inv.sepN {tpl s t z l} (h : P4Inv tpl s t z none none l) :
    ∃ t', p4step t 47 = some t' ∧ P4Inv tpl (s ++ [47]) t' z (some l) none [] := by
  refine ⟨{ t with nd := if t.gotVal then { t.nd with net := t.val.toUInt16 } else t.nd,
                   gotNet := true, gotVal := false }, ?_,
    ⟨h.hz, h.hl, by simp [odig], by simp, ?_, h.gz, by simp, by simp [h.gf],
      by simp, by simp, ?_⟩⟩
  · simp [p4step, h.gn, h.gf]
  · rw [h.hs]; simp [sec]
  · have h1 := h.hnd; have h2 := h.val16; have h3 := h.gv
    cases l with
    | nil => simp_all [compVal, odig]
    | cons a l => simp_all [compVal, odig]

theorem P4Inv.sepF {tpl s t z n l} (h : P4Inv tpl s t z n none l) :
    ∃ t', p4step t 46 = some t' ∧ P4Inv tpl (s ++ [46]) t' z n (some l) [] := by
  refine ⟨{ t with nd := if t.gotVal then { t.nd with node := t.val.toUInt16 } else t.nd,
                   gotNode := true, gotVal := false }, ?_,
    ⟨h.hz, h.hn, h.hl, by simp, ?_, h.gz, h.gn, by simp, by simp, by simp, ?_⟩⟩
  · simp [p4step, h.gf]
  · rw [h.hs]; simp [sec]
  · have h1 := h.hnd; have h2 := h.val16; have h3 := h.gv
    cases l with
    | nil => simp_all [compVal, odig]
    | cons a l => simp_all [compVal, odig]

theorem P4Inv.step {tpl s t z n f last} (h : P4Inv tpl s t z n f last) (c : UInt8) (t' : P4)
    (hst : p4step t c = some t') :
    ∃ z n f last, P4Inv tpl (s ++ [c]) t' z n f last := by
  rcases p4step_some _ _ _ hst with hc | rfl | rfl | rfl
  · obtain ⟨u, hu, hi⟩ := h.dig c hc
    rw [hu] at hst; injection hst with hst; subst hst; exact ⟨_, _, _, _, hi⟩
  · have hg : z = none ∧ n = none ∧ f = none := by
      simp only [p4step, h.gz, h.gn, h.gf] at hst
      cases z <;> cases n <;> cases f <;> simp_all
    obtain ⟨rfl, rfl, rfl⟩ := hg
    obtain ⟨u, hu, hi⟩ := h.sepZ
    rw [hu] at hst; injection hst with hst; subst hst; exact ⟨_, _, _, _, hi⟩
  · have hg : n = none ∧ f = none := by
      simp only [p4step, h.gz, h.gn, h.gf] at hst
      cases n <;> cases f <;> simp_all
    obtain ⟨rfl, rfl⟩ := hg
    obtain ⟨u, hu, hi⟩ := h.sepN
    rw [hu] at hst; injection hst with hst; subst hst; exact ⟨_, _, _, _, hi⟩
  · have hg : f = none := by
      simp only [p4step, h.gz, h.gn, h.gf] at hst
      cases f <;> simp_all
    subst hg
    obtain ⟨u, hu, hi⟩ := h.sepF
    rw [hu] at hst; injection hst with hst; subst hst; exact ⟨_, _, _, _, hi⟩

theorem P4Inv.init (tpl : Node4D) : P4Inv tpl [] { nd := tpl } none none none [] :=
  ⟨by simp [odig], by simp [odig], by simp [odig], by simp,
      by simp [sec], rfl, rfl, rfl, rfl, by simp, by simp [compVal, odig]⟩

theorem p4_inv (tpl : Node4D) (s : Str) : ∀ t, s.foldlM p4step { nd := tpl } = some t →
    ∃ z n f last, P4Inv tpl s t z n f last := by
  induction s using snocInd with
  | nil =>
    intro t h
    simp at h; subst h
    exact ⟨none, none, none, [], P4Inv.init tpl⟩
  | snoc s c ih =>
    intro t h
    rw [List.foldlM_append] at h
    cases hs : s.foldlM p4step { nd := tpl } with
    | none => simp [hs] at h
    | some u =>
      obtain ⟨z, n, f, last, hi⟩ := ih u hs
      simp [hs] at h
      exact hi.step c t h

theorem P4Inv.digs {tpl s t z n f} (h : P4Inv tpl s t z n f []) (ds : Str)
    (hd : ∀ c ∈ ds, isDigit c = true) :
    ∃ t', ds.foldlM p4step t = some t' ∧ P4Inv tpl (s ++ ds) t' z n f ds := by
  induction ds using snocInd with
  | nil => exact ⟨t, by simp, by simpa using h⟩
  | snoc l a ih =>
    obtain ⟨t1, h1, hi⟩ := ih (fun c hc => hd c (by simp [hc]))
    obtain ⟨t2, h2, hi2⟩ := hi.dig a (hd a (by simp))
    refine ⟨t2, ?_, by simpa using hi2⟩
    simp [List.foldlM_append, h1, h2]

/-- Every digit-run text is accepted, with the state described by its parts. -/
theorem p4_complete (tpl : Node4D) (z n f : Option Str) (l : Str)
    (hz : ∀ c ∈ odig z, isDigit c = true) (hn : ∀ c ∈ odig n, isDigit c = true)
    (hf : ∀ c ∈ odig f, isDigit c = true) (hl : ∀ c ∈ l, isDigit c = true) :
    ∃ t, (sec z 58 ++ sec n 47 ++ sec f 46 ++ l).foldlM p4step { nd := tpl } = some t ∧
      P4Inv tpl (sec z 58 ++ sec n 47 ++ sec f 46 ++ l) t z n f l := by
  have s1 : ∃ t, (sec z 58).foldlM p4step { nd := tpl } = some t ∧
      P4Inv tpl (sec z 58) t z none none [] := by
    cases z with
    | none => exact ⟨_, rfl, P4Inv.init tpl⟩
    | some d =>
      obtain ⟨t1, e1, i1⟩ := (P4Inv.init tpl).digs d hz
      obtain ⟨t2, e2, i2⟩ := i1.sepZ
      exact ⟨t2, by simp [sec, List.foldlM_append, e1, e2], by simpa [sec] using i2⟩
  obtain ⟨t1, e1, i1⟩ := s1
  have s2 : ∃ t, (sec z 58 ++ sec n 47).foldlM p4step { nd := tpl } = some t ∧
      P4Inv tpl (sec z 58 ++ sec n 47) t z n none [] := by
    cases n with
    | none => exact ⟨t1, by simpa [sec] using e1, by simpa [sec] using i1⟩
    | some d =>
      obtain ⟨t2, e2, i2⟩ := i1.digs d hn
      obtain ⟨t3, e3, i3⟩ := i2.sepN
      refine ⟨t3, ?_, by simpa [sec] using i3⟩
      rw [List.foldlM_append, e1]
      simp [sec, List.foldlM_append, e2, e3]
  obtain ⟨t2, e2, i2⟩ := s2
  have s3 : ∃ t, (sec z 58 ++ sec n 47 ++ sec f 46).foldlM p4step { nd := tpl } = some t ∧
      P4Inv tpl (sec z 58 ++ sec n 47 ++ sec f 46) t z n f [] := by
    cases f with
    | none => exact ⟨t2, by simpa [sec] using e2, by simpa [sec] using i2⟩
    | some d =>
      obtain ⟨t3, e3, i3⟩ := i2.digs d hf
      obtain ⟨t4, e4, i4⟩ := i3.sepF
      refine ⟨t4, ?_, by simpa [sec] using i4⟩
      rw [List.foldlM_append, e2]
      simp [sec, List.foldlM_append, e3, e4]
  obtain ⟨t3, e3, i3⟩ := s3
  obtain ⟨t4, e4, i4⟩ := i3.digs l hl
  exact ⟨t4, by rw [List.foldlM_append, e3]; simpa using e4, i4⟩

end CM
