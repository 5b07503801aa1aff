import Verif.Lemmas.Outbound
/-! # Lemmas about bundle names -/

set_option linter.unusedSimpArgs false

namespace CM

/-- The extension with number `s` below 70. -/
def arcTail (s : Nat) : Str := dayNames.getD (s / 10) [] ++ [digit (s % 10)]

/-- The bundle with number `s` of base `b`. -/
def bname (b : UInt32) (s : Nat) : Str := hexW 8 b.toNat ++ 46 :: arcTail s

theorem arcTail_length (s : Nat) (h : s < 70) : (arcTail s).length = 3 := by
  have : ∀ s : Fin 70, (arcTail s.1).length = 3 := by decide +kernel
  exact this ⟨s, h⟩

theorem bname_ne (b : UInt32) (s : Nat) : bname b s ≠ [] := by simp [bname]

theorem bundleName_bname (b n : UInt32) (h : n.toNat < 70) : bundleName b n = .ok (bname b n.toNat) := by
  unfold bundleName bname arcTail
  have e1 : (n / 10).toNat = n.toNat / 10 := by simp [UInt32.toNat_div]
  have e2 : (n % 10).toNat = n.toNat % 10 := by simp [UInt32.toNat_mod]
  rw [e1, e2]
  have hl : n.toNat / 10 < dayNames.length := by simp [dayNames]; omega
  rw [List.getElem?_eq_getElem hl]
  simp [List.getD, List.getElem?_eq_getElem hl]

theorem lastSuffix_bname (b : UInt32) (s : Nat) (h : s < 70) : lastSuffix (bname b s) = .ok (UInt32.ofNat s) := by
  have key : ∀ p t : Str, t.length = 3 → lastSuffix (p ++ t) =
      .ok ((List.range 7).foldl (fun a i => if eqi (t.take 2) (dayNames.getD i []) then
        UInt32.ofNat i * 10 + charNum (t.getLast?.getD 0) else a) 0xffffffff) := by
    intro p t ht
    unfold lastSuffix
    rw [if_neg (by simp [ht])]
    have e1 : (p ++ t).drop (List.length (p ++ t) - 3) = t := by
      rw [List.length_append, ht, Nat.add_sub_cancel, List.drop_left' rfl]
    have e2 : (p ++ t).getLast? = t.getLast? := by
      cases t with
      | nil => simp at ht
      | cons x t => simp [List.getLast?_append]; cases h : (x :: t).getLast? <;> simp_all
    dsimp only
    rw [e1, e2]
  have fin : ∀ s : Fin 70, ((List.range 7).foldl (fun a i => if eqi ((arcTail s.1).take 2) (dayNames.getD i []) then
        UInt32.ofNat i * 10 + charNum ((arcTail s.1).getLast?.getD 0) else a) (0xffffffff : UInt32)) = UInt32.ofNat s.1 := by
    decide +kernel
  unfold bname
  rw [show hexW 8 b.toNat ++ 46 :: arcTail s = (hexW 8 b.toNat ++ [46]) ++ arcTail s by simp, key _ _ (arcTail_length s h)]
  rw [fin ⟨s, h⟩]

theorem hextodec_bname (b : UInt32) (s : Nat) : hextodec (bname b s) = b.toUInt64 := hextodec_bundle b _

/-- The number after `s`, or the first of another day. -/
def nextNum (weekday : Bool) (day s : Nat) : Nat :=
  let n := if s + 1 = 70 then 0 else s + 1
  if weekday && n / 10 != day then day * 10 else n

theorem nextNum_lt (weekday : Bool) (day s : Nat) (hd : day < 7) (hs : s < 70) : nextNum weekday day s < 70 := by
  unfold nextNum
  dsimp only
  have h : (if s + 1 = 70 then 0 else s + 1) < 70 := by split <;> omega
  generalize (if s + 1 = 70 then 0 else s + 1) = n at *
  split <;> omega

/-- Does the bundle take more mail? -/
def takesMore (weekday : Bool) (max day : Nat) (arcs : List FileEntry) (cur : Str) (s : Nat) : Bool :=
  sizeOk max (arcs.filter fun fe => eqi cur fe.name).getLast? && !(weekday && s / 10 != day)

theorem makeArcName_cur (weekday : Bool) (max : Nat) (now day : UInt32) (arcs : List FileEntry) (last : List Str)
    (b : UInt32) (s : Nat) (hs : s < 70) (hd : day.toNat < 7) :
    makeArcName weekday max now day arcs last (bname b s) =
      .ok (some (bname b
        (if takesMore weekday max day.toNat arcs (bname b s) s then s
         else if arcs.any fun fe => eqi fe.name (bname b (nextNum weekday day.toNat s)) then s
         else nextNum weekday day.toNat s))) := by
  have hs' : (UInt32.ofNat s).toNat = s := by simp; omega
  have hb : (hextodec (bname b s)).toUInt32 = b := by rw [hextodec_bname]; simp
  unfold makeArcName
  rw [if_neg (bname_ne b s)]
  simp only [lastSuffix_bname b s hs, hb]
  have hne : UInt32.ofNat s ≠ 4294967295 := by
    intro h
    have := congrArg UInt32.toNat h
    rw [hs'] at this
    simp at this
    omega
  have hdiv : (UInt32.ofNat s / 10 != day) = (s / 10 != day.toNat) := by
    rw [Bool.eq_iff_iff]
    simp only [bne_iff_ne, ne_eq, ← UInt32.toNat_inj, UInt32.toNat_div, hs']
    rfl
  have hk : takesMore weekday max day.toNat arcs (bname b s) s =
      (sizeOk max (arcs.filter fun fe => eqi (bname b s) fe.name).getLast? && !(weekday && UInt32.ofNat s / 10 != day)) := by
    rw [hdiv]; rfl
  have hn : (if (weekday && (if UInt32.ofNat s + 1 = 70 then (0 : UInt32) else UInt32.ofNat s + 1) / 10 != day) = true
      then day * 10 else (if UInt32.ofNat s + 1 = 70 then (0 : UInt32) else UInt32.ofNat s + 1)).toNat =
        nextNum weekday day.toNat s := by
    have e1 : (if UInt32.ofNat s + 1 = 70 then (0 : UInt32) else UInt32.ofNat s + 1).toNat = (if s + 1 = 70 then 0 else s + 1) := by
      have : (UInt32.ofNat s + 1).toNat = s + 1 := by
        rw [UInt32.toNat_add, hs']; simp; omega
      by_cases h : s + 1 = 70
      · rw [if_pos h, if_pos]; rfl
        exact UInt32.toNat_inj.1 (by rw [this, h]; rfl)
      · rw [if_neg h, if_neg]; exact this
        intro h'
        have := congrArg UInt32.toNat h'
        simp_all
    unfold nextNum
    dsimp only
    generalize (if UInt32.ofNat s + 1 = 70 then (0 : UInt32) else UInt32.ofNat s + 1) = x at *
    generalize (if s + 1 = 70 then 0 else s + 1) = y at *
    subst e1
    have e2 : (x / 10 != day) = (x.toNat / 10 != day.toNat) := by
      rw [Bool.eq_iff_iff]
      simp only [bne_iff_ne, ne_eq, ← UInt32.toNat_inj, UInt32.toNat_div]
      rfl
    rw [e2]
    split
    · rw [UInt32.toNat_mul]; simp; omega
    · rfl
  simp only [bind, Except.bind, pure, Except.pure, if_neg hne]
  rw [← hk]
  generalize (if (weekday && (if UInt32.ofNat s + 1 = 70 then (0 : UInt32) else UInt32.ofNat s + 1) / 10 != day) = true
      then day * 10 else (if UInt32.ofNat s + 1 = 70 then (0 : UInt32) else UInt32.ofNat s + 1)) = nx at *
  have hnl := nextNum_lt weekday day.toNat s hd hs
  rw [← hn] at hnl ⊢
  have b1 := bundleName_bname b (UInt32.ofNat s) (by rw [hs']; exact hs)
  rw [hs'] at b1
  have b2 := bundleName_bname b nx hnl
  cases takesMore weekday max day.toNat arcs (bname b s) s with
  | true => simp only [if_true, b1]
  | false =>
    simp only [Bool.false_eq_true, if_false]
    unfold existsBundle
    simp only [b2, bind, Except.bind, pure, Except.pure]
    cases arcs.any fun fe => eqi fe.name (bname b nx.toNat) with
    | true => simp only [if_true, b1]
    | false => simp only [Bool.false_eq_true, if_false, b2]

/-! ## An unused number is found -/

theorem length_le_of_subset {α : Type} [DecidableEq α] (l m : List α) (hn : l.Nodup) (h : ∀ x ∈ l, x ∈ m) :
    l.length ≤ m.length := by
  induction l generalizing m with
  | nil => simp
  | cons a l ih =>
    have ha := h a (by simp)
    rw [List.nodup_cons] at hn
    have := ih (m.erase a) hn.2 fun x hx => by
      have hne : x ≠ a := fun e => hn.1 (e ▸ hx)
      exact (List.mem_erase_of_ne hne).2 (h x (by simp [hx]))
    rw [List.length_erase_of_mem ha] at this
    have : 0 < m.length := List.length_pos_of_mem ha
    simp; omega

theorem freeBasenum_none (arcs : List FileEntry) (last : List Str) (f : Nat) (n : UInt32)
    (h : freeBasenum arcs last f n = none) : ∀ i < f, existsBasenum arcs last (n + UInt32.ofNat i) = true := by
  induction f generalizing n with
  | zero => intro i hi; omega
  | succ f ih =>
    intro i hi
    unfold freeBasenum at h
    split at h
    · rename_i he
      cases i with
      | zero => simpa using he
      | succ i =>
        have := ih (n + 1) h i (by omega)
        rw [show n + UInt32.ofNat (i + 1) = n + 1 + UInt32.ofNat i by
          rw [UInt32.ofNat_add]; have : UInt32.ofNat 1 = 1 := rfl; rw [this]; grind]
        exact this
    · simp at h

theorem freeBasenum_some (arcs : List FileEntry) (last : List Str) (f : Nat) (n b : UInt32)
    (h : freeBasenum arcs last f n = some b) : existsBasenum arcs last b = false := by
  induction f generalizing n with
  | zero => simp [freeBasenum] at h
  | succ f ih =>
    unfold freeBasenum at h
    split at h
    · exact ih _ h
    · rename_i he
      simp only [Option.some.injEq] at h
      subst h
      simpa using he

theorem existsBasenum_mem {arcs : List FileEntry} {last : List Str} {n : UInt32} (h : existsBasenum arcs last n = true) :
    n.toUInt64 ∈ (arcs.map fun fe => hextodec fe.name) ++ last.map hextodec := by
  simp only [existsBasenum, Bool.or_eq_true, List.any_eq_true, Bool.and_eq_true, beq_iff_eq] at h
  simp only [List.mem_append, List.mem_map]
  rcases h with ⟨fe, h1, h2⟩ | ⟨s, h1, h2⟩
  · exact .inl ⟨fe, h1, h2.2⟩
  · exact .inr ⟨s, h1, h2.2⟩

/-- With fewer than 2^32 files and nodes the search for a number ends. -/
theorem freeBasenum_total (arcs : List FileEntry) (last : List Str) (n : UInt32)
    (h : arcs.length + last.length < 2 ^ 32) : ∃ b, freeBasenum arcs last (2 ^ 32) n = some b := by
  cases hf : freeBasenum arcs last (2 ^ 32) n with
  | some b => exact ⟨b, rfl⟩
  | none =>
    exfalso
    have all := freeBasenum_none arcs last _ n hf
    generalize hN : (2 : Nat) ^ 32 = N at *
    have hnd : ((List.range N).map fun i => (n + UInt32.ofNat i).toUInt64).Nodup := by
      rw [List.Nodup, List.pairwise_map]
      refine List.Pairwise.imp_of_mem ?_ List.nodup_range
      intro a b ha hb hab e
      rw [List.mem_range] at ha hb
      have e1 : n + UInt32.ofNat a = n + UInt32.ofNat b := by
        apply UInt32.toNat_inj.1
        have := congrArg UInt64.toNat e
        simpa using this
      have e2 : UInt32.ofNat a = UInt32.ofNat b := by
        have := congrArg (fun x => x - n) e1
        simpa using this
      have := congrArg UInt32.toNat e2
      rw [UInt32.toNat_ofNat', UInt32.toNat_ofNat', hN, Nat.mod_eq_of_lt ha, Nat.mod_eq_of_lt hb] at this
      exact hab this
    have := length_le_of_subset _ ((arcs.map fun fe => hextodec fe.name) ++ last.map hextodec) hnd (by
      intro x hx
      rw [List.mem_map] at hx
      obtain ⟨i, hi, rfl⟩ := hx
      exact existsBasenum_mem (all i (List.mem_range.1 hi)))
    simp at this
    omega

/-! ## The form of bundle names -/

/-- Value of a hexadecimal number. -/
def hexFold (s : Str) : Nat := s.foldl (fun n c => 16 * n + if c.toNat ≤ 57 then c.toNat - 48 else c.toNat - 87) 0

def IsHexLow (c : UInt8) : Prop := (48 ≤ c.toNat ∧ c.toNat ≤ 57) ∨ (97 ≤ c.toNat ∧ c.toNat ≤ 102)

theorem hexFold_hexW (w n : Nat) (h : n < 16 ^ w) : hexFold (hexW w n) = n ∧ ∀ c ∈ hexW w n, IsHexLow c := by
  have dg : ∀ d : Fin 16, ((hexDigit d.1).toNat ≤ 57 ∧ (hexDigit d.1).toNat - 48 = d.1 ∨
      ¬ (hexDigit d.1).toNat ≤ 57 ∧ (hexDigit d.1).toNat - 87 = d.1) ∧
      ((48 ≤ (hexDigit d.1).toNat ∧ (hexDigit d.1).toNat ≤ 57) ∨ (97 ≤ (hexDigit d.1).toNat ∧ (hexDigit d.1).toNat ≤ 102)) := by
    decide +kernel
  induction w generalizing n with
  | zero => simp at h; simp [hexW, hexFold, h]
  | succ w ih =>
    obtain ⟨h1, h2⟩ := ih (n / 16) (by omega)
    obtain ⟨d1, d2⟩ := dg ⟨n % 16, Nat.mod_lt _ (by omega)⟩
    dsimp only at d1 d2
    unfold hexFold at h1
    constructor
    · simp only [hexW, hexFold, List.foldl_append, h1, List.foldl_cons, List.foldl_nil]
      rcases d1 with ⟨a, b⟩ | ⟨a, b⟩
      · rw [if_pos a, b]; omega
      · rw [if_neg a, b]; omega
    · intro c hc
      simp only [hexW, List.mem_append, List.mem_singleton] at hc
      rcases hc with hc | rfl
      · exact h2 c hc
      · exact d2

theorem hexW_hexFold (s : Str) (h : ∀ c ∈ s, IsHexLow c) : hexW s.length (hexFold s) = s ∧ hexFold s < 16 ^ s.length := by
  have dg : ∀ c : UInt8, ((48 ≤ c.toNat ∧ c.toNat ≤ 57) ∨ (97 ≤ c.toNat ∧ c.toNat ≤ 102)) →
      (if c.toNat ≤ 57 then c.toNat - 48 else c.toNat - 87) < 16 ∧
      hexDigit (if c.toNat ≤ 57 then c.toNat - 48 else c.toNat - 87) = c := by decide +kernel
  induction s using snocInd with
  | nil => simp [hexW, hexFold]
  | snoc s c ih =>
    obtain ⟨h1, h2⟩ := ih fun c' h' => h c' (by simp [h'])
    obtain ⟨d1, d2⟩ := dg c (h c (by simp))
    have e : hexFold (s ++ [c]) = 16 * hexFold s + (if c.toNat ≤ 57 then c.toNat - 48 else c.toNat - 87) := by
      simp [hexFold]
    rw [e]
    generalize (if c.toNat ≤ 57 then c.toNat - 48 else c.toNat - 87) = v at *
    rw [List.length_append, List.length_singleton]
    constructor
    · simp only [hexW]
      rw [show (16 * hexFold s + v) / 16 = hexFold s by omega, show (16 * hexFold s + v) % 16 = v by omega, h1, d2]
    · rw [Nat.pow_succ]; omega

/-- Bundle names are the names with a number below 70. -/
theorem bundleName_iff (base day k : Nat) (name : Str) :
    BundleName base day k name ↔ ∃ b : UInt32, b.toNat = base ∧ day < 7 ∧ k < 10 ∧ name = bname b (day * 10 + k) := by
  have tail : ∀ (d : Fin 7) (k : Fin 10), ∀ x, [b!"su", b!"mo", b!"tu", b!"we", b!"th", b!"fr", b!"sa"][d.1]? = some x →
      arcTail (d.1 * 10 + k.1) = x ++ [UInt8.ofNat (48 + k.1)] := by
    have : ∀ (d : Fin 7) (k : Fin 10), arcTail (d.1 * 10 + k.1) =
        ([b!"su", b!"mo", b!"tu", b!"we", b!"th", b!"fr", b!"sa"][d.1]?).getD [] ++ [UInt8.ofNat (48 + k.1)] := by decide +kernel
    intro d k x hx
    rw [this, hx]; rfl
  constructor
  · rintro ⟨hex, d, rfl, hk, hd, h8, hh, rfl⟩
    have hday : day < 7 := by
      rw [List.getElem?_eq_some_iff] at hd
      obtain ⟨h, _⟩ := hd
      simpa using h
    obtain ⟨e1, e2⟩ := hexW_hexFold hex hh
    rw [h8] at e1 e2
    have e3 : (UInt32.ofNat (hexFold hex)).toNat = hexFold hex := by simp; omega
    refine ⟨UInt32.ofNat (hexFold hex), e3, hday, hk, ?_⟩
    unfold bname
    rw [e3, e1, tail ⟨day, hday⟩ ⟨k, hk⟩ d hd]
    simp
  · rintro ⟨b, rfl, hd, hk, rfl⟩
    have hl : day < [b!"su", b!"mo", b!"tu", b!"we", b!"th", b!"fr", b!"sa"].length := by simpa using hd
    obtain ⟨e1, e2⟩ := hexFold_hexW 8 b.toNat (by have := b.toNat_lt; omega)
    refine ⟨hexW 8 b.toNat, [b!"su", b!"mo", b!"tu", b!"we", b!"th", b!"fr", b!"sa"][day], ?_, hk,
      List.getElem?_eq_getElem hl, hexW_length _ _, e2, e1.symm⟩
    unfold bname
    rw [tail ⟨day, hd⟩ ⟨k, hk⟩ _ (List.getElem?_eq_getElem hl)]
    simp

end CM
