import Verif.Spec.NodelistV7
import Verif.Props.Node4D
import Verif.Lemmas.ReadConfig
set_option linter.unusedSimpArgs false
/-! # Lemmas about V7+ nodelists -/

namespace CM

theorem leBytes_length (n v : Nat) : (leBytes n v).length = n := by
  induction n generalizing v with
  | zero => rfl
  | succ n ih => simp only [leBytes, List.length_cons, ih]

theorem leNat_leBytes (n v : Nat) (h : v < 256 ^ n) : leNat (leBytes n v) = v := by
  induction n generalizing v with
  | zero => simp only [Nat.pow_zero] at h; simp only [leBytes, leNat]; omega
  | succ n ih =>
    have h' : v / 256 < 256 ^ n := by rw [Nat.pow_succ] at h; exact Nat.div_lt_of_lt_mul (by omega)
    simp only [leBytes, leNat, ih _ h']
    have : (UInt8.ofNat (v % 256)).toNat = v % 256 := by simp only [UInt8.toNat_ofNat']; omega
    omega

theorem leNat_ones (n : Nat) : leNat (List.replicate n 255) + 1 = 256 ^ n := by
  induction n with
  | zero => rfl
  | succ n ih =>
    simp only [List.replicate_succ, leNat, Nat.pow_succ]
    have : (255 : UInt8).toNat = 255 := rfl
    omega

/-- The buffer begins with the record. -/
def HasRec (buf r : Data) : Prop := ∃ s, buf = r ++ s

theorem bufAt_found {buf r : Data} {off : Nat} {b : Data} (hr : HasRec buf r) (h : Found7 r off b) : bufAt buf off b.length = .ok b := by
  obtain ⟨s, rfl⟩ := hr
  obtain ⟨p, q, rfl, rfl⟩ := h
  unfold bufAt
  rw [if_pos (by simp only [List.length_append]; omega)]
  simp [List.append_assoc]

theorem bufWord_found {buf r : Data} {off v : Nat} (hr : HasRec buf r) (h : Found7 r off (leBytes 2 v)) (hv : v < 65536) : bufWord buf off = .ok v := by
  have e := bufAt_found hr h
  rw [leBytes_length] at e
  unfold bufWord
  rw [e]
  show Except.ok _ = _
  rw [leNat_leBytes 2 v (by omega)]

theorem bufLong_found {A : V7Arch} {buf r : Data} {off v : Nat} (hr : HasRec buf r) (h : Found7 r off (leBytes A.long v)) (hv : v < 256 ^ A.long) :
    bufLong A buf off = .ok (signedOf A.long v) := by
  have e := bufAt_found hr h
  rw [leBytes_length] at e
  unfold bufLong
  rw [e]
  show Except.ok _ = _
  rw [leNat_leBytes _ v hv]

theorem long_range {L v : Nat} (hL : L = 4 ∨ L = 8) (h : v < 2 ^ (8 * L - 1)) : v < 256 ^ L ∧ signedOf L v = v := by
  refine ⟨?_, by unfold signedOf; rw [if_pos h]⟩
  rcases hL with rfl | rfl <;> omega

theorem bufLong_mark {A : V7Arch} {buf r : Data} (hL : A.long = 4 ∨ A.long = 8) (hr : HasRec buf r) (h : Found7 r 0 (List.replicate A.long 255)) : bufLong A buf 0 = .ok (-1) := by
  have e := bufAt_found hr h
  rw [List.length_replicate] at e
  unfold bufLong
  rw [e]
  show Except.ok _ = _
  have := leNat_ones A.long
  rcases hL with hl | hl <;> rw [hl] at this ⊢ <;> (congr 1)

theorem v7Count_found {A : V7Arch} {buf r : Data} {n : Nat} (hr : HasRec buf r) (h : Found7 r (3 * A.long) (leBytes 2 n)) (hn : n < 32768) : v7Count A buf = .ok (n : Int) := by
  unfold v7Count
  rw [bufWord_found hr h (by omega)]
  show Except.ok _ = _
  unfold signedOf
  rw [if_pos (by omega)]

theorem v7Addr_full (a : Node4D) : v7Addr (leBytes 2 a.zone.toNat ++ (leBytes 2 a.net.toNat ++ (leBytes 2 a.node.toNat ++ leBytes 2 a.point.toNat))) = a := by
  have l : ∀ v : UInt16, UInt16.ofNat (leNat (leBytes 2 v.toNat)) = v := by
    intro v
    rw [leNat_leBytes 2 _ (by have := v.toNat_lt; omega), UInt16.ofNat_toNat]
  unfold v7Addr
  have e1 : List.take 2 (leBytes 2 a.zone.toNat ++ (leBytes 2 a.net.toNat ++ (leBytes 2 a.node.toNat ++ leBytes 2 a.point.toNat))) = leBytes 2 a.zone.toNat := rfl
  have e2 : List.take 2 (List.drop 2 (leBytes 2 a.zone.toNat ++ (leBytes 2 a.net.toNat ++ (leBytes 2 a.node.toNat ++ leBytes 2 a.point.toNat)))) = leBytes 2 a.net.toNat := rfl
  have e3 : List.take 2 (List.drop 4 (leBytes 2 a.zone.toNat ++ (leBytes 2 a.net.toNat ++ (leBytes 2 a.node.toNat ++ leBytes 2 a.point.toNat)))) = leBytes 2 a.node.toNat := rfl
  have e4 : List.take 2 (List.drop 6 (leBytes 2 a.zone.toNat ++ (leBytes 2 a.net.toNat ++ (leBytes 2 a.node.toNat ++ leBytes 2 a.point.toNat)))) = leBytes 2 a.point.toNat := rfl
  rw [e1, e2, e3, e4, l, l, l, l]

theorem v7Addr_short (a : Node4D) (h : a.point = 0) : v7Addr (leBytes 2 a.zone.toNat ++ (leBytes 2 a.net.toNat ++ leBytes 2 a.node.toNat)) = a := by
  have l : ∀ v : UInt16, UInt16.ofNat (leNat (leBytes 2 v.toNat)) = v := by
    intro v
    rw [leNat_leBytes 2 _ (by have := v.toNat_lt; omega), UInt16.ofNat_toNat]
  unfold v7Addr
  have e1 : List.take 2 (leBytes 2 a.zone.toNat ++ (leBytes 2 a.net.toNat ++ leBytes 2 a.node.toNat)) = leBytes 2 a.zone.toNat := rfl
  have e2 : List.take 2 (List.drop 2 (leBytes 2 a.zone.toNat ++ (leBytes 2 a.net.toNat ++ leBytes 2 a.node.toNat))) = leBytes 2 a.net.toNat := rfl
  have e3 : List.take 2 (List.drop 4 (leBytes 2 a.zone.toNat ++ (leBytes 2 a.net.toNat ++ leBytes 2 a.node.toNat))) = leBytes 2 a.node.toNat := rfl
  have e4 : List.take 2 (List.drop 6 (leBytes 2 a.zone.toNat ++ (leBytes 2 a.net.toNat ++ leBytes 2 a.node.toNat))) = [] := rfl
  rw [e1, e2, e3, e4, l, l, l]
  cases a
  simp only at h
  subst h
  rfl

theorem v7Compare_found {buf r : Data} {pos : Nat} {a node : Node4D} (hr : HasRec buf r) (h : V7KeyAt r pos a) :
    ∃ off len, bufWord buf pos = .ok off ∧ bufWord buf (pos + 2) = .ok len ∧ v7Compare buf off len node = .ok (compare4D a node) := by
  obtain ⟨off, key, ho, hk, h1, h2, h3⟩ := h
  have e := bufAt_found hr h3
  have hlen : key.length = 8 ∧ v7Addr key = a ∨ key.length = 6 ∧ v7Addr key = a := by
    cases hk with
    | full => left; exact ⟨rfl, v7Addr_full a⟩
    | short hp => right; exact ⟨rfl, v7Addr_short a hp⟩
  refine ⟨off, key.length, bufWord_found hr h1 ho, bufWord_found hr h2 (by rcases hlen with h | h <;> omega), ?_⟩
  unfold v7Compare
  rw [if_neg (by rcases hlen with h | h <;> omega), e]
  show Except.ok _ = _
  rcases hlen with h | h <;> rw [h.2]

theorem compare4D_pos_iff (a b : Node4D) (ha : a.zone ≠ 0) (hb : b.zone ≠ 0) : compare4D a b > 0 ↔ AddrBefore b a := by
  have h := compare4D_antisymm a b
  have h2 := compare4D_lt_iff b a hb ha
  unfold AddrBefore
  rw [← h2]
  omega

/-- The loop over the keys ends at the first key behind the address. -/
theorem v7Keys_spec (A : V7Arch) (buf r : Data) (node : Node4D) (hr : HasRec buf r) (hz : node.zone ≠ 0) (ks : List (Node4D × Nat)) (hk0 : ∀ k ∈ ks, k.1.zone ≠ 0)
    (hk : ∀ (i : Nat) (k : Node4D × Nat), ks[i]? = some k → V7KeyAt r (4 * A.long + i * (3 * A.long)) k.1) (n i : Nat) (hn : i + n = ks.length) :
    ∃ m, v7Keys A buf node n i = .ok m ∧ i ≤ m ∧ m ≤ ks.length ∧ (∀ (j : Nat) (k : Node4D × Nat), ks[j]? = some k → i ≤ j → j < m → ¬ AddrBefore node k.1) ∧
      (∀ k : Node4D × Nat, ks[m]? = some k → AddrBefore node k.1) := by
  induction n generalizing i with
  | zero =>
    refine ⟨i, rfl, Nat.le_refl _, by omega, fun j k _ h1 h2 => by omega, fun k h => ?_⟩
    have := (List.getElem?_eq_some_iff.1 h).1
    omega
  | succ n ih =>
    have hi : i < ks.length := by omega
    have hg : ks[i]? = some ks[i] := List.getElem?_eq_getElem hi
    obtain ⟨off, len, e1, e2, e3⟩ := v7Compare_found (node := node) hr (hk i _ hg)
    have hp := compare4D_pos_iff ks[i].1 node (hk0 _ (List.getElem_mem hi)) hz
    have e : v7Keys A buf node (n + 1) i = if compare4D ks[i].1 node > 0 then .ok i else v7Keys A buf node n (i + 1) := by
      show (do let a ← bufWord buf _; let b ← bufWord buf _; let c ← v7Compare buf a b node; if c > 0 then pure i else v7Keys A buf node n (i + 1) : Except JErr Nat) = _
      rw [e1]
      show (do let b ← bufWord buf _; let c ← v7Compare buf off b node; if c > 0 then pure i else v7Keys A buf node n (i + 1) : Except JErr Nat) = _
      rw [e2]
      show (do let c ← v7Compare buf off len node; if c > 0 then pure i else v7Keys A buf node n (i + 1) : Except JErr Nat) = _
      rw [e3]
      rfl
    rw [e]
    by_cases hc : compare4D ks[i].1 node > 0
    · rw [if_pos hc]
      refine ⟨i, rfl, Nat.le_refl _, by omega, fun j k _ h1 h2 => by omega, fun k h => ?_⟩
      rw [hg] at h
      cases h
      exact hp.1 hc
    · rw [if_neg hc]
      obtain ⟨m, h1, h2, h3, h4, h5⟩ := ih (i + 1) (by omega)
      refine ⟨m, h1, by omega, h3, fun j k hj a b => ?_, h5⟩
      by_cases hij : j = i
      · subst hij
        rw [hg] at hj
        cases hj
        exact fun h => hc (hp.2 h)
      · exact h4 j k hj (by omega) b

theorem ofInt_signedOf {L : Nat} (hL : L = 4 ∨ L = 8) (v : UInt32) : UInt32.ofInt (signedOf L v.toNat) = v := by
  have hv := v.toNat_lt
  unfold signedOf
  rcases hL with rfl | rfl
  · split
    · apply UInt32.toNat_inj.1
      rw [UInt32.ofInt, UInt32.toNat_ofNat']
      omega
    · apply UInt32.toNat_inj.1
      rw [UInt32.ofInt, UInt32.toNat_ofNat']
      omega
  · rw [if_pos (by omega)]
    apply UInt32.toNat_inj.1
    rw [UInt32.ofInt, UInt32.toNat_ofNat']
    omega

theorem AddrBefore.irrefl (a : Node4D) : ¬ AddrBefore a a := by
  unfold AddrBefore
  simp only [UInt16.lt_irrefl, false_or, and_false, or_false, not_false_eq_true]

theorem AddrBefore.asymm {a b : Node4D} (h : AddrBefore a b) : ¬ AddrBefore b a := by
  unfold AddrBefore at *
  simp only [UInt16.lt_iff_toNat_lt, ← UInt16.toNat_inj] at *
  omega

/-- The loop over the entries of a leaf finds the entry for the address. -/
theorem v7Leaf_spec (A : V7Arch) (hL : A.long = 4 ∨ A.long = 8) (buf r : Data) (node : Node4D) (hr : HasRec buf r) (hz : node.zone ≠ 0) (es : List (Node4D × UInt32))
    (h : V7LeafRec A.long r es) (hs : es.Pairwise (fun a b => AddrBefore a.1 b.1)) (h0 : ∀ e ∈ es, e.1.zone ≠ 0) (n i : Nat) (hn : i + n = es.length) :
    ∃ res, v7Leaf A buf node n i = .ok res ∧ ∀ v, res.map UInt32.ofInt = some v ↔ (node, v) ∈ es.drop i := by
  induction n generalizing i with
  | zero =>
    refine ⟨none, rfl, fun v => ?_⟩
    rw [List.drop_of_length_le (by omega)]
    simp
  | succ n ih =>
    have hi : i < es.length := by omega
    have hg : es[i]? = some es[i] := List.getElem?_eq_getElem hi
    obtain ⟨hk, hv⟩ := h.keys i _ hg
    obtain ⟨off, len, e1, e2, e3⟩ := v7Compare_found (node := node) hr hk
    have hp := compare4D_pos_iff es[i].1 node (h0 _ (List.getElem_mem hi)) hz
    have hq := compare4D_eq_zero_iff_eq es[i].1 node (h0 _ (List.getElem_mem hi)) hz
    have el := bufLong_found hr hv (by have := es[i].2.toNat_lt; rcases hL with h | h <;> rw [h] <;> omega)
    have e : v7Leaf A buf node (n + 1) i = if compare4D es[i].1 node > 0 then .ok none else if compare4D es[i].1 node = 0 then .ok (some (signedOf A.long es[i].2.toNat)) else v7Leaf A buf node n (i + 1) := by
      show (do let a ← bufWord buf _; let b ← bufWord buf _; let c ← v7Compare buf a b node
               if c > 0 then pure none else if c = 0 then (do let z ← bufLong A buf _; pure (some z)) else v7Leaf A buf node n (i + 1) : Except JErr (Option Int)) = _
      rw [e1]
      show (do let b ← bufWord buf _; let c ← v7Compare buf off b node
               if c > 0 then pure none else if c = 0 then (do let z ← bufLong A buf _; pure (some z)) else v7Leaf A buf node n (i + 1) : Except JErr (Option Int)) = _
      rw [e2]
      show (do let c ← v7Compare buf off len node
               if c > 0 then pure none else if c = 0 then (do let z ← bufLong A buf _; pure (some z)) else v7Leaf A buf node n (i + 1) : Except JErr (Option Int)) = _
      rw [e3, el]
      rfl
    have hd : es.drop i = es[i] :: es.drop (i + 1) := List.drop_eq_getElem_cons hi
    have hlater : ∀ e ∈ es.drop (i + 1), AddrBefore es[i].1 e.1 := by
      have := List.Pairwise.drop (i := i) hs
      rw [hd, List.pairwise_cons] at this
      exact this.1
    rw [e]
    by_cases hc : compare4D es[i].1 node > 0
    · rw [if_pos hc]
      refine ⟨none, rfl, fun v => ?_⟩
      have hb := hp.1 hc
      rw [hd]
      simp only [Option.map_none, reduceCtorEq, false_iff, List.mem_cons, not_or]
      refine ⟨fun h => ?_, fun h => ?_⟩
      · rw [← h] at hb
        exact AddrBefore.irrefl _ hb
      · exact AddrBefore.asymm hb (hlater _ h)
    · rw [if_neg hc]
      by_cases hc0 : compare4D es[i].1 node = 0
      · rw [if_pos hc0]
        have he := hq.1 hc0
        refine ⟨_, rfl, fun v => ?_⟩
        rw [hd, Option.map_some, ofInt_signedOf hL, Option.some.injEq, List.mem_cons]
        constructor
        · intro h
          left
          rw [← h, ← he]
        · rintro (h | h)
          · rw [← h]
          · exact absurd (hlater _ h) (by rw [he]; exact AddrBefore.irrefl _)
      · rw [if_neg hc0]
        obtain ⟨res, h1, h2⟩ := ih (i + 1) (by omega)
        refine ⟨res, h1, fun v => ?_⟩
        rw [h2, hd, List.mem_cons]
        constructor
        · exact Or.inr
        · rintro (h | h)
          · exact absurd (hq.2 (by rw [← h])) hc0
          · exact h

/-- A record is read and the search goes on in it. -/
def v7From (A : V7Arch) (node : Node4D) (fuel : Nat) (x : V7Ndx) (n : Int) : Except JErr (Option UInt32 × V7Ndx) := do
  let (ok, x) ← v7Read A x n
  if !ok then return (none, x) else v7Search A node fuel x

theorem v7Find_eq (A : V7Arch) (fuel : Nat) (node : Node4D) (x : V7Ndx) : v7Find A fuel node x = v7From A node fuel x x.root := rfl

theorem v7Read_rec (A : V7Arch) (x : V7Ndx) (n : Nat) (r : Data) (hs : x.recSize ≤ 512) (hb : x.buf.length = 512) (h : V7Rec A.long x.file x.recSize n r) :
    ∃ x', v7Read A x n = .ok (true, x') ∧ x'.file = x.file ∧ x'.recSize = x.recSize ∧ x'.root = x.root ∧ x'.buf.length = 512 ∧ HasRec x'.buf r := by
  obtain ⟨hl, hn, p, s, hf, hp⟩ := h
  have hz : ((n : Int) * (x.recSize : Int)) = ((n * x.recSize : Nat) : Int) := by simp
  have hd : (x.file.drop (n * x.recSize)).take x.recSize = r := by
    rw [hf, ← hp, List.drop_left, ← hl, List.take_left]
  unfold v7Read
  have e1 : ¬ ((n : Int) * (x.recSize : Int) < -2 ^ (8 * A.long - 1) ∨ 2 ^ (8 * A.long - 1) ≤ (n : Int) * (x.recSize : Int)) := by
    rw [hz]
    have : ((n * x.recSize : Nat) : Int) < ((2 ^ (8 * A.long - 1) : Nat) : Int) := by exact_mod_cast hn
    rw [Int.natCast_pow] at this
    have h2 : (0 : Int) < 2 ^ (8 * A.long - 1) := Int.pow_pos (by decide)
    simp only [Int.cast_ofNat_Int] at this
    omega
  dsimp only
  rw [if_neg e1, hz, if_neg (by omega), Int.toNat_natCast, hd, hl, beq_self_eq_true]
  refine ⟨{ x with pos := n * x.recSize + x.recSize, buf := r ++ x.buf.drop x.recSize }, rfl, rfl, rfl, rfl, ?_, _, rfl⟩
  simp only [List.length_append, List.length_drop, hb]
  omega

theorem v7Down_spec (A : V7Arch) (hL : A.long = 4 ∨ A.long = 8) (buf r : Data) (node : Node4D) (hr : HasRec buf r) (hz : node.zone ≠ 0) (first : Nat) (ks : List (Node4D × Nat))
    (h : V7IndexRec A.long r first ks) (hk0 : ∀ k ∈ ks, k.1.zone ≠ 0) :
    ∃ m, m ≤ ks.length ∧ (∀ (j : Nat) (k : Node4D × Nat), ks[j]? = some k → j < m → ¬ AddrBefore node k.1) ∧ (∀ k : Node4D × Nat, ks[m]? = some k → AddrBefore node k.1) ∧
      (m = 0 ∧ v7Down A buf node = .ok (some (first : Int)) ∨ ∃ k : Node4D × Nat, 0 < m ∧ ks[m - 1]? = some k ∧ v7Down A buf node = .ok (some (k.2 : Int))) := by
  obtain ⟨m, e, -, h2, h3, h4⟩ := v7Keys_spec A buf r node hr hz ks hk0 (fun i k hk => (h.keys i k hk).2.1) ks.length 0 (by omega)
  refine ⟨m, h2, fun j k hj hm => h3 j k hj (Nat.zero_le _) hm, h4, ?_⟩
  have ed : v7Down A buf node = (do let z ← v7Pick A buf m; pure (some z)) := by
    show (do let n ← v7Count A buf
             if n < 0 then pure none else (do let k ← v7Keys A buf node n.toNat 0; let z ← v7Pick A buf k; pure (some z)) : Except JErr (Option Int)) = _
    rw [v7Count_found hr h.count h.few]
    show (if (ks.length : Int) < 0 then pure none else (do let k ← v7Keys A buf node (ks.length : Int).toNat 0; let z ← v7Pick A buf k; pure (some z)) : Except JErr (Option Int)) = _
    rw [if_neg (by omega), Int.toNat_natCast, e]
    rfl
  rw [ed]
  cases m with
  | zero =>
    left
    obtain ⟨l1, l2⟩ := long_range hL h.small
    refine ⟨rfl, ?_⟩
    show (do let z ← bufLong A buf 0; pure (some z) : Except JErr (Option Int)) = _
    rw [bufLong_found hr h.start l1, l2]
    rfl
  | succ i =>
    right
    have hi : i < ks.length := by omega
    have hg : ks[i]? = some ks[i] := List.getElem?_eq_getElem hi
    obtain ⟨k1, -, k3⟩ := h.keys i _ hg
    obtain ⟨l1, l2⟩ := long_range hL k1
    refine ⟨ks[i], Nat.succ_pos _, hg, ?_⟩
    show (do let z ← bufLong A buf (4 * A.long + i * (3 * A.long) + 2 * A.long); pure (some z) : Except JErr (Option Int)) = _
    rw [bufLong_found hr k3 l1, l2]
    rfl

theorem v7Search_below (A : V7Arch) (hL : A.long = 4 ∨ A.long = 8) (f : Data) (size : Nat) (hsz : size ≤ 512) (node : Node4D) (hz : node.zone ≠ 0) (n : Nat)
    (es : List (Node4D × UInt32)) (h : V7Below A.long f size n es) :
    ∃ F, ∀ fuel, F ≤ fuel → ∀ x : V7Ndx, x.file = f → x.recSize = size → x.buf.length = 512 →
      ∃ res x', v7From A node fuel x n = .ok (res, x') ∧ (x'.file = f ∧ x'.recSize = size ∧ x'.root = x.root ∧ x'.buf.length = 512) ∧ ∀ v, res = some v ↔ (node, v) ∈ es := by
  induction h with
  | leaf n r es hrec hleaf hs h0 =>
    refine ⟨1, fun fuel hF x hx1 hx2 hx3 => ?_⟩
    obtain ⟨fuel, rfl⟩ : ∃ k, fuel = k + 1 := ⟨fuel - 1, by omega⟩
    subst hx1
    subst hx2
    obtain ⟨x', e, k1, k2, k3, k4, k5⟩ := v7Read_rec A x n r hsz hx3 hrec
    have e2 : v7From A node (fuel + 1) x n = v7Search A node (fuel + 1) x' := by
      unfold v7From
      rw [e]
      rfl
    have hm := bufLong_mark hL k5 hleaf.mark
    have hc := v7Count_found k5 hleaf.count hleaf.few
    have e3 : v7Search A node (fuel + 1) x' = if (es.length : Int) ≤ 0 then .ok (none, x') else (do let z ← v7Leaf A x'.buf node es.length 0; pure (z.map UInt32.ofInt, x')) := by
      unfold v7Search
      rw [hm]
      show (do let n ← v7Count A x'.buf
               if n ≤ 0 then pure (none, x') else (do let z ← v7Leaf A x'.buf node n.toNat 0; pure (z.map UInt32.ofInt, x')) : Except JErr (Option UInt32 × V7Ndx)) = _
      rw [hc]
      rfl
    rw [e2, e3]
    by_cases he : es.length = 0
    · rw [if_pos (by omega)]
      have := List.eq_nil_of_length_eq_zero he
      subst this
      exact ⟨none, x', rfl, ⟨k1, k2, k3, k4⟩, fun v => by simp⟩
    · rw [if_neg (by omega)]
      obtain ⟨res, l1, l2⟩ := v7Leaf_spec A hL x'.buf r node k5 hz es hleaf hs h0 es.length 0 (by omega)
      rw [l1]
      exact ⟨_, x', rfl, ⟨k1, k2, k3, k4⟩, fun v => by rw [l2]; rfl⟩
  | index n r first ks es0 ess hrec hidx hlen hk0 hfirst hch hb0 hbs ih0 ihs =>
    -- the fuel for all the children
    have hfuel : ∀ m, m ≤ ks.length → ∃ F, ∀ i (k : Node4D × Nat) (es : List (Node4D × UInt32)), i < m → ks[i]? = some k → ess[i]? = some es → ∀ fuel, F ≤ fuel → ∀ x : V7Ndx, x.file = f → x.recSize = size → x.buf.length = 512 →
        ∃ res x', v7From A node fuel x k.2 = .ok (res, x') ∧ (x'.file = f ∧ x'.recSize = size ∧ x'.root = x.root ∧ x'.buf.length = 512) ∧ ∀ v, res = some v ↔ (node, v) ∈ es := by
      intro m
      induction m with
      | zero => exact fun _ => ⟨0, fun i _ _ h => by omega⟩
      | succ m ihm =>
        intro hm
        obtain ⟨F, hF⟩ := ihm (by omega)
        have g1 : ks[m]? = some ks[m] := List.getElem?_eq_getElem (by omega)
        have g2 : ess[m]? = some ess[m] := List.getElem?_eq_getElem (by omega)
        obtain ⟨F', hF'⟩ := ihs m _ _ g1 g2
        refine ⟨max F F', fun i k es hi hk he fuel hfu => ?_⟩
        by_cases him : i = m
        · subst him
          rw [g1] at hk
          rw [g2] at he
          cases hk
          cases he
          exact hF' fuel (by omega)
        · exact hF i k es (by omega) hk he fuel (by omega)
    obtain ⟨F0, hF0⟩ := ih0
    obtain ⟨F1, hF1⟩ := hfuel ks.length (Nat.le_refl _)
    refine ⟨max F0 F1 + 1, fun fuel hF x hx1 hx2 hx3 => ?_⟩
    obtain ⟨fuel, rfl⟩ : ∃ k, fuel = k + 1 := ⟨fuel - 1, by omega⟩
    obtain ⟨x', e, k1, k2, k3, k4, k5⟩ := v7Read_rec A x n r (by omega) hx3 (by rw [hx1, hx2]; exact hrec)
    have e2 : v7From A node (fuel + 1) x n = v7Search A node (fuel + 1) x' := by
      unfold v7From
      rw [e]
      rfl
    obtain ⟨l1, l2⟩ := long_range hL hidx.small
    have hm := bufLong_found k5 hidx.start l1
    rw [l2] at hm
    have e3 : ∀ c : Int, v7Down A x'.buf node = .ok (some c) → v7Search A node (fuel + 1) x' = v7From A node fuel x' c := by
      intro c hc
      unfold v7Search
      rw [hm]
      show (if (first : Int) ≠ -1 then (do
          match ← v7Down A x'.buf node with
          | none => pure (none, x')
          | some r => v7From A node fuel x' r) else (do
          let n ← v7Count A x'.buf
          if n ≤ 0 then pure (none, x') else (do let z ← v7Leaf A x'.buf node n.toNat 0; pure (z.map UInt32.ofInt, x'))) : Except JErr (Option UInt32 × V7Ndx)) = _
      rw [if_pos (by omega), hc]
      rfl
    obtain ⟨m, hml, hm1, hm2, hm3⟩ := v7Down_spec A hL x'.buf r node k5 hz first ks hidx hk0
    have hx1' := k1.trans hx1
    have hx2' := k2.trans hx2
    -- which list has the entry
    have hin : ∀ v i (es : List (Node4D × UInt32)), ess[i]? = some es → (node, v) ∈ es → m = i + 1 := by
      intro v i es he hv
      have hi : i < ess.length := (List.getElem?_eq_some_iff.1 he).1
      rcases Nat.lt_trichotomy m (i + 1) with hlt | heq | hgt
      · have g : ks[m]? = some ks[m] := List.getElem?_eq_getElem (by omega)
        have := (hbs i es (node, v) m _ he hv g).2 (hm2 _ g)
        omega
      · exact heq
      · have g : ks[i + 1]? = some ks[i + 1] := List.getElem?_eq_getElem (by omega)
        exact absurd ((hbs i es (node, v) (i + 1) _ he hv g).1 (by omega)) (hm1 _ _ g (by omega))
    have hin0 : ∀ v, (node, v) ∈ es0 → m = 0 := by
      intro v hv
      cases m with
      | zero => rfl
      | succ m =>
        have g : ks[m]? = some ks[m] := List.getElem?_eq_getElem (by omega)
        exact absurd (hb0 (node, v) hv _ (List.getElem_mem (by omega))) (hm1 _ _ g (by omega))
    rcases hm3 with ⟨rfl, hd⟩ | ⟨k, hpos, hk, hd⟩
    · obtain ⟨res, x2, r1, r2, r3⟩ := hF0 fuel (by omega) x' hx1' hx2' k4
      refine ⟨res, x2, by rw [e2, e3 _ hd, r1], ⟨r2.1, r2.2.1, r2.2.2.1.trans k3, r2.2.2.2⟩, fun v => ?_⟩
      rw [r3, List.mem_append, List.mem_flatten]
      constructor
      · exact Or.inl
      · rintro (h | ⟨es, he, hv⟩)
        · exact h
        · obtain ⟨i, hi⟩ := List.mem_iff_getElem?.1 he
          have := hin v i es hi hv
          omega
    · have hkl : m - 1 < ks.length := (List.getElem?_eq_some_iff.1 hk).1
      have g2 : ess[m - 1]? = some ess[m - 1] := List.getElem?_eq_getElem (by omega)
      obtain ⟨res, x2, r1, r2, r3⟩ := hF1 (m - 1) k _ hkl hk g2 fuel (by omega) x' hx1' hx2' k4
      refine ⟨res, x2, by rw [e2, e3 _ hd, r1], ⟨r2.1, r2.2.1, r2.2.2.1.trans k3, r2.2.2.2⟩, fun v => ?_⟩
      rw [r3, List.mem_append, List.mem_flatten]
      constructor
      · exact fun h => Or.inr ⟨_, List.getElem_mem _, h⟩
      · rintro (h | ⟨es, he, hv⟩)
        · have := hin0 v h
          omega
        · obtain ⟨i, hi⟩ := List.mem_iff_getElem?.1 he
          have hmi := hin v i es hi hv
          subst hmi
          have g3 : ess[i]? = some ess[i + 1 - 1] := g2
          rw [g3] at hi
          cases hi
          exact hv

end CM
