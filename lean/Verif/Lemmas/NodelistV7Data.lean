import Verif.Lemmas.NodelistV7
set_option linter.unusedSimpArgs false
/-! # Lemmas about the data of V7+ nodelists -/

namespace CM

theorem charVal_plain {A : V7Arch} {c : UInt8} (h : A.signedChar = true → c < 128) : charVal A c = (c.toNat : Int) := by
  unfold charVal
  rw [if_neg]
  rintro ⟨h1, h2⟩
  have := h h1
  rw [UInt8.lt_iff_toNat_lt] at this
  rw [UInt8.le_iff_toNat_le] at h2
  omega

theorem v7Alphabet_length : v7Alphabet.length = 39 := by decide

theorem v7Table_at {i : Nat} {x : UInt8} (h : v7Alphabet[i]? = some x) : i < 39 ∧ v7Table.getD i 0 = x := by
  have hi : i < 39 := by
    have := (List.getElem?_eq_some_iff.1 h).1
    rwa [v7Alphabet_length] at this
  refine ⟨hi, ?_⟩
  have e : v7Table = v7Alphabet ++ [0] := rfl
  rw [e, List.getD_eq_getElem?_getD, List.getElem?_append_left (by rw [v7Alphabet_length]; exact hi), h]
  rfl

theorem v7Word_packed {A : V7Arch} {lo hi x y z : UInt8} {i j k : Nat} (hx : v7Alphabet[i]? = some x) (hy : v7Alphabet[j]? = some y) (hz : v7Alphabet[k]? = some z)
    (h : lo.toNat + 256 * hi.toNat = 1600 * i + 40 * j + k) (hl : A.signedChar = true → lo < 128) (hh : A.signedChar = true → hi < 128) : v7Word A lo hi = [x, y, z] := by
  obtain ⟨i1, i2⟩ := v7Table_at hx
  obtain ⟨j1, j2⟩ := v7Table_at hy
  obtain ⟨k1, k2⟩ := v7Table_at hz
  unfold v7Word
  have e : (UInt16.ofInt (charVal A lo + charVal A hi * 256)).toNat = 1600 * i + 40 * j + k := by
    rw [charVal_plain hl, charVal_plain hh, UInt16.ofInt, UInt16.toNat_ofNat']
    have := lo.toNat_lt
    have := hi.toNat_lt
    omega
  dsimp only
  rw [e, show (1600 * i + 40 * j + k) / 40 / 40 % 40 = i by omega, show (1600 * i + 40 * j + k) / 40 % 40 = j by omega, show (1600 * i + 40 * j + k) % 40 = k by omega, i2, j2, k2]

theorem junkAt_of {junk : List (Option UInt8)} {k : Nat} {c : UInt8} (h : junk[k]? = some (some c)) : junkAt junk k = .ok c := by
  unfold junkAt
  rw [h]

theorem v7Unpack_packed {A : V7Arch} {p : Data} {s : Str} (h : V7Packed p s) (hp : PlainChars A p) (pre junk : List (Option UInt8)) :
    v7Unpack A (pre ++ (p.map some ++ junk)) ((p.length + 1) / 2) pre.length = .ok s := by
  induction h generalizing pre with
  | nil => rfl
  | cons lo hi p x y z s i j k hx hy hz hw _ ih =>
    have e1 : junkAt (pre ++ ((lo :: hi :: p).map some ++ junk)) pre.length = .ok lo := junkAt_of (by simp)
    have e2 : junkAt (pre ++ ((lo :: hi :: p).map some ++ junk)) (pre.length + 1) = .ok hi := junkAt_of (by simp [List.getElem?_append])
    have e3 := ih (fun c hc => hp c (by simp [hc])) (pre ++ [some lo, some hi])
    have e4 : pre ++ [some lo, some hi] ++ (p.map some ++ junk) = pre ++ ((lo :: hi :: p).map some ++ junk) := by simp
    rw [e4, show (pre ++ [some lo, some hi]).length = pre.length + 2 by simp] at e3
    have hn : ((lo :: hi :: p).length + 1) / 2 = (p.length + 1) / 2 + 1 := by simp only [List.length_cons]; omega
    rw [hn]
    unfold v7Unpack
    rw [e1, e2, e3]
    show Except.ok _ = _
    rw [v7Word_packed hx hy hz hw (hp lo (by simp)) (hp hi (by simp))]
    rfl

theorem junkRead_found {f : Data} {pos : Nat} {len : UInt32} {junk : List (Option UInt8)} {d : Data} (h : Found7 f pos d) (hl : len.toNat = d.length) (hj : d.length ≤ junk.length) :
    junkRead f pos len junk = .ok (some (d.map some ++ junk.drop d.length)) := by
  obtain ⟨p, s, rfl, rfl⟩ := h
  unfold junkRead
  have e : ((p ++ (d ++ s)).drop p.length).take len.toNat = d := by rw [List.drop_left, hl, List.take_left]
  dsimp only
  rw [e, if_neg (by omega), if_neg (by omega)]

theorem Found7.left {r : Data} {off : Nat} {a b : Data} (h : Found7 r off (a ++ b)) : Found7 r off a := by
  obtain ⟨p, s, rfl, rfl⟩ := h
  exact ⟨p, b ++ s, by simp, rfl⟩

theorem Found7.right {r : Data} {off : Nat} {a b : Data} (h : Found7 r off (a ++ b)) : Found7 r (off + a.length) b := by
  obtain ⟨p, s, rfl, rfl⟩ := h
  exact ⟨p ++ a, s, by simp, by simp⟩

/-! ## The position -/

theorem hexVal_cap (n : Nat) (h : n < 16) : hexVal (hexCap n) = some n ∧ hexVal (lower (hexCap n)) = some n := by
  have : ∀ n, n < 16 → hexVal (hexCap n) = some n ∧ hexVal (lower (hexCap n)) = some n := by decide
  exact this n h

theorem hexCaps_length (w n : Nat) : (hexCaps w n).length = w := by
  induction w generalizing n with
  | zero => rfl
  | succ w ih => simp only [hexCaps, List.length_append, ih, List.length_cons, List.length_nil]

theorem hexCaps_mem (w n : Nat) : ∀ c ∈ hexCaps w n, ∃ k, k < 16 ∧ c = hexCap k := by
  induction w generalizing n with
  | zero => simp [hexCaps]
  | succ w ih =>
    intro c hc
    simp only [hexCaps, List.mem_append, List.mem_singleton] at hc
    rcases hc with hc | rfl
    · exact ih _ c hc
    · exact ⟨n % 16, by omega, rfl⟩

theorem hextodecLoop_snoc (r : UInt64) (s : Str) (c : UInt8) (v : Nat) (h : ∀ x ∈ s, (hexVal x).isSome) (hc : hexVal c = some v) :
    hextodecLoop r (s ++ [c]) = hextodecLoop r s * 16 + UInt64.ofNat v := by
  induction s generalizing r with
  | nil => simp [hextodecLoop, hc]
  | cons x s ih =>
    obtain ⟨k, hk⟩ := Option.isSome_iff_exists.1 (h x (by simp))
    simp only [List.cons_append, hextodecLoop, hk]
    exact ih _ (fun y hy => h y (by simp [hy]))

theorem hextodec_caps (w n : Nat) (h : n < 16 ^ w) : hextodec (hexCaps w n) = UInt64.ofNat n := by
  induction w generalizing n with
  | zero =>
    simp only [Nat.pow_zero] at h
    have : n = 0 := by omega
    subst this
    rfl
  | succ w ih =>
    have h' : n / 16 < 16 ^ w := by rw [Nat.pow_succ] at h; exact Nat.div_lt_of_lt_mul (by omega)
    unfold hextodec at *
    simp only [hexCaps]
    rw [hextodecLoop_snoc 0 _ _ (n % 16) (fun x hx => by obtain ⟨k, hk, rfl⟩ := hexCaps_mem _ _ x hx; simp [(hexVal_cap k hk).1]) (hexVal_cap _ (by omega)).1, ih _ h']
    have : n = n / 16 * 16 + n % 16 := by omega
    conv => rhs; rw [this]
    simp only [UInt64.ofNat_add, UInt64.ofNat_mul]
    rfl

theorem v7Hex_found (names hex rest : Str) (size n c : Nat) (hn : names.length < 1000) (hc : c + n = 8) (hl : hex.length = 8) (hh : ∀ x ∈ hex, ∃ k, k < 16 ∧ x = hexCap k) :
    v7Hex (names ++ (hex ++ rest)) size (UInt32.ofNat names.length) n (UInt32.ofNat c) = .ok true := by
  induction n generalizing c with
  | zero => rfl
  | succ n ih =>
    have hk : (UInt32.ofNat names.length + UInt32.ofNat c).toNat = names.length + c := by
      rw [← UInt32.ofNat_add, UInt32.toNat_ofNat']
      omega
    have hx : (names ++ (hex ++ rest)).getD (names.length + c) 0 = hex[c] := by
      rw [List.getD_eq_getElem?_getD, List.getElem?_append_right (by omega), Nat.add_sub_cancel_left, List.getElem?_append_left (by omega), List.getElem?_eq_getElem (by omega)]
      rfl
    obtain ⟨k, hk16, hke⟩ := hh hex[c] (List.getElem_mem _)
    have e : unpackedAt (names ++ (hex ++ rest)) size (UInt32.ofNat names.length + UInt32.ofNat c) = .ok (hexCap k) := by
      unfold unpackedAt
      rw [hk, if_pos (by simp only [List.length_append]; omega), hx, hke]
    have e2 := ih (c + 1) (by omega)
    rw [UInt32.ofNat_add] at e2
    unfold v7Hex
    rw [e]
    show (if (hexVal (lower (hexCap k))).isSome = true then _ else _) = _
    rw [(hexVal_cap k hk16).2]
    exact e2

theorem u32_ofNatInt (n : Nat) (h : n < 2 ^ 32) : (UInt32.ofInt (n : Int)).toNat = n := by
  rw [UInt32.ofInt, UInt32.toNat_ofNat']
  omega

theorem leBytes_two (v : Nat) : leBytes 2 v = [UInt8.ofNat (v % 256), UInt8.ofNat (v / 256 % 256)] := rfl

theorem v7Numbers_spec {A : V7Arch} {dtp : Data} {sz : Nat} {junk : List (Option UInt8)} {names rest : Str} {pos hub region : Nat} (hn : names.length < 1000) (hr : rest.length < 1000)
    (hp : pos < 2 ^ 32) (hd : Found7 dtp pos (leBytes 2 region ++ leBytes 2 hub)) (hj : 4 ≤ junk.length) (hpc : PlainChars A (leBytes 2 region ++ leBytes 2 hub)) (hhub : hub < 65536) (hreg : region < 65536) :
    v7Numbers A dtp sz junk (names ++ (hexCaps 8 pos ++ rest)) (UInt32.ofNat names.length) = .ok (some (UInt32.ofNat hub, UInt32.ofNat region)) := by
  have e1 : ¬ UInt32.ofNat (names ++ (hexCaps 8 pos ++ rest)).length - UInt32.ofNat names.length < 8 := by
    rw [UInt32.lt_iff_toNat_lt, UInt32.toNat_sub, UInt32.toNat_ofNat', UInt32.toNat_ofNat']
    simp only [List.length_append, hexCaps_length]
    have : (8 : UInt32).toNat = 8 := rfl
    omega
  have e2 := v7Hex_found names (hexCaps 8 pos) rest (sz * 3 / 2 + 3) 8 0 hn rfl (hexCaps_length _ _) (hexCaps_mem _ _)
  have e3 : (hextodec (((names ++ (hexCaps 8 pos ++ rest)).drop (UInt32.ofNat names.length).toNat).take 8)).toUInt32.toNat = pos := by
    have : (UInt32.ofNat names.length).toNat = names.length := by rw [UInt32.toNat_ofNat']; omega
    rw [this, List.drop_left, List.take_left' (hexCaps_length 8 pos), hextodec_caps 8 pos (by omega), UInt64.toNat_toUInt32, UInt64.toNat_ofNat']
    omega
  have e4 := junkRead_found (len := 4) hd rfl (by simpa [leBytes_length] using hj)
  unfold v7Numbers
  rw [if_neg e1]
  show (do let b ← v7Hex _ _ _ 8 (UInt32.ofNat 0); _) = _
  rw [e2]
  show (do let j ← junkRead dtp _ 4 junk; _) = _
  rw [e3, e4]
  simp only [leBytes_two, PlainChars, List.cons_append, List.nil_append, List.mem_cons, List.not_mem_nil, or_false, forall_eq_or_imp, forall_eq] at hpc ⊢
  show (Except.ok (some (UInt32.ofInt (charVal A (UInt8.ofNat (hub % 256)) + charVal A (UInt8.ofNat (hub / 256 % 256)) * 256), UInt32.ofInt (charVal A (UInt8.ofNat (region % 256)) + charVal A (UInt8.ofNat (region / 256 % 256)) * 256))) : Except JErr (Option (UInt32 × UInt32))) = _
  rw [charVal_plain hpc.1, charVal_plain hpc.2.1, charVal_plain hpc.2.2.1, charVal_plain hpc.2.2.2]
  have g : ∀ v, v < 65536 → UInt32.ofInt (((UInt8.ofNat (v % 256)).toNat : Int) + ((UInt8.ofNat (v / 256 % 256)).toNat : Int) * 256) = UInt32.ofNat v := by
    intro v hv
    apply UInt32.toNat_inj.1
    rw [UInt32.ofInt, UInt32.toNat_ofNat', UInt32.toNat_ofNat', UInt8.toNat_ofNat', UInt8.toNat_ofNat']
    omega
  rw [g _ hhub, g _ hreg]

theorem V7Packed.length {p : Data} {s : Str} (h : V7Packed p s) : 2 * s.length = 3 * p.length := by
  induction h with
  | nil => rfl
  | cons _ _ _ _ _ _ _ _ _ _ _ _ _ _ _ ih => simp only [List.length_cons]; omega

theorem v7HubRegion_spec {A : V7Arch} {dat dtp : Data} {off : UInt32} {hub region : Nat} {h phone pass pack : Data} (hd : V7Data dat dtp off.toNat hub region h phone pass pack)
    (hc : PlainChars A (h ++ (pack ++ (leBytes 2 region ++ leBytes 2 hub)))) : v7HubRegion A dat dtp off = .ok (some (UInt32.ofNat hub, UInt32.ofNat region)) := by
  obtain ⟨h22, ⟨l1, l2, l3⟩, ⟨s1, s2, s3⟩, there, ⟨names, rest, pos, hpos, hpk, hnm, hdtp⟩, hs1, hs2⟩ := hd
  have hlen := hpk.length
  simp only [List.length_append, hexCaps_length] at hlen
  have eh : (dat.drop off.toNat).take 22 = h := by
    obtain ⟨p, s, rfl, hp⟩ := there
    rw [← hp, List.drop_left, ← h22, List.append_assoc, List.take_left]
  have hh : ∀ k c, h[k]? = some c → charVal A (h.getD k 0) = (c.toNat : Int) := by
    intro k c hk
    rw [List.getD_eq_getElem?_getD, hk]
    exact charVal_plain (hc c (List.mem_append_left _ (List.mem_of_getElem? hk)))
  have u8 : ∀ n, n < 256 → (UInt8.ofNat n).toNat = n := fun n hn => by rw [UInt8.toNat_ofNat']; omega
  have c15 : charVal A (h.getD 15 0) = (phone.length : Int) := by rw [hh _ _ l1, u8 _ s1]
  have c16 : charVal A (h.getD 16 0) = (pass.length : Int) := by rw [hh _ _ l2, u8 _ s2]
  have c20 : charVal A (h.getD 20 0) = (pack.length : Int) := by rw [hh _ _ l3, u8 _ s3]
  have cn : ∀ k, k < 22 → charVal A (h.getD k 0) = ((h.getD k 0).toNat : Int) := by
    intro k hk
    have g : h[k]? = some h[k] := List.getElem?_eq_getElem (by omega)
    rw [hh _ _ g, List.getD_eq_getElem?_getD, g]
    rfl
  have t2 := there.right
  rw [h22] at t2
  have f1 := t2.left
  have f2 := t2.right.left
  have f3 := t2.right.right
  have up := u32_ofNatInt phone.length (by omega)
  have ua := u32_ofNatInt pass.length (by omega)
  have uk := u32_ofNatInt pack.length (by omega)
  obtain ⟨sz, hsz, m1, m2, m3⟩ : ∃ sz : Nat, v7Size phone.length pass.length pack.length = (sz : Int) ∧ phone.length ≤ sz ∧ pass.length ≤ sz ∧ pack.length ≤ sz := by
    refine ⟨max pack.length (max pass.length phone.length), ?_, by omega, by omega, by omega⟩
    unfold v7Size
    dsimp only
    repeat' split
    all_goals omega
  unfold v7HubRegion
  dsimp only
  rw [eh, if_neg (by omega), c15, c16, c20]
  unfold v7Body
  dsimp only
  rw [hsz, if_neg (by omega), Int.toNat_natCast]
  rw [junkRead_found (d := phone) f1 up (by rw [List.length_replicate]; exact m1)]
  show (do let j ← junkRead dat _ _ _; _) = _
  have j1 : (phone.map some ++ (List.replicate sz (none : Option UInt8)).drop phone.length).length = sz := by simp; omega
  rw [junkRead_found (d := pass) (by rw [up]; exact f2) ua (by rw [j1]; exact m2)]
  show (do let j ← junkRead dat _ _ _; _) = _
  generalize hJ : pass.map some ++ (phone.map some ++ (List.replicate sz (none : Option UInt8)).drop phone.length).drop pass.length = J
  have j2 : J.length = sz := by rw [← hJ, List.length_append, List.length_map, List.length_drop, j1]; omega
  rw [junkRead_found (d := pack) (by rw [up, ua]; exact f3) uk (by rw [j2]; exact m3)]
  show (do let s ← v7Unpack A _ _ 0; _) = _
  have e := v7Unpack_packed hpk (fun c hcm => hc c (by simp [hcm])) [] (J.drop pack.length)
  simp only [List.nil_append, List.length_nil] at e
  rw [uk, e]
  show v7Numbers A dtp sz _ _ _ = _
  rw [cn 17 (by omega), cn 18 (by omega), cn 19 (by omega)]
  have es : UInt32.ofInt (((h.getD 17 0).toNat : Int) + ((h.getD 18 0).toNat : Int) + ((h.getD 19 0).toNat : Int)) = UInt32.ofNat names.length := by
    apply UInt32.toNat_inj.1
    rw [hnm, ← Int.natCast_add, ← Int.natCast_add, UInt32.ofInt, UInt32.toNat_ofNat', UInt32.toNat_ofNat']
    omega
  rw [es]
  refine v7Numbers_spec (by omega) (by omega) hpos hdtp ?_ (fun c hcm => hc c (by simp only [List.mem_append] at hcm ⊢; exact Or.inr (Or.inr hcm))) hs1 hs2
  simp only [List.length_append, List.length_map, List.length_drop, j2]
  omega

end CM
