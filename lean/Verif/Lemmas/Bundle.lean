import Verif.Spec.Bundle
import Verif.Props.Toss
import Verif.Props.FileOps
/-! # Lemmas for C91 and C92 -/

set_option linter.unusedSimpArgs false

namespace CM

/-! ## Recognising -/

theorem hexVal_is {c : UInt8} {v : Nat} (h : HexIs c v) : hexVal c = some v := by
  obtain ⟨hv, h⟩ := h
  have key : ∀ v : Fin 16, (∀ c : UInt8, (c.toNat = 48 + v.1 ∧ v.1 < 10 ∨ c.toNat = 65 + (v.1 - 10) ∧ 10 ≤ v.1 ∨ c.toNat = 97 + (v.1 - 10) ∧ 10 ≤ v.1) →
      hexVal c = some v.1) := by
    have : ∀ v : Fin 16, ∀ n : Fin 256, (n.1 = 48 + v.1 ∧ v.1 < 10 ∨ n.1 = 65 + (v.1 - 10) ∧ 10 ≤ v.1 ∨ n.1 = 97 + (v.1 - 10) ∧ 10 ≤ v.1) →
        hexVal (UInt8.ofNat n.1) = some v.1 := by decide +kernel
    intro v c hc
    have := this v ⟨c.toNat, c.toNat_lt⟩ hc
    simpa using this
  exact key ⟨v, hv⟩ c h

theorem hex_pair {a b : UInt8} {v w : Nat} (ha : HexIs a v) (hb : HexIs b w) (x : UInt8) :
    x = (hextodec [a, b]).toUInt8 ↔ x.toNat = 16 * v + w := by
  have h1 := ha.1
  have h2 := hb.1
  simp only [hextodec, hextodecLoop, hexVal_is ha, hexVal_is hb]
  have e : ((0 * 16 + UInt64.ofNat v) * 16 + UInt64.ofNat w).toUInt8.toNat = 16 * v + w := by
    simp [UInt64.toNat_toUInt8]
    omega
  rw [← e]
  exact ⟨fun h => by rw [h], fun h => UInt8.toNat_inj.1 h⟩

theorem recogAt_eq {d : Data} {c : Nat} {b : UInt8} (h : recogAt (d.take 40) c = .ok b) : d[c]? = some b := by
  unfold recogAt at h
  split at h
  · cases h
  · split at h
    · cases h
    · rename_i hb
      cases h
      rw [List.getElem?_take] at hb
      split at hb
      · exact hb
      · cases hb

theorem recogAt_ok {d : Data} {c : Nat} (h1 : c < 40) (h2 : c < d.length) : ∃ b, recogAt (d.take 40) c = .ok b ∧ d[c]? = some b := by
  refine ⟨d[c], ?_, List.getElem?_eq_getElem h2⟩
  unfold recogAt
  rw [if_neg (by omega)]
  have : (d.take 40)[c]? = some d[c] := by
    rw [List.getElem?_take, if_pos h1, List.getElem?_eq_getElem h2]
  rw [this]

/-- What `Compare` says is right, if it says something. -/
theorem recogLoop_sound {d : Data} {p : Str} {n : Nat} (hp : FilePattern p n) (c : Nat) (r : Bool)
    (h : recogLoop (d.take 40) c p = .ok r) : r = true ↔ FitsPattern p (d.drop c) := by
  induction hp generalizing c with
  | nil =>
    rw [recogLoop] at h
    cases h
    exact ⟨fun _ => .nil, fun _ => rfl⟩
  | @any q n hq ih =>
    rw [recogLoop] at h
    cases hb : recogAt (d.take 40) c with
    | error u => rw [hb] at h; cases h
    | ok b =>
      rw [hb] at h
      have hb := recogAt_eq hb
      have hlt : c < d.length := (List.getElem?_eq_some_iff.1 hb).1
      have hd : d.drop c = b :: d.drop (c + 1) := by
        rw [List.drop_eq_getElem_cons hlt, (List.getElem?_eq_some_iff.1 hb).2]
      simp only [bind, Except.bind, (by decide : ¬ (63 : UInt8) = 36), if_false, ne_eq, not_true_eq_false, and_false] at h
      rw [ih _ h, hd]
      constructor
      · exact .any
      · intro h
        cases h with
        | any h => exact h
        | lit _ h2 _ => exact absurd rfl h2
  | @hex a b q n v w ha hb' hq ih =>
    rw [recogLoop] at h
    cases hb : recogAt (d.take 40) c with
    | error u => rw [hb] at h; cases h
    | ok x =>
      rw [hb] at h
      have hb := recogAt_eq hb
      have hlt : c < d.length := (List.getElem?_eq_some_iff.1 hb).1
      have hd : d.drop c = x :: d.drop (c + 1) := by
        rw [List.drop_eq_getElem_cons hlt, (List.getElem?_eq_some_iff.1 hb).2]
      simp only [bind, Except.bind, if_true, List.take_succ_cons, List.take_zero, List.drop_succ_cons, List.drop_zero] at h
      rw [hd]
      by_cases hx : x = (hextodec [a, b]).toUInt8
      · rw [if_neg (by simp [hx])] at h
        rw [ih _ h]
        constructor
        · exact .hex v w ha hb' ((hex_pair ha hb' x).1 hx)
        · intro h
          cases h with
          | hex _ _ _ _ _ h => exact h
          | lit h1 _ _ => exact absurd rfl h1
      · rw [if_pos hx] at h
        cases h
        constructor
        · simp
        · intro h
          cases h with
          | hex v' w' ha' hb'' hx' h => exact absurd ((hex_pair ha' hb'' x).2 hx') hx
          | lit h1 _ _ => exact absurd rfl h1
  | @lit y q n hy1 hy2 hq ih =>
    rw [recogLoop] at h
    cases hb : recogAt (d.take 40) c with
    | error u => rw [hb] at h; cases h
    | ok x =>
      rw [hb] at h
      have hb := recogAt_eq hb
      have hlt : c < d.length := (List.getElem?_eq_some_iff.1 hb).1
      have hd : d.drop c = x :: d.drop (c + 1) := by
        rw [List.drop_eq_getElem_cons hlt, (List.getElem?_eq_some_iff.1 hb).2]
      simp only [bind, Except.bind, if_neg hy1] at h
      rw [hd]
      by_cases hx : x = y
      · subst hx
        simp only [ne_eq, not_true_eq_false, false_and, if_false] at h
        rw [ih _ h]
        constructor
        · exact .lit hy1 hy2
        · intro h
          cases h with
          | any => exact absurd rfl hy2
          | hex => exact absurd rfl hy1
          | lit _ _ h => exact h
      · rw [if_pos ⟨hx, hy2⟩] at h
        cases h
        constructor
        · simp
        · intro h
          cases h with
          | any => exact absurd rfl hy2
          | hex => exact absurd rfl hy1
          | lit _ _ h => exact absurd rfl hx

/-- `Compare` says something if the pattern is not too long. -/
theorem recogLoop_total {d : Data} {p : Str} {n : Nat} (hp : FilePattern p n) (c : Nat) (h1 : c + n ≤ 40) (h2 : c + n ≤ d.length) :
    ∃ r, recogLoop (d.take 40) c p = .ok r := by
  induction hp generalizing c with
  | nil => exact ⟨true, by rw [recogLoop]⟩
  | @any q n hq ih =>
    obtain ⟨b, hb, -⟩ := recogAt_ok (d := d) (c := c) (by omega) (by omega)
    obtain ⟨r, hr⟩ := ih (c + 1) (by omega) (by omega)
    refine ⟨r, ?_⟩
    rw [recogLoop, hb]
    simp only [bind, Except.bind, (by decide : ¬ (63 : UInt8) = 36), if_false, ne_eq, not_true_eq_false, and_false]
    exact hr
  | @hex a b q n v w ha hb' hq ih =>
    obtain ⟨x, hb, -⟩ := recogAt_ok (d := d) (c := c) (by omega) (by omega)
    obtain ⟨r, hr⟩ := ih (c + 1) (by omega) (by omega)
    rw [recogLoop, hb]
    simp only [bind, Except.bind, if_true, List.take_succ_cons, List.take_zero, List.drop_succ_cons, List.drop_zero]
    split
    · exact ⟨_, rfl⟩
    · exact ⟨r, hr⟩
  | @lit y q n hy1 hy2 hq ih =>
    obtain ⟨x, hb, -⟩ := recogAt_ok (d := d) (c := c) (by omega) (by omega)
    obtain ⟨r, hr⟩ := ih (c + 1) (by omega) (by omega)
    rw [recogLoop, hb]
    simp only [bind, Except.bind, if_neg hy1]
    split
    · exact ⟨_, rfl⟩
    · exact ⟨r, hr⟩

theorem detect_sound {d : Data} (ps : List Packer) (hp : ∀ p ∈ ps, ∃ n, FilePattern p.recog n) (r : Option Packer)
    (h : detectPacker d ps = .ok r) : FirstFit d ps r := by
  induction ps generalizing r with
  | nil => cases h; exact .none
  | cons p ps ih =>
    obtain ⟨n, hn⟩ := hp p (List.mem_cons_self ..)
    rw [detectPacker] at h
    cases hl : recogLoop (d.take 40) 0 p.recog with
    | error u => rw [hl] at h; cases h
    | ok b =>
      rw [hl] at h
      have hs := recogLoop_sound hn 0 b hl
      rw [List.drop_zero] at hs
      cases b with
      | true =>
        cases h
        exact .here (hs.1 rfl)
      | false =>
        exact .later (fun hf => Bool.noConfusion (hs.2 hf)) (ih (fun q hq => hp q (List.mem_cons_of_mem _ hq)) r h)

theorem detect_total {d : Data} (ps : List Packer) (hp : ∀ p ∈ ps, ∃ n, FilePattern p.recog n ∧ n ≤ 40 ∧ n ≤ d.length) :
    ∃ r, detectPacker d ps = .ok r := by
  induction ps with
  | nil => exact ⟨none, rfl⟩
  | cons p ps ih =>
    obtain ⟨n, hn, h1, h2⟩ := hp p (List.mem_cons_self ..)
    obtain ⟨b, hb⟩ := recogLoop_total (d := d) hn 0 (by omega) (by omega)
    obtain ⟨r, hr⟩ := ih fun q hq => hp q (List.mem_cons_of_mem _ hq)
    rw [detectPacker, hb]
    cases b with
    | true => exact ⟨_, rfl⟩
    | false => exact ⟨r, hr⟩

/-! ## Moving files -/

/-- Moving succeeds if it can. -/
theorem movefile_done (w : World) (fs : FS) (f g : Str) (d : Data) (hf : fs f = some d) (hne : f ≠ g) (hm : CanMove w) :
    Through w (fun _ => True) (fun r fs' => r = (true, false) ∧ fs' g = some d) (movefile false f g) fs := by
  unfold movefile copyfile
  simp only [Prog.bind_eq, osRename, Prog.bind, readFile, writeFile, osDelete]
  refine .rename trivial ?_ ?_
  · intro d' e
    rw [hf] at e
    cases e
    exact .ret trivial ⟨rfl, FS.put_self _ _ _⟩
  · intro hrn
    have hrn : w.renameFails := hrn.resolve_left (by simp [hf])
    obtain ⟨ho, hw⟩ := hm.resolve_left (fun h => h hrn)
    refine .read trivial ?_ (fun h => absurd (h.resolve_left (by simp [hf])) ho)
    intro d' e
    rw [hf] at e
    cases e
    refine .write trivial (fun _ _ _ => trivial) ?_ (fun h => absurd h hw) (fun h => absurd h ho)
    simp only [opened, overlay_new, Bool.false_or, Bool.not_true, Bool.false_eq_true, if_false, Prog.bind]
    refine .delete trivial (fun x hx => ?_) (fun _ => ?_)
    · exact .ret trivial ⟨rfl, by rw [FS.put_ne _ (Ne.symm hne), FS.put_self]⟩
    · exact .ret trivial ⟨rfl, FS.put_self _ _ _⟩

theorem Through.and {w : World} {α : Type} {I J : FS → Prop} {Q R : α → FS → Prop} {p : Prog α} {fs : FS}
    (h1 : Through w I Q p fs) (h2 : Through w J R p fs) : Through w (fun f => I f ∧ J f) (fun a f => Q a f ∧ R a f) p fs := by
  intro p' fs' hr
  obtain ⟨a1, a2, a3⟩ := h1 p' fs' hr
  obtain ⟨b1, b2, b3⟩ := h2 p' fs' hr
  exact ⟨⟨a1, b1⟩, fun a e => ⟨a2 a e, b2 a e⟩, a3⟩

/-- Putting a file with the bad ones. -/
theorem badFile_saves (w : World) (io : Bool) (fs : FS) (inbound file : Str) (d : Data) (hf : fs file = some d) (n fuel : Nat)
    (hn : n < 100000) (hfree : fs (badName inbound file n) = none) (hfuel : n < fuel) :
    Through w (fun fs' => ∃ m ≤ n, fs (badName inbound file m) = none ∧ Moving fs file (badName inbound file m) d fs')
      (fun io' fs' => CanMove w → io = false → io' = false ∧ SavedAsBad inbound file d fs') (badFile fuel io inbound file) fs := by
  have start : ∃ m ≤ n, fs (badName inbound file m) = none ∧ Moving fs file (badName inbound file m) d fs :=
    ⟨n, Nat.le_refl n, hfree, fun _ _ _ => rfl, .inl hf⟩
  unfold badFile
  simp only [Prog.bind_eq]
  refine Through.bind (badLoop_through w _ fs start inbound file n hn hfree fuel 0 (by omega) (by omega)) ?_
  rintro dest gs _ ⟨rfl, hd, m, hm, rfl⟩
  have hne : file ≠ badName inbound file m := by
    intro e
    rw [← e, hf] at hd
    cases hd
  refine Through.bind (Q := fun r fs' => CanMove w → io = false → r = (true, false) ∧ fs' (badName inbound file m) = some d) ?_ ?_
  · by_cases hc : CanMove w ∧ io = false
    · obtain ⟨hc, rfl⟩ := hc
      refine ((movefile_through w false gs file _ d hf hne).and (movefile_done w gs file _ d hf hne hc)).mono
        (fun fs' h => ⟨m, hm, hd, h.1⟩) (fun r fs' _ h _ _ => h.2)
    · refine (movefile_through w io gs file _ d hf hne).mono (fun fs' h => ⟨m, hm, hd, h⟩) ?_
      intro r fs' _ _ h1 h2
      exact absurd ⟨h1, h2⟩ hc
  · rintro ⟨ok, io'⟩ fs' h h1
    refine .ret h fun a b => ?_
    obtain ⟨e, h2⟩ := h1 a b
    cases e
    exact ⟨rfl, m, h2⟩

theorem badName_tail (inbound f : Str) (n : Nat) :
    (badName inbound f n).reverse.takeWhile isDigit = if n = 0 then [] else (dec n).reverse := by
  unfold badName
  by_cases h : n = 0
  · rw [if_pos h, if_pos h]
    simp [List.takeWhile, isDigit]
  · rw [if_neg h, if_neg h, List.reverse_append, List.reverse_cons, List.append_assoc,
      List.takeWhile_append_of_pos (by intro c hc; exact dec_digits n c (List.mem_reverse.1 hc))]
    simp [List.takeWhile, isDigit]

/-- The number of a bad file can be read off its name. -/
theorem badName_num {inbound f g : Str} {m n : Nat} (h : badName inbound f m = badName inbound g n) : m = n := by
  have h := congrArg (fun x : Str => x.reverse.takeWhile isDigit) h
  simp only [badName_tail] at h
  by_cases hm : m = 0
  · by_cases hn : n = 0
    · rw [hm, hn]
    · rw [if_pos hm, if_neg hn] at h
      exact absurd (List.reverse_eq_nil_iff.1 h.symm) (dec_ne_nil n)
  · by_cases hn : n = 0
    · rw [if_neg hm, if_pos hn] at h
      exact absurd (List.reverse_eq_nil_iff.1 h) (dec_ne_nil m)
    · rw [if_neg hm, if_neg hn] at h
      exact dec_inj (List.reverse_inj.1 h)

/-- The last character of a bad file's name. -/
theorem badName_last (inbound f : Str) (n : Nat) : ∃ c, (badName inbound f n).getLast? = some c ∧ (c = 100 ∨ isDigit c = true) := by
  unfold badName
  by_cases h : n = 0
  · rw [if_pos h]
    exact ⟨100, by simp, .inl rfl⟩
  · rw [if_neg h]
    obtain ⟨c, hc⟩ : ∃ c, (dec n).getLast? = some c := by
      cases hx : (dec n).getLast? with
      | none => exact absurd (List.getLast?_eq_none_iff.1 hx) (dec_ne_nil n)
      | some c => exact ⟨c, rfl⟩
    refine ⟨c, ?_, .inr (dec_digits n c (List.mem_of_getLast? hc))⟩
    rw [List.getLast?_append, List.getLast?_cons, hc]
    simp

theorem pkt_last {n : Str} (h : isPkt n = true) : ∃ c, n.getLast? = some c ∧ (c = 116 ∨ c = 84) := by
  unfold isPkt at h
  simp only [Bool.and_eq_true, beq_iff_eq] at h
  obtain ⟨⟨hl, -⟩, he⟩ := h
  have hlen : 11 < n.length := by omega
  refine ⟨n[11], ?_, ?_⟩
  · rw [List.getLast?_eq_getElem?, hl]
    exact List.getElem?_eq_getElem hlen
  · have hd : n.drop 9 = [n[9], n[10], n[11]] := by
      rw [List.drop_eq_getElem_cons (by omega), List.drop_eq_getElem_cons (by omega), List.drop_eq_getElem_cons (by omega),
        List.drop_of_length_le (by omega)]
    rw [hd, eqi_iff] at he
    simp only [List.map_cons, List.cons.injEq] at he
    have h3 := he.2.2.1
    revert h3
    generalize n[11] = c
    revert c
    have : ∀ m : Fin 256, lower (UInt8.ofNat m.1) = lower 116 → UInt8.ofNat m.1 = 116 ∨ UInt8.ofNat m.1 = 84 := by decide +kernel
    intro c hc
    have := this ⟨c.toNat, c.toNat_lt⟩ (by simpa using hc)
    simpa using this

theorem tempPath_eq {dir n : Str} (hd : dir.length ≤ 99) (h : isPkt n = true) : makeFullPath dir n 200 = dirPart dir ++ n :=
  fullPath_eq dir n hd (by rw [isPkt_length h]; omega)

/-- An unpacked packet is not a bad file. -/
theorem tempPath_notBad {dir n inbound g : Str} {k : Nat} (hd : dir.length ≤ 99) (h : isPkt n = true) :
    makeFullPath dir n 200 ≠ badName inbound g k := by
  intro e
  obtain ⟨c, h1, h2⟩ := pkt_last h
  obtain ⟨c', h3, h4⟩ := badName_last inbound g k
  rw [← e, tempPath_eq hd h, List.getLast?_append, h1] at h3
  simp at h3
  subst h3
  rcases h2 with rfl | rfl <;> revert h4 <;> decide

/-- What is assumed: see `bundle_kept_partial`. -/
structure TossConds {σ : Type} (w : World) (t : InCfg σ) (file : Str) (N K : Nat) (fs : FS) : Prop where
  temp : t.tempDir.length ≤ 99
  short : file.length ≤ 99
  notPkt : isPkt (getFilePart file) = false
  notBad : ¬ BadPlace t.inbound file
  cmds : LeavesAlone w fun f => f = file ∨ BadPlace t.inbound f
  free : ∀ g n, N ≤ n → fs (badName t.inbound g n) = none
  few : ∀ c n fs' es, w.exec c fs n fs' → DirList fs' t.tempDir isPkt es → es.length ≤ K
  room : N + K + 1 < 100000
  fuel : 100000 ≤ t.fuel
  handles : ∀ s d, ∃ r, t.handle s d = .ok r
  sorts : SortsFE t.sort
  before : ∀ n, isPkt n = true → (47 : UInt8) ∉ n → t.beforeToss ≠ [] →
    ∃ c, expandPacker 200 [] (makeFullPath t.tempDir n 200) t.beforeToss [] = .ok c
  unpack : ∀ p ∈ t.packers, ∃ c, expandPacker 100 file [] p.unpacker [] = .ok c

theorem TossConds.notTemp {σ : Type} {w : World} {t : InCfg σ} {file : Str} {N K : Nat} {fs : FS} (C : TossConds w t file N K fs)
    {n : Str} (h : isPkt n = true) (hs : (47 : UInt8) ∉ n) : makeFullPath t.tempDir n 200 ≠ file := by
  intro e
  have := C.notPkt
  rw [← e, tempPath_eq C.temp h, dirPart_file _ _ hs, h] at this
  cases this

/-- The disk, compared to an earlier moment: the bundle is where it was or with the bad files, and all bad
files are still there. -/
def BundleSafe (inbound file : Str) (d : Data) (fs fs' : FS) : Prop :=
  (fs' file = some d ∨ SavedAsBad inbound file d fs') ∧
    ∀ g n x, fs (badName inbound g n) = some x → fs' (badName inbound g n) = some x

theorem BundleSafe.trans {inbound file : Str} {d : Data} {a b c : FS} (h1 : BundleSafe inbound file d a b) (h2 : BundleSafe inbound file d b c) :
    BundleSafe inbound file d a c := ⟨h2.1, fun g n x h => h2.2 g n x (h1.2 g n x h)⟩

/-- Removing or changing a file that is neither the bundle nor a bad file. -/
theorem BundleSafe.same {inbound file : Str} {d : Data} {a b : FS} (h : a file = some d ∨ SavedAsBad inbound file d a)
    (hs : ∀ f, f = file ∨ BadPlace inbound f → b f = a f) : BundleSafe inbound file d a b := by
  refine ⟨?_, fun g n x hx => by rw [hs _ (.inr ⟨g, n, rfl⟩)]; exact hx⟩
  rcases h with h | ⟨m, h⟩
  · exact .inl (by rw [hs _ (.inl rfl)]; exact h)
  · exact .inr ⟨m, by rw [hs _ (.inr ⟨_, m, rfl⟩)]; exact h⟩

/-- Moving another file to a free bad name. -/
theorem BundleSafe.moved {inbound file f : Str} {d x : Data} {a b : FS} {m : Nat} (h : a file = some d ∨ SavedAsBad inbound file d a)
    (hf : f ≠ file) (hfb : ¬ BadPlace inbound f) (hb : ¬ BadPlace inbound file) (hfree : a (badName inbound f m) = none)
    (hm : Moving a f (badName inbound f m) x b) : BundleSafe inbound file d a b := by
  have key : ∀ g n y, a (badName inbound g n) = some y → b (badName inbound g n) = some y := by
    intro g n y hy
    rw [hm.1 _ (fun e => hfb ⟨g, n, e.symm⟩) (fun e => by rw [e, hfree] at hy; cases hy)]
    exact hy
  refine ⟨?_, key⟩
  rcases h with h | ⟨k, h⟩
  · exact .inl (by rw [hm.1 _ (Ne.symm hf) (fun e => hb ⟨_, m, e⟩)]; exact h)
  · exact .inr ⟨k, key _ _ _ h⟩

/-- Moving the bundle itself. -/
theorem BundleSafe.movedSelf {inbound file : Str} {d : Data} {a b : FS} {m : Nat}
    (hb : ¬ BadPlace inbound file) (hfree : a (badName inbound file m) = none)
    (hm : Moving a file (badName inbound file m) d b) : BundleSafe inbound file d a b := by
  refine ⟨?_, ?_⟩
  · rcases hm.2 with h | h
    · exact .inl h
    · exact .inr ⟨m, h⟩
  · intro g n y hy
    rw [hm.1 _ (fun e => hb ⟨g, n, e.symm⟩) (fun e => by rw [e, hfree] at hy; cases hy)]
    exact hy

/-- The names for bad files from this number on are free. -/
def FreeFrom (inbound : Str) (k : Nat) (fs : FS) : Prop := ∀ g n, k ≤ n → fs (badName inbound g n) = none

theorem FreeFrom.moved {inbound f : Str} {x : Data} {a b : FS} {m k : Nat} (h : FreeFrom inbound k a) (hfb : ¬ BadPlace inbound f)
    (hmk : m ≤ k) (hm : Moving a f (badName inbound f m) x b) : FreeFrom inbound (k + 1) b := by
  intro g n hn
  rw [hm.1 _ (fun e => hfb ⟨g, n, e.symm⟩) (fun e => by have := badName_num e; omega)]
  exact h g n (by omega)

theorem FreeFrom.same {inbound : Str} {a b : FS} {k : Nat} (h : FreeFrom inbound k a) (hs : ∀ f, BadPlace inbound f → b f = a f) :
    FreeFrom inbound k b := by
  intro g n hn
  rw [hs _ ⟨g, n, rfl⟩]
  exact h g n hn

/-! ## Reading a packet -/

theorem beforeTossRun_through {σ : Type} {w : World} {t : InCfg σ} {file : Str} {N K : Nat} {fs0 : FS} (C : TossConds w t file N K fs0)
    {n : Str} (hn : isPkt n = true) (hs : (47 : UInt8) ∉ n) (fs : FS) :
    Through w (fun f => ∀ g, g = file ∨ BadPlace t.inbound g → f g = fs g)
      (fun b f => (∀ g, g = file ∨ BadPlace t.inbound g → f g = fs g) ∧ (t.beforeToss = [] → f = fs ∧ b = true))
      (beforeTossRun t (makeFullPath t.tempDir n 200)) fs := by
  have start : ∀ g, g = file ∨ BadPlace t.inbound g → fs g = fs g := fun _ _ => rfl
  unfold beforeTossRun
  by_cases hb : t.beforeToss = []
  · rw [if_pos hb]
    exact .ret start ⟨start, fun _ => ⟨rfl, rfl⟩⟩
  · rw [if_neg hb]
    obtain ⟨c, hc⟩ := C.before n hn hs hb
    rw [hc]
    simp only [liftUB, Prog.bind_eq, Prog.bind, osExecute]
    refine .exec start (fun fs' h => C.cmds c fs fs' (.inl h)) (fun k fs' h => ?_)
    have h' := C.cmds c fs fs' (.inr ⟨k, h⟩)
    exact .ret h' ⟨h', fun h => absurd h hb⟩

/-- What is known after a packet was read. -/
def PktAfter {σ : Type} (w : World) (t : InCfg σ) (p : Str) (io : Bool) (k : Nat) (fs : FS) (r : PktRun σ) (f : FS) : Prop :=
  FreeFrom t.inbound (k + 1) f ∧ (CanMove w → io = false → r.io = false) ∧
    (t.beforeToss = [] → (∀ q, q ≠ p → ¬ BadPlace t.inbound q → f q = fs q) ∧ (r.got.map (·.1) = fs p ∨ (r.got = none ∧ w.openFails))) ∧
    (r.ok = true → ∀ x e, r.got = some (x, e) → e = .done ∨ (CanMove w → io = false → SavedAsBad t.inbound p x f))

theorem readPktFile_through {σ : Type} {w : World} {t : InCfg σ} {file : Str} {N K : Nat} {fs0 : FS} (C : TossConds w t file N K fs0)
    {n : Str} (hn : isPkt n = true) (hs : (47 : UInt8) ∉ n) (s : σ) (io : Bool) (d : Data) (k : Nat) (hk : k < 100000) (fs : FS)
    (hb : fs file = some d ∨ SavedAsBad t.inbound file d fs) (hfree : FreeFrom t.inbound k fs) :
    Through w (BundleSafe t.inbound file d fs) (PktAfter w t (makeFullPath t.tempDir n 200) io k fs)
      (readPktFile t s io (makeFullPath t.tempDir n 200)) fs := by
  have hpf := C.notTemp hn hs
  have hpb : ¬ BadPlace t.inbound (makeFullPath t.tempDir n 200) := by
    rintro ⟨g, m, e⟩
    exact tempPath_notBad C.temp hn e
  generalize hp : makeFullPath t.tempDir n 200 = p at *
  unfold readPktFile
  simp only [Prog.bind_eq]
  refine Through.bind (Q := fun b f => (∀ g, g = file ∨ BadPlace t.inbound g → f g = fs g) ∧ (t.beforeToss = [] → f = fs ∧ b = true)) ?_ ?_
  · have := beforeTossRun_through C hn hs fs
    rw [hp] at this
    exact this.mono (fun f h => .same hb h) (fun _ _ _ h => h)
  · rintro b f - ⟨hsame, heq⟩
    have hsafe : BundleSafe t.inbound file d fs f := .same hb hsame
    have hfree1 : FreeFrom t.inbound k f := hfree.same fun g hg => hsame g (.inr hg)
    have hfree2 : FreeFrom t.inbound (k + 1) f := fun g n hn => hfree1 g n (by omega)
    cases b with
    | false =>
      simp only [Bool.not_false, if_true]
      have heq : t.beforeToss = [] → False := fun h => by cases (heq h).2
      refine .ret hsafe ⟨hfree2, fun _ h => h, fun h => ?_, fun h => by cases h⟩
      exact absurd h heq
    | true =>
      have heq : t.beforeToss = [] → f = fs := fun h => (heq h).1
      simp only [Bool.not_true, Bool.false_eq_true, if_false, readFile, Prog.bind]
      refine .read hsafe ?_ ?_
      · intro x hx
        obtain ⟨⟨s', e⟩, hh⟩ := C.handles s x
        simp only [hh, liftUB, Prog.bind]
        have hgot : t.beforeToss = [] → (Option.map (fun y : Data × PktEnd => y.1) (some (x, e)) = fs p ∨ ((some (x, e) : Option (Data × PktEnd)) = none ∧ w.openFails)) := by
          intro h
          left
          rw [← heq h, hx]
          rfl
        cases e with
        | done =>
          refine .ret hsafe ⟨hfree2, fun _ h => h, fun h => ⟨fun q _ _ => by rw [heq h], hgot h⟩, fun _ y e he => ?_⟩
          cases he
          exact .inl rfl
        | abort =>
          exact .ret hsafe ⟨hfree2, fun _ h => h, fun h => ⟨fun q _ _ => by rw [heq h], hgot h⟩, fun h => by cases h⟩
        | bad r =>
          simp only []
          have := badFile_saves w io f t.inbound p x hx k t.fuel hk (hfree1 p k (by omega)) (by have := C.fuel; omega)
          refine Through.bind (Q := fun io' fs' => (∃ m ≤ k, f (badName t.inbound p m) = none ∧ Moving f p (badName t.inbound p m) x fs') ∧
              (CanMove w → io = false → io' = false ∧ SavedAsBad t.inbound p x fs')) ?_ ?_
          · refine this.mono ?_ (fun io' f' h1 h2 => ⟨h1, h2⟩)
            rintro f' ⟨m, hm, hfr, hmov⟩
            exact hsafe.trans (BundleSafe.moved hsafe.1 hpf hpb C.notBad hfr hmov)
          · rintro io' f' hI ⟨⟨m, hm, hfr, hmov⟩, hQ⟩
            refine .ret hI ⟨hfree1.moved hpb hm hmov, fun a b => (hQ a b).1, fun h => ⟨fun q hq hqb => ?_, hgot h⟩, fun _ y e he => ?_⟩
            · rw [hmov.1 q hq (fun e => hqb ⟨p, m, e⟩), heq h]
            · cases he
              exact .inr fun a b => (hQ a b).2
      · intro hno
        refine .ret hsafe ⟨hfree2, fun _ h => h, fun h => ⟨fun q _ _ => by rw [heq h], ?_⟩, fun _ y e he => by cases he⟩
        rcases hno with h0 | h0
        · left; rw [← heq h, h0]; rfl
        · exact .inr ⟨rfl, h0⟩

/-! ## The packets of a bundle -/

/-- What is known about one packet after all were read. -/
def EntryDone {σ : Type} (w : World) (t : InCfg σ) (io : Bool) (fs : FS) (log : PktLog) (f : FS) (p : Str) : Prop :=
  ∃ got, (p, got) ∈ log ∧ (t.beforeToss = [] → got.map (·.1) = fs p ∨ (got = none ∧ w.openFails)) ∧
    ∀ x e, got = some (x, e) → e = PktEnd.done ∨ (CanMove w → io = false → SavedAsBad t.inbound p x f)

theorem unpackedLoop_through {σ : Type} {w : World} {t : InCfg σ} {file : Str} {N K : Nat} {fs0 : FS} (C : TossConds w t file N K fs0)
    (d : Data) (es : List FileEntry) (hes : ∀ e ∈ es, isPkt e.name = true ∧ (47 : UInt8) ∉ e.name) (hnd : (es.map (·.name)).Nodup)
    (s : σ) (io : Bool) (k : Nat) (hk : k + es.length ≤ 100000) (fs : FS)
    (hb : fs file = some d ∨ SavedAsBad t.inbound file d fs) (hfree : FreeFrom t.inbound k fs) :
    Through w (BundleSafe t.inbound file d fs)
      (fun r f => r.ok = true → t.ctrlc r.st = false ∧ ∀ e ∈ es, tempPath t e ∉ t.dels → EntryDone w t io fs r.log f (tempPath t e))
      (unpackedLoop t s io es) fs := by
  have start : BundleSafe t.inbound file d fs fs := .same hb fun _ _ => rfl
  induction es generalizing s io k fs with
  | nil =>
    rw [unpackedLoop]
    exact .ret start fun h => ⟨by simpa using h, fun e he => absurd he (List.not_mem_nil)⟩
  | cons e es ih =>
    have hes' : ∀ x ∈ es, isPkt x.name = true ∧ (47 : UInt8) ∉ x.name := fun x hx => hes x (List.mem_cons_of_mem _ hx)
    rw [List.map_cons, List.nodup_cons] at hnd
    rw [List.length_cons] at hk
    obtain ⟨hn, hs⟩ := hes e (List.mem_cons_self ..)
    rw [unpackedLoop]
    by_cases hc : t.ctrlc s = true
    · rw [if_pos hc]
      exact .ret start fun h => by cases h
    · rw [if_neg hc]
      by_cases hdel : t.dels.contains (tempPath t e) = true
      · rw [if_pos hdel]
        refine (ih hes' hnd.2 s io k (by omega) fs hb hfree start).mono (fun _ h => h) ?_
        intro r f _ h hok
        refine ⟨(h hok).1, fun x hx hxd => ?_⟩
        rcases List.mem_cons.1 hx with rfl | hx
        · exact absurd (by simpa using hdel) hxd
        · exact (h hok).2 x hx hxd
      · rw [if_neg hdel]
        have hother : ∀ x ∈ es, tempPath t x ≠ tempPath t e := by
          intro x hx heq
          unfold tempPath at heq
          rw [tempPath_eq C.temp (hes' x hx).1, tempPath_eq C.temp hn] at heq
          exact hnd.1 (List.mem_map.2 ⟨x, hx, List.append_cancel_left heq⟩)
        have hotherB : ∀ x ∈ es, ¬ BadPlace t.inbound (tempPath t x) := by
          rintro x hx ⟨g, m, heq⟩
          exact tempPath_notBad C.temp (hes' x hx).1 heq
        have hpf := C.notTemp hn hs
        have hpb : ¬ BadPlace t.inbound (tempPath t e) := by
          rintro ⟨g, m, heq⟩
          exact tempPath_notBad C.temp hn heq
        simp only [Prog.bind_eq]
        refine Through.bind (readPktFile_through C hn hs s io d k (by omega) fs hb hfree) ?_
        rintro r f hsafe ⟨hfree', hio, hkeep, hgot⟩
        change FreeFrom t.inbound (k + 1) f at hfree'
        cases hrok : r.ok with
        | false =>
          simp only [Bool.not_false, if_true]
          exact .ret hsafe fun h => by cases h
        | true =>
          simp only [Bool.not_true, Bool.false_eq_true, if_false, osDelete, Prog.bind]
          have rest : ∀ f', (∀ g, g ≠ tempPath t e → f' g = f g) →
              Through w (BundleSafe t.inbound file d fs)
                (fun r f => r.ok = true → t.ctrlc r.st = false ∧ ∀ x ∈ e :: es, tempPath t x ∉ t.dels → EntryDone w t io fs r.log f (tempPath t x))
                ((unpackedLoop t r.st r.io es).bind fun q => pure { q with log := (tempPath t e, r.got) :: q.log }) f' := by
            intro f' hf'
            have hs1 : BundleSafe t.inbound file d f f' := .same hsafe.1 fun g hg => hf' g (by
              rintro rfl
              rcases hg with hg | hg
              · exact hpf hg
              · exact hpb hg)
            have hsafe' := hsafe.trans hs1
            have hfree'' : FreeFrom t.inbound (k + 1) f' := hfree'.same fun g hg => hf' g (by rintro rfl; exact hpb hg)
            refine Through.bind (Q := fun q g => BundleSafe t.inbound file d f' g ∧
                (q.ok = true → t.ctrlc q.st = false ∧ ∀ x ∈ es, tempPath t x ∉ t.dels → EntryDone w t r.io f' q.log g (tempPath t x))) ?_ ?_
            · refine (ih hes' hnd.2 r.st r.io (k + 1) (by omega) f' hsafe'.1 hfree'' (.same hsafe'.1 fun _ _ => rfl)).mono
                (fun g h => hsafe'.trans h) (fun q g h1 h2 => ⟨h1, h2⟩)
            · rintro q g hI ⟨hsg, hq⟩
              refine .ret hI fun hok => ⟨(hq hok).1, fun x hx hxd => ?_⟩
              rcases List.mem_cons.1 hx with rfl | hx
              · refine ⟨r.got, List.mem_cons_self .., fun hbt => (hkeep hbt).2, fun y en hy => ?_⟩
                rcases hgot hrok y en hy with h | h
                · exact .inl h
                · refine .inr fun a b => ?_
                  obtain ⟨m, hm⟩ := h a b
                  exact ⟨m, hsg.2 _ _ _ (hs1.2 _ _ _ hm)⟩
              · obtain ⟨got, h1, h2, h3⟩ := (hq hok).2 x hx hxd
                refine ⟨got, List.mem_cons_of_mem _ h1, fun hbt => ?_, fun y en hy => ?_⟩
                · have := h2 hbt
                  rw [hf' _ (hother x hx), (hkeep hbt).1 _ (hother x hx) (hotherB x hx)] at this
                  exact this
                · rcases h3 y en hy with h | h
                  · exact .inl h
                  · exact .inr fun a b => h a (hio a b)
          refine .delete hsafe (fun x hx => ?_) (fun _ => ?_)
          · exact rest _ fun g hg => FS.put_ne _ hg _
          · exact rest _ fun _ _ => rfl

/-! ## The bundle -/

theorem dirList_pkts {fs : FS} {dir : Str} {es : List FileEntry} (h : DirList fs dir isPkt es) :
    (∀ e ∈ es, isPkt e.name = true ∧ (47 : UInt8) ∉ e.name) ∧ (es.map (·.name)).Nodup ∧
      ∀ n, (47 : UInt8) ∉ n → isPkt n = true → fs (makeFullPath dir n 200) ≠ none → ∃ e ∈ es, e.name = n := by
  have cut : ∀ n : Str, isPkt n = true → n.take 99 = n := fun n hn =>
    List.take_of_length_le (by rw [isPkt_length hn]; omega)
  have h1 : ∀ e ∈ es, isPkt e.name = true ∧ (47 : UInt8) ∉ e.name := by
    intro e he
    obtain ⟨n, d, h1, h2, h3, h4, -⟩ := h.1 e he
    rw [h1, cut n h4]
    exact ⟨h4, h2⟩
  refine ⟨h1, ?_, ?_⟩
  · rw [List.Nodup, List.pairwise_map]
    refine List.Pairwise.imp_of_mem ?_ h.2.2
    intro a b ha _ hab
    exact hab (by rw [isPkt_length (h1 a ha).1]; omega)
  · intro n hs hn hx
    obtain ⟨e, he, h2⟩ := h.2.1 n hs (by rintro rfl; cases hn) hn hx
    exact ⟨e, he, by rw [h2, cut n hn]⟩

/-- What is known about a bundle after `TossBundle`. -/
def BundleAfter {σ : Type} (w : World) (t : InCfg σ) (file : Str) (size : Nat) (io chdir : Bool) (d : Data) (fs : FS)
    (r : BundleRun σ) (f : FS) : Prop :=
  match r.how with
  | .empty => size = 0 ∧ r.ok = true
  | .unknown => r.ok = true ∧ (FirstFit d t.packers none ∨ w.openFails) ∧ (CanMove w → io = false → SavedAsBad t.inbound file d f)
  | .noDir => r.ok = false ∧ (chdir = false ∨ w.listFails)
  | .unpacked p n log => FirstFit d t.packers (some p) ∧
      ∃ c f1, expandPacker 100 file [] p.unpacker [] = .ok c ∧ w.exec c fs n f1 ∧
        (n ≠ 0 → CanMove w → io = false → SavedAsBad t.inbound file d f) ∧
        (r.ok = true → t.ctrlc r.st = false) ∧
        (r.ok = true → CanMove w → io = false → ¬ w.openFails → t.beforeToss = [] → PacketsDone t f1 log f)

theorem tossBundleD_through {σ : Type} {w : World} {t : InCfg σ} {file : Str} {N K : Nat} {fs : FS} (C : TossConds w t file N K fs)
    (d : Data) (hf : fs file = some d)
    (hpat : ∀ p ∈ t.packers, ∃ n, FilePattern p.recog n ∧ n ≤ 40 ∧ n ≤ d.length)
    (s : σ) (io chdir : Bool) (size : Nat) (hsize : size ≠ 0) :
    Through w (BundleSafe t.inbound file d fs) (BundleAfter w t file size io chdir d fs)
      (tossBundleD t s io chdir file size) fs := by
  have start : BundleSafe t.inbound file d fs fs := .same (.inl hf) fun _ _ => rfl
  have hroom := C.room
  have hfuel := C.fuel
  unfold tossBundleD
  rw [if_neg hsize]
  simp only [Prog.bind_eq]
  refine Through.bind (Q := fun r f => f = fs ∧ (FirstFit d t.packers r ∨ (r = none ∧ w.openFails))) ?_ ?_
  · unfold detectFile
    simp only [Prog.bind_eq, readFile, Prog.bind]
    refine .read start ?_ ?_
    · intro d' h
      rw [hf] at h
      cases h
      obtain ⟨r, hr⟩ := detect_total (d := d) t.packers hpat
      simp only [hr, liftUB]
      exact .ret start ⟨rfl, .inl (detect_sound t.packers (fun p hp => (hpat p hp).imp fun _ h => h.1) r hr)⟩
    · intro h
      exact .ret start ⟨rfl, .inr ⟨rfl, h.resolve_left (by simp [hf])⟩⟩
  · rintro r f - ⟨rfl, hfit⟩
    cases r with
    | none =>
      simp only []
      refine Through.bind (Q := fun io' f' => CanMove w → io = false → io' = false ∧ SavedAsBad t.inbound file d f') ?_ ?_
      · refine (badFile_saves w io f t.inbound file d hf N t.fuel (by omega) (C.free _ _ (Nat.le_refl _)) (by omega)).mono ?_ (fun _ _ _ h => h)
        rintro f' ⟨m, hm, hfr, hmov⟩
        exact .movedSelf C.notBad hfr hmov
      · intro io' f' hI h
        refine .ret hI ⟨rfl, hfit.imp id fun h => h.2, fun a b => (h a b).2⟩
    | some p =>
      have hfit : FirstFit d t.packers (some p) := hfit.resolve_right (by simp)
      have hmem : p ∈ t.packers := by
        have : ∀ (ps : List Packer) r, FirstFit d ps r → r = some p → p ∈ ps := by
          intro ps r h
          induction h with
          | none => simp
          | here _ => intro e; cases e; exact List.mem_cons_self ..
          | later _ _ ih => intro e; exact List.mem_cons_of_mem _ (ih e)
        exact this _ _ hfit rfl
      obtain ⟨c, hc⟩ := C.unpack p hmem
      simp only [hc, liftUB, Prog.bind]
      cases chdir with
      | false =>
        simp only [Bool.not_false, if_true]
        exact .ret start ⟨rfl, .inl rfl⟩
      | true =>
        simp only [Bool.not_true, Bool.false_eq_true, if_false, osExecute, Prog.bind]
        refine .exec start (fun f' h => .same (.inl hf) (C.cmds c f f' (.inl h))) (fun n f1 hx => ?_)
        have hsame := C.cmds c f f1 (.inr ⟨n, hx⟩)
        have hf1 : f1 file = some d := by rw [hsame _ (.inl rfl)]; exact hf
        have hsafe1 : BundleSafe t.inbound file d f f1 := .same (.inl hf) hsame
        have hfree1 : FreeFrom t.inbound N f1 := FreeFrom.same C.free fun g hg => hsame g (.inr hg)
        refine Through.bind (Q := fun io' f2 => BundleSafe t.inbound file d f1 f2 ∧ FreeFrom t.inbound (N + 1) f2 ∧
            (∀ q, q ≠ file → ¬ BadPlace t.inbound q → f2 q = f1 q) ∧ (CanMove w → io = false → io' = false) ∧
            (n ≠ 0 → CanMove w → io = false → SavedAsBad t.inbound file d f2)) ?_ ?_
        · by_cases hn : n = 0
          · rw [if_neg (by simp [hn])]
            exact .ret hsafe1 ⟨.same (.inl hf1) fun _ _ => rfl, fun g k hk => hfree1 g k (by omega), fun _ _ _ => rfl, fun _ h => h,
              fun h => absurd hn h⟩
          · rw [if_pos hn]
            refine (badFile_saves w io f1 t.inbound file d hf1 N t.fuel (by omega) (hfree1 _ _ (Nat.le_refl _)) (by omega)).mono ?_ ?_
            · rintro f' ⟨m, hm, hfr, hmov⟩
              exact hsafe1.trans (.movedSelf C.notBad hfr hmov)
            · rintro io' f' ⟨m, hm, hfr, hmov⟩ h
              exact ⟨.movedSelf C.notBad hfr hmov, hfree1.moved C.notBad hm hmov, fun q h1 h2 => hmov.1 q h1 fun e => h2 ⟨_, _, e⟩,
                fun a b => (h a b).1, fun _ a b => (h a b).2⟩
        · rintro io' f2 hI ⟨hs2, hfree2, hkeep, hio, hsaved⟩
          simp only [osReadDir, Prog.bind]
          refine .list hI (fun es hdir => ?_) (fun h => .ret hI ⟨rfl, .inr h⟩)
          simp only []
          obtain ⟨d1, d2, d3⟩ := dirList_pkts hdir
          have hK : es.length ≤ K := by
            refine C.few c n f1 es hx ?_
            have e : ∀ n, (47 : UInt8) ∉ n → isPkt n = true → f1 (makeFullPath t.tempDir n 200) = f2 (makeFullPath t.tempDir n 200) :=
              fun m hm hp => (hkeep _ (C.notTemp hp hm) (by rintro ⟨g, k, e⟩; exact tempPath_notBad C.temp hp e)).symm
            refine ⟨fun x hx => ?_, fun m hm h0 hp h => ?_, hdir.2.2⟩
            · obtain ⟨m, dx, h1, h2, h3, h4, h5, h6⟩ := hdir.1 x hx
              exact ⟨m, dx, h1, h2, h3, h4, by rw [e m h2 h4]; exact h5, h6⟩
            · exact hdir.2.1 m hm h0 hp (by rw [← e m hm hp]; exact h)
          have hperm := (C.sorts es).1
          refine Through.bind (Q := fun q g => BundleSafe t.inbound file d f2 g ∧
              (q.ok = true → t.ctrlc q.st = false ∧ ∀ e ∈ t.sort es, tempPath t e ∉ t.dels → EntryDone w t io' f2 q.log g (tempPath t e))) ?_ ?_
          · refine (unpackedLoop_through C d (t.sort es) (fun e he => d1 e (hperm.mem_iff.1 he))
              ((hperm.map (·.name)).nodup_iff.2 d2) s io' (N + 1) (by rw [hperm.length_eq]; omega) f2 hs2.1 hfree2).mono
              (fun g h => hI.trans h) (fun q g h1 h2 => ⟨h1, h2⟩)
          · rintro q g hIg ⟨hsg, hq⟩
            refine .ret hIg ⟨hfit, c, f1, hc, hx, fun h a b => ?_, fun h => (hq h).1, ?_⟩
            · obtain ⟨m, hm⟩ := hsaved h a b
              exact ⟨m, hsg.2 _ _ _ hm⟩
            · intro hok hm hi ho hbt n hn hp x hx hdel
              have hnf : makeFullPath t.tempDir n 200 ≠ file := C.notTemp hp hn
              have hnb : ¬ BadPlace t.inbound (makeFullPath t.tempDir n 200) := by
                rintro ⟨g, k, e⟩; exact tempPath_notBad C.temp hp e
              have hx2 : f2 (makeFullPath t.tempDir n 200) = some x := by rw [hkeep _ hnf hnb]; exact hx
              obtain ⟨e, he, rfl⟩ := d3 n hn hp (by rw [hx2]; simp)
              obtain ⟨got, h1, h2, h3⟩ := (hq hok).2 e (hperm.mem_iff.2 he) hdel
              rcases h2 hbt with h2 | h2
              · change Option.map _ got = f2 (makeFullPath t.tempDir e.name 200) at h2
                rw [hx2] at h2
                cases got with
                | none => cases h2
                | some y =>
                  obtain ⟨y, en⟩ := y
                  cases h2
                  rcases h3 _ en rfl with rfl | h
                  · exact .inl h1
                  · exact .inr (h hm (hio hm hi))
              · exact absurd h2.2 ho

end CM
