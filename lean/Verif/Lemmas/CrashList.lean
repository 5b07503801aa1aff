import Verif.Spec.CrashList
import Verif.Lemmas.ListOut
import Verif.Lemmas.ReadBack
import Verif.Props.Nodelist
/-! # The nodelists CrashList chooses -/

set_option linter.unusedSimpArgs false

namespace CM

theorem nlEnding_iff (g : Str) : nlEnding g = true ↔ IsIssue (g.take (g.length - 4)) g := by
  unfold nlEnding IsIssue
  constructor
  · intro h
    split at h
    · cases h
    · have hl : (g.drop (g.length - 4)).length = 4 := by rw [List.length_drop]; omega
      have hs := (List.take_append_drop (g.length - 4) g).symm
      generalize g.drop (g.length - 4) = t at *
      match t, hl with
      | [a, b, c, d], _ =>
        simp only [Bool.and_eq_true, beq_iff_eq, isDigit, decide_eq_true_eq] at h
        obtain ⟨⟨⟨rfl, h1⟩, h2⟩, h3⟩ := h
        exact ⟨_, b, c, d, hs, rfl, h1, h2, h3⟩
  · rintro ⟨p, x, y, z, h, _, h1, h2, h3⟩
    have hl : g.length = p.length + 4 := by rw [h]; simp
    rw [if_neg (by omega), show g.length - 4 = p.length by omega, h, List.drop_left]
    simp [isDigit, h1, h2, h3]

theorem isIssue_take {n g : Str} (h : IsIssue n g) : IsIssue (g.take (g.length - 4)) g ∧ (g.take (g.length - 4)).map lower = n.map lower ∧
    g.length = n.length + 4 := by
  obtain ⟨p, x, y, z, rfl, h0, h1, h2, h3⟩ := h
  have e : (p ++ [46, x, y, z]).take ((p ++ [46, x, y, z]).length - 4) = p := by simp
  rw [e]
  refine ⟨⟨p, x, y, z, rfl, rfl, h1, h2, h3⟩, h0, ?_⟩
  have := congrArg List.length h0
  simp only [List.length_map] at this
  simp [this]

theorem isIssue_congr {n m g : Str} (h : IsIssue n g) (e : n.map lower = m.map lower) : IsIssue m g := by
  obtain ⟨p, x, y, z, h0, h1, h2⟩ := h
  exact ⟨p, x, y, z, h0, h1.trans e, h2⟩

/-- The test of `scandirfunc` accepts the issues, if no list has a shorter name. -/
theorem scan_accepts (names : List Str) (n g : Str) (hg : g ∈ names) (hs : NoShorterList names n) :
    (nlEnding g = true ∧ eqin g n (g.length - 4) = true) ↔ IsIssue n g := by
  constructor
  · rintro ⟨h1, h2⟩
    have hi := (nlEnding_iff g).1 h1
    unfold eqin at h2
    rw [beq_iff_eq] at h2
    have hp : (g.take (g.length - 4)).map lower <+: n.map lower := by
      rw [h2, List.map_take]
      exact List.take_prefix _ _
    have hl := hs g hg _ hi hp
    have : n.take (g.length - 4) = n := by
      rw [List.length_take] at hl
      exact List.take_of_length_le (by omega)
    rw [this] at h2
    exact isIssue_congr hi h2
  · intro h
    obtain ⟨h1, h2, h3⟩ := isIssue_take h
    refine ⟨(nlEnding_iff g).2 h1, ?_⟩
    unfold eqin
    rw [beq_iff_eq, h2, List.take_of_length_le (l := n) (by omega)]

theorem path500 (dir f : Str) (hd : dir.length ≤ 99) (hf : f.length ≤ 300) : makeFullPath dir f 500 = pathIn dir f := by
  unfold pathIn
  by_cases h : dir = []
  · subst h; rw [if_pos rfl, makeFullPath_nodir f 500 (by omega)]
  · rw [if_neg h, makeFullPath_fits dir f 500 h (by omega)]
    split <;> simp

theorem pathIn_file (dir f : Str) (h : (47 : UInt8) ∉ f) : getFilePart (pathIn dir f) = f := by
  rw [pathIn_eq, dirPart_file dir f h]

/-- A directory CrashList can work with. -/
structure ListDir (d : ClDisk) (dir : Str) (names : List Str) : Prop where
  short : dir.length ≤ 99
  scan : d.scan dir = some names
  names : ∀ f ∈ names, f.length ≤ 255 ∧ (47 : UInt8) ∉ f

/-- What the walk through the directory has found so far. -/
structure WalkFound (date : Str → Option Int) (n : Str) (seen : List Str) (s : Str × Int) : Prop where
  none : s.1 = [] → ∀ g ∈ seen, IsIssue n g → date g = none
  some : s.1 ≠ [] → s.1 ∈ seen ∧ IsIssue n s.1 ∧ date s.1 = some s.2 ∧
    ∀ g ∈ seen, ∀ u, IsIssue n g → date g = some u → u ≤ s.2

theorem found_scan {d : ClDisk} {dir : Str} {names : List Str} (hd : ListDir d dir names) {n : Str} (hn : ListName n)
    (hs : NoShorterList names n) : ∀ (rest seen : List Str) (s : Str × Int), (∀ g ∈ rest, g ∈ names) →
      WalkFound (fun f => d.date (pathIn dir f)) n seen s →
      WalkFound (fun f => d.date (pathIn dir f)) n (seen ++ rest) (rest.foldl (clScanFunc d dir n) s) := by
  intro rest
  induction rest with
  | nil => intro seen s _ h; simpa using h
  | cons g r ih =>
    intro seen s hm h
    have hg := hm g (List.mem_cons_self ..)
    rw [List.foldl_cons, show seen ++ g :: r = (seen ++ [g]) ++ r by simp]
    apply ih _ _ (fun x hx => hm x (List.mem_cons_of_mem _ hx))
    have acc := scan_accepts names n g hg hs
    have keep : (IsIssue n g → d.date (pathIn dir g) = none) → WalkFound (fun f => d.date (pathIn dir f)) n (seen ++ [g]) s := by
      intro hno
      constructor
      · intro he x hx hi
        rcases List.mem_append.1 hx with hx | hx
        · exact h.none he x hx hi
        · rw [List.mem_singleton] at hx; subst hx; exact hno hi
      · intro he
        obtain ⟨h1, h2, h3, h4⟩ := h.some he
        refine ⟨List.mem_append_left _ h1, h2, h3, ?_⟩
        intro x hx u hi hu
        rcases List.mem_append.1 hx with hx | hx
        · exact h4 x hx u hi hu
        · rw [List.mem_singleton] at hx; subst hx
          have := hno hi
          simp only [this] at hu
          cases hu
    unfold clScanFunc
    by_cases h1 : nlEnding g = true
    · rw [if_pos h1]
      by_cases h2 : eqin g n (g.length - 4) = true
      · rw [if_pos h2]
        have hi := acc.1 ⟨h1, h2⟩
        have hlen := (isIssue_take hi).2.2
        have hsh := hn.short
        rw [path500 dir g hd.short (by omega), pathIn_file dir g (hd.names g hg).2]
        have e : mystrncpy (mystrncpy g 100) 100 = g := by
          unfold mystrncpy
          rw [List.take_take, List.take_of_length_le (by omega)]
        rw [e]
        cases hdt : d.date (pathIn dir g) with
        | none => exact keep fun _ => hdt
        | some t =>
          dsimp only
          by_cases hc : s.1 = [] ∨ s.2 < t
          · rw [if_pos hc]
            constructor
            · intro he
              have he : g = [] := he
              rw [he] at hlen
              simp at hlen
            · intro _
              refine ⟨by simp, hi, hdt, ?_⟩
              intro x hx u hxi hu
              rcases List.mem_append.1 hx with hx | hx
              · by_cases he : s.1 = []
                · have := h.none he x hx hxi
                  simp only [this] at hu
                  cases hu
                · have := (h.some he).2.2.2 x hx u hxi hu
                  rcases hc with hc | hc
                  · exact absurd hc he
                  · dsimp only; omega
              · rw [List.mem_singleton] at hx; subst hx
                simp only [hdt, Option.some.injEq] at hu
                dsimp only; omega
          · rw [if_neg hc]
            have he : s.1 ≠ [] := fun x => hc (.inl x)
            have hlt : ¬ s.2 < t := fun x => hc (.inr x)
            constructor
            · intro x; exact absurd x he
            · intro _
              obtain ⟨g1, g2, g3, g4⟩ := h.some he
              refine ⟨List.mem_append_left _ g1, g2, g3, ?_⟩
              intro x hx u hxi hu
              rcases List.mem_append.1 hx with hx | hx
              · exact g4 x hx u hxi hu
              · rw [List.mem_singleton] at hx; subst hx
                simp only [hdt, Option.some.injEq] at hu
                omega
      · rw [if_neg h2]
        exact keep fun hi => absurd (acc.2 hi).2 h2
    · rw [if_neg h1]
      exact keep fun hi => absurd (acc.2 hi).1 h1

theorem findList_chooses {d : ClDisk} {dir : Str} {names : List Str} (hd : ListDir d dir names) {n : Str} (hn : ListName n)
    (hs : NoShorterList names n) : ∃ o, Chosen names (fun f => d.date (pathIn dir f)) n o ∧
      findList d dir n = (o.map (pathIn dir), if o = none then b!"Found no nodelist matching " ++ n ++ b!" in " ++ dir ++ b!"\n" else []) ∧
      (∀ f, o = some f → (47 : UInt8) ∉ f ∧ f.length ≤ 94 ∧ NoNul n ∧ f ≠ []) := by
  have hsh := hn.short
  have hz : (47 : UInt8) ∉ n := fun h => (hn.plain _ h).2.2.2.2.2.2.2 rfl
  have h0 : NoNul n := fun h => (hn.plain _ h).2.2.2.2.2.2.1 rfl
  unfold findList
  rw [path500 dir n hd.short (by omega)]
  by_cases he : (d.date (pathIn dir n)).isSome = true
  · rw [if_pos he]
    refine ⟨some n, .file he, by simp, ?_⟩
    intro f hf
    cases hf
    exact ⟨hz, by omega, h0, hn.some⟩
  · rw [if_neg he, hd.scan]
    have hdn : d.date (pathIn dir n) = none := by
      cases h : d.date (pathIn dir n) with
      | none => rfl
      | some _ => rw [h] at he; exact absurd rfl he
    have F := found_scan hd hn hs names [] ([], 0) (fun _ h => h) ⟨fun _ g hg => by simp at hg, fun h => absurd rfl h⟩
    rw [List.nil_append] at F
    dsimp only
    generalize names.foldl (clScanFunc d dir n) ([], 0) = s at F
    by_cases hc : s.1 = []
    · rw [if_pos hc]
      exact ⟨none, .none hdn fun g hg hi => F.none hc g hg hi, by simp, by simp⟩
    · rw [if_neg hc]
      obtain ⟨g1, g2, g3, g4⟩ := F.some hc
      have hl := (isIssue_take g2).2.2
      refine ⟨some s.1, .issue s.1 s.2 hdn g1 g2 g3 g4, ?_, ?_⟩
      · rw [path500 dir s.1 hd.short (by omega)]; simp
      · intro f hf
        cases hf
        exact ⟨(hd.names _ g1).2, by omega, h0, hc⟩

/-! ## The lines of `cmnodelist.prefs` -/

theorem jbstrcpy_blanks (n : Nat) (ws s : Str) (h : Blanks ws) : jbstrcpy n (ws ++ s) = jbstrcpy n s := by
  have : (ws ++ s).dropWhile isBlank = s.dropWhile isBlank := by
    induction ws with
    | nil => rfl
    | cons a t ih =>
      rw [List.cons_append, List.dropWhile_cons, if_pos (by
        rcases h a (List.mem_cons_self ..) with rfl | rfl <;> decide)]
      exact ih fun c hc => h c (List.mem_cons_of_mem _ hc)
  unfold jbstrcpy
  rw [this]

theorem plain_name {n : Str} (h : ListName n) : PlainWord n := by
  refine ⟨h.some, ?_, fun c hc => ?_⟩
  · intro hh
    obtain ⟨t, rfl⟩ : ∃ t, n = 34 :: t := by
      cases n with
      | nil => cases hh
      | cons a t => simp at hh; exact ⟨t, by rw [hh]⟩
    exact (h.plain 34 (List.mem_cons_self ..)).2.2.1 rfl
  · have := h.plain c hc
    exact ⟨this.1, this.2.1, this.2.2.2.2.1, this.2.2.2.1⟩

theorem tokStop_blank (c : UInt8) (h : c = 32 ∨ c = 9 ∨ c = 10) : tokStop false c = true := by
  rcases h with rfl | rfl | rfl <;> decide

theorem digits_plain {z : Str} (h : z ≠ []) (hd : ∀ c ∈ z, 48 ≤ c ∧ c ≤ 57) : PlainWord z := by
  have key : ∀ c : UInt8, 48 ≤ c ∧ c ≤ 57 → c ≠ 32 ∧ c ≠ 9 ∧ c ≠ 10 ∧ c ≠ 92 ∧ c ≠ 34 := by decide +kernel
  refine ⟨h, ?_, fun c hc => ?_⟩
  · intro hh
    cases z with
    | nil => cases hh
    | cons a t =>
      simp at hh
      subst hh
      exact absurd rfl (key 34 (hd 34 (List.mem_cons_self ..))).2.2.2.2
  · have := key c (hd c hc)
    exact ⟨this.1, this.2.1, this.2.2.1, this.2.2.2.1⟩

theorem atoi_digits {z : Str} (h : z ≠ []) (hd : ∀ c ∈ z, 48 ≤ c ∧ c ≤ 57) : atoi z = (decVal z : Int) := by
  have key : ∀ c : UInt8, 48 ≤ c ∧ c ≤ 57 → isDigit c = true ∧ isSpace c = false ∧ c ≠ 45 ∧ c ≠ 43 := by decide +kernel
  have htw : ∀ l : Str, (∀ c ∈ l, 48 ≤ c ∧ c ≤ 57) → l.takeWhile isDigit = l := by
    intro l hl
    induction l with
    | nil => rfl
    | cons b r ih =>
      rw [List.takeWhile_cons, if_pos (key b (hl b (List.mem_cons_self ..))).1, ih fun c hc => hl c (List.mem_cons_of_mem _ hc)]
  cases z with
  | nil => exact absurd rfl h
  | cons a t =>
    have ha := key a (hd a (List.mem_cons_self ..))
    unfold atoi
    rw [List.dropWhile_cons, if_neg (by rw [ha.2.1]; decide)]
    have := htw _ hd
    dsimp only
    split
    · rename_i r he; injection he with he _; exact absurd he ha.2.2.1
    · rename_i r he; injection he with he _; exact absurd he ha.2.2.2
    · rw [this]

theorem word_there (m : Nat) (w t : Str) (hw : PlainWord w) (hl : w.length < m)
    (ht : t = [10] ∨ ∃ c r, t = c :: r ∧ (c = 32 ∨ c = 9)) :
    jbstrcpy m (w ++ t) = (w, skipSep t, true) := by
  rcases ht with rfl | ⟨c, r, rfl, hc⟩
  · exact jbstrcpy_plain m w 10 [] hw hl (by decide)
  · exact jbstrcpy_plain m w c r hw hl (tokStop_blank c (by
      rcases hc with h | h
      · exact .inl h
      · exact .inr (.inl h)))

theorem clLine_eq {l : Str} {a : Option (Str × UInt16)} (h : PrefLine l a) : clLine (l ++ [10]) = a := by
  have blanksEnd : ∀ ws : Str, Blanks ws → ∀ n, jbstrcpy n (ws ++ [10]) = ([], [10], false) := by
    intro ws hw n
    rw [jbstrcpy_blanks n ws [10] hw, jbstrcpy_lf]
  have blankHead : ∀ ws t : Str, Blanks ws → t.head? ≠ some 59 → (ws ++ t).head? ≠ some 59 := by
    intro ws t hw ht
    cases ws with
    | nil => simpa using ht
    | cons a r =>
      rcases hw a (List.mem_cons_self ..) with rfl | rfl <;> simp
  have nameHead : ∀ n t : Str, ListName n → (n ++ t).head? ≠ some 59 := by
    intro n t hn
    have := hn.noComment
    cases n with
    | nil => exact absurd rfl hn.some
    | cons a r => simpa using this
  cases h with
  | comment r => rfl
  | blank _ hw =>
    unfold clLine
    rw [if_neg (blankHead _ _ hw (by decide)), blanksEnd _ hw]
    rfl
  | name ws n ws' hw hn hw' =>
    unfold clLine
    rw [List.append_assoc, List.append_assoc, if_neg (blankHead _ _ hw (nameHead _ _ hn)), jbstrcpy_blanks _ _ _ hw]
    cases ws' with
    | nil =>
      rw [List.nil_append, word_there 100 n [10] (plain_name hn) (by have := hn.short; omega) (.inl rfl)]
      rfl
    | cons c r =>
      rw [List.cons_append, word_there 100 n _ (plain_name hn) (by have := hn.short; omega) (.inr ⟨c, r ++ [10], rfl, hw' c (List.mem_cons_self ..)⟩)]
      have e : skipSep (c :: (r ++ [10])) = r ++ [10] := by
        rcases hw' c (List.mem_cons_self ..) with rfl | rfl <;> rfl
      rw [e]
      dsimp only
      rw [blanksEnd r (fun x hx => hw' x (List.mem_cons_of_mem _ hx))]
      rfl
  | zone ws n ws' z r hw hn hw' hne hz hd hlen hv hr _ _ _ =>
    unfold clLine
    rw [List.append_assoc, List.append_assoc, List.append_assoc, List.append_assoc,
      if_neg (blankHead _ _ hw (nameHead _ _ hn)), jbstrcpy_blanks _ _ _ hw]
    cases ws' with
    | nil => exact absurd rfl hne
    | cons c s =>
      rw [List.cons_append, word_there 100 n _ (plain_name hn) (by have := hn.short; omega) (.inr ⟨c, s ++ (z ++ (r ++ [10])), rfl, hw' c (List.mem_cons_self ..)⟩)]
      have e : skipSep (c :: (s ++ (z ++ (r ++ [10])))) = s ++ (z ++ (r ++ [10])) := by
        rcases hw' c (List.mem_cons_self ..) with rfl | rfl <;> rfl
      rw [e]
      dsimp only
      rw [if_pos rfl, jbstrcpy_blanks 10 s _ (fun x hx => hw' x (List.mem_cons_of_mem _ hx))]
      rw [word_there 10 z (r ++ [10]) (digits_plain hz hd) (by omega) (by
        rcases hr with rfl | ⟨c', t, rfl, hc⟩
        · exact .inl rfl
        · exact .inr ⟨c', t ++ [10], rfl, hc⟩)]
      dsimp only
      rw [if_pos rfl, atoi_digits hz hd]
      congr 2
      have e1 : UInt32.ofInt (decVal z : Int) = UInt32.ofNat (decVal z) := by
        unfold UInt32.ofInt
        congr 1
        omega
      rw [e1]
      apply UInt16.toNat_inj.1
      simp only [UInt32.toNat_toUInt16, UInt32.toNat_ofNat', UInt16.toNat_ofNat']
      omega

theorem prefLine_text {l : Str} {a : Option (Str × UInt16)} (h : PrefLine l a) : NoNul l ∧ (10 : UInt8) ∉ l ∧ (13 : UInt8) ∉ l := by
  have hb : ∀ ws : Str, Blanks ws → (0 : UInt8) ∉ ws ∧ (10 : UInt8) ∉ ws ∧ (13 : UInt8) ∉ ws := by
    intro ws hw
    refine ⟨?_, ?_, ?_⟩ <;> intro hm <;> rcases hw _ hm with h | h <;> exact absurd h (by decide)
  have hn : ∀ n : Str, ListName n → (0 : UInt8) ∉ n ∧ (10 : UInt8) ∉ n ∧ (13 : UInt8) ∉ n := by
    intro n hn
    exact ⟨fun h => (hn.plain _ h).2.2.2.2.2.2.1 rfl, fun h => (hn.plain _ h).2.2.2.2.1 rfl, fun h => (hn.plain _ h).2.2.2.2.2.1 rfl⟩
  have hz : ∀ z : Str, (∀ c ∈ z, (48 : UInt8) ≤ c ∧ c ≤ 57) → (0 : UInt8) ∉ z ∧ (10 : UInt8) ∉ z ∧ (13 : UInt8) ∉ z := by
    intro z hz
    refine ⟨?_, ?_, ?_⟩ <;> intro hm <;> exact absurd (hz _ hm) (by decide)
  unfold NoNul
  cases h with
  | comment r h1 h2 h3 => simp only [NoNul] at h1; simp [h1, h2, h3]
  | blank _ hw => exact hb _ hw
  | name ws n ws' h1 h2 h3 =>
    simp [hb _ h1, hn _ h2, hb _ h3]
  | zone ws n ws' z r h1 h2 h3 _ _ h4 _ _ _ h5 h6 h7 =>
    simp only [NoNul] at h5
    simp [hb _ h1, hn _ h2, hb _ h3, hz _ h4, h5, h6, h7]

/-! ## The whole file -/

theorem clProcess_eq {d : ClDisk} {dir : Str} {names : List Str} (hd : ListDir d dir names) {n : Str} (hn : ListName n)
    (hs : NoShorterList names n) (st : List UInt8) (z : UInt16) {r : List (Str × UInt16)} {fs : List (Str × UInt16 × List UInt8)} {ts : List Str}
    (h : ListsFor dir d.error names (fun f => d.date (pathIn dir f)) (fun f => d.content (pathIn dir f)) r fs ts) :
    ∃ fs' ts', ListsFor dir d.error names (fun f => d.date (pathIn dir f)) (fun f => d.content (pathIn dir f)) ((n, z) :: r) (fs' ++ fs) (ts' ++ ts) ∧
      (clProcess d dir n st z).1.toList = fs'.map (fun x => ⟨x.1, st, x.2.1, x.2.2⟩) ∧ (clProcess d dir n st z).2 = ts'.flatten ∧
      (∀ x ∈ fs', x.1 ≠ [] ∧ x.1.length ≤ 94) := by
  obtain ⟨o, h1, h2, h3⟩ := findList_chooses hd hn hs
  unfold clProcess
  rw [h2]
  cases o with
  | none => exact ⟨[], [_], .absent h1 h, rfl, by simp, by simp⟩
  | some f =>
    have h3 := h3 f rfl
    dsimp only [Option.map_some]
    cases hc : d.content (pathIn dir f) with
    | none => exact ⟨[], [_], .unread h1 hc h, rfl, by simp, by simp⟩
    | some c =>
      dsimp only
      rw [pathIn_file dir f h3.1]
      exact ⟨[(f, z, c)], [_], .take h1 hc h, rfl, by simp, by simp [h3.2.1, h3.2.2.2]⟩

/-- A file as it is in the index, without what is behind its name. -/
def NlFile.key (g : NlFile) : Str × UInt16 × List UInt8 := (g.name, g.zone, g.content)

theorem osFGets_pref {l : Str} {a : Option (Str × UInt16)} (h : PrefLine l a) (hl : l.length ≤ 197) (crlf : Bool) (r : List UInt8) :
    osFGets 200 (l ++ (if crlf then [13, 10] else [10]) ++ r) = some (l ++ [10], r) := by
  obtain ⟨h1, h2, h3⟩ := prefLine_text h
  cases crlf with
  | false =>
    have e := osFGets_line l r 200 ⟨h1, h2, by omega⟩ (by omega)
    have hg : l.getLast? ≠ some 13 := fun hh => h3 (List.mem_of_getLast? hh)
    rw [if_neg hg] at e
    simpa using e
  | true =>
    have e := osFGets_line (l ++ [13]) r 200 ⟨by
      unfold NoNul at h1 ⊢
      simp [h1], by simp [h2], by simp; omega⟩ (by simp; omega)
    rw [if_pos (by simp), List.dropLast_concat] at e
    simpa using e

theorem clLoop_eq {d : ClDisk} {dir : Str} {names : List Str} (hd : ListDir d dir names) (stale : Nat → List UInt8) (crlf : Bool) :
    ∀ (ls : List (Str × Option (Str × UInt16))) (fuel k : Nat), (∀ x ∈ ls, PrefLine x.1 x.2 ∧ x.1.length ≤ 197) →
      (∀ n z, (n, z) ∈ ls.filterMap (·.2) → ListName n ∧ NoShorterList names n) → ls.length < fuel →
      ∃ gs ts, (clLoop d dir stale fuel k (prefsText crlf (ls.map (·.1)))) = (gs, ts.flatten) ∧
        ListsFor dir d.error names (fun f => d.date (pathIn dir f)) (fun f => d.content (pathIn dir f)) (ls.filterMap (·.2))
          (gs.map NlFile.key) ts ∧ ∀ g ∈ gs, (∃ j, g.stale = stale j) ∧ g.name.length ≤ 94 := by
  intro ls
  induction ls with
  | nil =>
    intro fuel k _ _ hf
    obtain ⟨m, rfl⟩ : ∃ m, fuel = m + 1 := ⟨fuel - 1, by omega⟩
    exact ⟨[], [], rfl, .nil, by simp⟩
  | cons x r ih =>
    obtain ⟨l, a⟩ := x
    intro fuel k hp hn hf
    obtain ⟨m, rfl⟩ : ∃ m, fuel = m + 1 := ⟨fuel - 1, by omega⟩
    have hx := hp (l, a) (List.mem_cons_self ..)
    dsimp only at hx
    have hp' : ∀ x ∈ r, PrefLine x.1 x.2 ∧ x.1.length ≤ 197 := fun y hy => hp y (List.mem_cons_of_mem _ hy)
    have e : prefsText crlf (((l, a) :: r).map (·.1)) = l ++ (if crlf then [13, 10] else [10]) ++ prefsText crlf (r.map (·.1)) := by
      simp [prefsText]
    rw [e, clLoop, osFGets_pref hx.1 hx.2 crlf]
    dsimp only
    rw [if_neg (by simp), clLine_eq hx.1]
    cases a with
    | none =>
      rw [List.filterMap_cons_none rfl] at hn ⊢
      exact ih m k hp' hn (by simp at hf; omega)
    | some q =>
      obtain ⟨n, z⟩ := q
      have efm : List.filterMap (·.2) ((l, some (n, z)) :: r) = (n, z) :: r.filterMap (·.2) := rfl
      rw [efm] at hn ⊢
      obtain ⟨gs, ts, h1, h2, h3⟩ := ih m (k + 1) hp' (fun n' z' h => hn n' z' (List.mem_cons_of_mem _ h)) (by simp at hf; omega)
      have hnn := hn n z (List.mem_cons_self ..)
      obtain ⟨fs', ts', g1, g2, g3, g4⟩ := clProcess_eq hd hnn.1 hnn.2 (stale k) z h2
      dsimp only
      rw [h1, g2, g3]
      refine ⟨_, ts' ++ ts, by rw [List.flatten_append], ?_, ?_⟩
      · rw [List.map_append, List.map_map]
        have : fs'.map (NlFile.key ∘ fun x => (⟨x.1, stale k, x.2.1, x.2.2⟩ : NlFile)) = fs' := by
          rw [List.map_congr_left (g := id) (by intro x _; rfl), List.map_id]
        rw [this]
        exact g1
      · intro g hg
        rcases List.mem_append.1 hg with hg | hg
        · obtain ⟨x, hx, rfl⟩ := List.mem_map.1 hg
          exact ⟨⟨k, rfl⟩, (g4 x hx).2⟩
        · exact h3 g hg

theorem prefsText_length (crlf : Bool) (ls : List Str) : ls.length ≤ (prefsText crlf ls).length := by
  induction ls with
  | nil => simp [prefsText]
  | cons a r ih =>
    simp only [prefsText, List.flatMap_cons, List.length_append, List.length_cons] at ih ⊢
    cases crlf <;> simp at ih ⊢ <;> omega

end CM
