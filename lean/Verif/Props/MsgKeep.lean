import Verif.Lemmas.MsgKeep
import Verif.Lemmas.Keep
import Verif.Lemmas.NetLines
import Verif.Props.MsgImport
/-! # C85: a message stored in a *.msg area comes back as it was -/

set_option linter.unusedSimpArgs false

namespace CM

/-! ## The lines that are added -/

theorem dec_noCR (n : Nat) : 13 ∉ dec n ∧ 10 ∉ dec n :=
  ⟨fun h => absurd (dec_digits _ _ h) (by decide), fun h => absurd (dec_digits _ _ h) (by decide)⟩

/-- They are control lines, and no others. -/
theorem newLines_ok {o : MsgOpt} {rescan : Bool} {aka : Node4D} {l : Str} (h : l ∈ msgNewLines o rescan aka) :
    l.length ≤ 198 ∧ SafeEcho l ∧ ¬ b!"SEEN-BY:" <+: l ∧ ¬ (1 :: b!"PATH:") <+: l ∧ ¬ AddrKludge l ∧ ¬ (1 :: b!"MSGID:") <+: l ∧
      (rescan = false → ¬ (1 :: b!"RESCANNED") <+: l) := by
  have safe : ∀ q : Str, (1 :: b!"R") <+: q ++ [13] ∨ (1 :: b!"TID") <+: q ++ [13] →
      SafeEcho (q ++ [13]) ∧ ¬ b!"SEEN-BY:" <+: q ++ [13] ∧ ¬ (1 :: b!"PATH:") <+: q ++ [13] ∧ ¬ AddrKludge (q ++ [13]) ∧ ¬ (1 :: b!"MSGID:") <+: q ++ [13] := by
    intro q hq
    have no : ∀ c : UInt8, ∀ p : Str, c ≠ 1 → ¬ (c :: p) <+: q ++ [13] := by
      intro c p hc hp
      rcases hq with hq | hq
      · obtain ⟨t, e⟩ := hq; rw [← e] at hp
        simp only [List.cons_append, List.cons_prefix_cons] at hp
        exact hc hp.1
      · obtain ⟨t, e⟩ := hq; rw [← e] at hp
        simp only [List.cons_append, List.cons_prefix_cons] at hp
        exact hc hp.1
    have no2 : ∀ p : Str, p.head? ≠ some 82 → p.head? ≠ some 84 → p ≠ [] → ¬ (1 :: p) <+: q ++ [13] := by
      intro p h1 h2 h3 hp
      cases p with
      | nil => exact h3 rfl
      | cons c p =>
        simp only [List.head?_cons, ne_eq, Option.some.injEq] at h1 h2
        rcases hq with hq | hq
        · obtain ⟨t, e⟩ := hq; rw [← e] at hp
          simp only [List.cons_append, List.cons_prefix_cons] at hp
          exact h1 hp.2.1
        · obtain ⟨t, e⟩ := hq; rw [← e] at hp
          simp only [List.cons_append, List.cons_prefix_cons] at hp
          exact h2 hp.2.1
    have hT : ¬ (1 :: b!"TOPT") <+: q ++ [13] := by
      intro hp
      rcases hq with hq | hq
      · obtain ⟨t, e⟩ := hq; rw [← e] at hp
        simp only [List.cons_append, List.cons_prefix_cons] at hp
        exact absurd hp.2.1 (by decide)
      · obtain ⟨t, e⟩ := hq; rw [← e] at hp
        simp only [List.cons_append, List.cons_prefix_cons] at hp
        exact absurd hp.2.2.1 (by decide)
    refine ⟨⟨fun _ => Or.inr (Or.inl (by simp)), fun h => absurd h (no _ _ (by decide)), fun h => absurd h (no2 _ (by decide) (by decide) (by decide)),
      fun h => absurd h (no _ _ (by decide))⟩, no _ _ (by decide), no2 _ (by decide) (by decide) (by decide), ?_, no2 _ (by decide) (by decide) (by decide)⟩
    rintro (h | h | h)
    · exact no2 _ (by decide) (by decide) (by decide) h
    · exact hT h
    · exact no2 _ (by decide) (by decide) (by decide) h
  unfold msgNewLines at h
  cases rescan with
  | true =>
    simp only [if_true, List.mem_singleton] at h
    subst h
    obtain ⟨s1, s2, s3, s4, s5⟩ := safe (1 :: b!"RESCANNED " ++ dec aka.zone.toNat ++ b!":" ++ dec aka.net.toNat ++ b!"/" ++ dec aka.node.toNat ++ b!"." ++
      dec aka.point.toNat) (.inl (by simp))
    refine ⟨?_, s1, s2, s3, s4, s5, fun h => (by cases h)⟩
    have h1 := dec5 aka.zone; have h2 := dec5 aka.net; have h3 := dec5 aka.node; have h4 := dec5 aka.point
    simp; omega
  | false =>
    simp only [Bool.false_eq_true, if_false] at h
    split at h
    · simp only [List.mem_singleton] at h
      subst h
      obtain ⟨s1, s2, s3, s4, s5⟩ := safe (1 :: b!"TID: CrashMail II/Linux 1.5.1") (.inr (by decide))
      exact ⟨by decide, s1, s2, s3, s4, s5, fun _ => by decide⟩
    · cases h

theorem addLines_orResc {ls : List Str} : ∀ {m m' : MemMsg}, addLines m ls = .ok (some m') → OrResc m m' := by
  induction ls with
  | nil => intro m m' h; cases h; exact .refl _
  | cons l ls ih =>
    intro m m' h
    obtain ⟨m1, a1, a2⟩ := addLines_cons h
    exact (mmAddLine_flags a1).trans (ih a2)

theorem idFrom_none {ls : List Str} (h : ∀ l ∈ ls, ¬ (1 :: b!"MSGID:") <+: l) (id : Str) : ls.foldl idFrom id = id := by
  induction ls generalizing id with
  | nil => rfl
  | cons l ls ih =>
    rw [List.foldl_cons, show idFrom id l = id by unfold idFrom; rw [if_neg (h l (by simp))]]
    exact ih (fun x hx => h x (by simp [hx])) id

/-! ## Echomail -/

/-- An echomail that can be stored: its fields fit, its text is made of complete lines, none of which is a SEEN-BY or PATH line. -/
structure StorableEcho (m : MemMsg) : Prop where
  fits : Packable m
  ends : EndsCR m.text.flatten
  noNul : NoNul m.text.flatten
  lines : ∀ l ∈ pieces m.text.flatten, SafeEcho l ∧ ¬ b!"SEEN-BY:" <+: l ∧ ¬ (1 :: b!"PATH:") <+: l
  seenBy : m.seenBy.flatten.Nodup
  path : ∀ l ∈ m.path.flatten, PathLineOK l

/-- An echomail that came back. -/
structure EchoBack (o : MsgOpt) (rescan : Bool) (aka : Node4D) (tag : Str) (m m' : MemMsg) : Prop extends
    CameBack (msgNewLines o rescan aka) m m' where
  area : m'.area = tag
  path : m'.path.flatten = m.path.flatten
  seenBy : m'.seenBy.flatten = if o.importSeenBy then m.seenBy.flatten.filter (· ≠ (0, 0)) else []
  msgid : m'.msgid = msgidOf m.text.flatten
  flags : (∀ l ∈ pieces m.text.flatten, ¬ (1 :: b!"RESCANNED") <+: l) → rescan = false → m'.flags = 0

theorem dropWhile_all {p : Str → Bool} {as : List Str} (h : ∀ a ∈ as, p a = true) : as.dropWhile p = [] := by
  induction as with
  | nil => rfl
  | cons a as ih =>
    rw [List.dropWhile_cons_of_pos (h a (by simp))]
    exact ih fun x hx => h x (by simp [hx])

theorem takeWhile_all_append {p : Str → Bool} {as bs : List Str} (h : as.dropWhile p = []) :
    (as ++ bs).takeWhile p = as ++ bs.takeWhile p ∧ (as ++ bs).dropWhile p = bs.dropWhile p ∧ as.takeWhile p = as := by
  have hall : ∀ a ∈ as, p a = true := by
    intro a ha
    have := List.takeWhile_append_dropWhile (p := p) (l := as)
    rw [h, List.append_nil] at this
    rw [← this] at ha
    exact mem_takeWhile ha
  have e : as.takeWhile p = as := by
    have := List.takeWhile_append_dropWhile (p := p) (l := as)
    rwa [h, List.append_nil] at this
  exact ⟨List.takeWhile_append_of_pos hall, by rw [List.dropWhile_append_of_pos hall], e⟩

theorem takeWhile_some_append {p : Str → Bool} {as bs : List Str} (h : as.dropWhile p ≠ []) :
    (as ++ bs).takeWhile p = as.takeWhile p ∧ (as ++ bs).dropWhile p = as.dropWhile p ++ bs := by
  induction as with
  | nil => exact absurd rfl h
  | cons a as ih =>
    by_cases ha : p a = true
    · rw [List.dropWhile_cons_of_pos ha] at h
      obtain ⟨h1, h2⟩ := ih h
      rw [List.cons_append, List.takeWhile_cons_of_pos ha, List.dropWhile_cons_of_pos ha, List.takeWhile_cons_of_pos ha, List.dropWhile_cons_of_pos ha, h1, h2]
      exact ⟨rfl, rfl⟩
    · rw [List.cons_append, List.takeWhile_cons_of_neg ha, List.dropWhile_cons_of_neg ha, List.takeWhile_cons_of_neg ha, List.dropWhile_cons_of_neg ha]
      exact ⟨rfl, rfl⟩

theorem msgPathLines_eq {ps : List (List Str)} (h : ∀ l ∈ ps.flatten, l ≠ []) : msgPathLines ps = (ps.flatten.map pathLine).flatten := by
  unfold msgPathLines
  rw [← List.flatMap_def]
  generalize ps.flatten = ls at h
  induction ls with
  | nil => rfl
  | cons l ls ih =>
    simp only [List.flatMap_cons]
    rw [if_neg (h l (by simp)), ih (fun x hx => h x (by simp [hx]))]
    rfl

/-- The file of a message. -/
theorem msgData_eq {o : MsgOpt} {junk : Nat → UInt8} {m : MemMsg} {f : Data} (h : msgData o junk m = .ok f) :
    ∃ hd sb, (storedOf m).bytes junk = .ok hd ∧ (if (o.importSeenBy && m.area ≠ []) = true then mmMakeSeenByBuf m.seenBy else .ok []) = .ok sb ∧
      f = hd ++ (m.text.flatten ++ (sb ++ msgPathLines m.path) ++ [0]) := by
  unfold msgData at h
  cases hh : (storedOf m).bytes junk with
  | error u => simp only [hh, bind, Except.bind] at h; cases h
  | ok hd =>
  simp only [hh, bind, Except.bind] at h
  split at h
  · next hb =>
    rw [if_pos hb]
    cases hs : mmMakeSeenByBuf m.seenBy with
    | error u => rw [hs] at h; cases h
    | ok sb =>
      rw [hs] at h
      cases h
      exact ⟨hd, sb, rfl, rfl, by simp⟩
  · next hb =>
    rw [if_neg hb]
    cases h
    exact ⟨hd, [], rfl, rfl, by simp⟩

/-- Lines are read, wherever those that are added go. -/
theorem read_echo {o : MsgOpt} {aka : Node4D} {rescan : Bool} {d : Data} {fuel : Nat} {m0 m' : MemMsg} {t : Str} (ha : m0.area ≠ [])
    (hn : NoNul t) (he : EndsCR t) (hf : t.length < fuel)
    (h : addLines m0 ((pieces t).takeWhile leadLine ++ (msgNewLines o rescan aka ++ (pieces t).dropWhile leadLine)) = .ok (some m')) :
    msgReadLoop o aka rescan d fuel { mm := m0 } (t ++ [0]) = .ret { mm := m', kludges := true, zones := false } := by
  obtain ⟨m1, h1, h2⟩ := addLines_split h
  obtain ⟨m2, h3, h4⟩ := addLines_split h2
  refine read_text fuel m0 t m1 m' hn he hf h1 ?_ h4
  rw [addKludges_eq h3, if_neg]
  rintro ⟨hx, -⟩
  rw [addLines_area (by rw [addLines_area ha h1]; exact ha) h3, addLines_area ha h1] at hx
  exact ha hx

theorem endsCR_append {a b : Str} (ha : EndsCR a) (hb : EndsCR b) : EndsCR (a ++ b) := by
  rcases hb with rfl | hb
  · rw [List.append_nil]; exact ha
  · right
    rw [List.getLast?_append, hb]; rfl

theorem endsCR_lines {ls : List Str} (h : ∀ l ∈ ls, ∃ q, l = q ++ [13]) : EndsCR ls.flatten := by
  induction ls with
  | nil => exact .inl rfl
  | cons l ls ih =>
    obtain ⟨q, rfl⟩ := h l (by simp)
    exact endsCR_append (.inr (by simp)) (ih fun x hx => h x (by simp [hx]))

/-- C85, echomail. An echomail that was stored in a *.msg area is read again with the same names, subject, date, text, PATH and message identifier, and the
attributes that are kept. The line TID or RESCANNED is added in front of the text, behind the control lines. The SEEN-BY entries come
back if they are stored at all. -/
theorem msg_echo_back (o : MsgOpt) (junk : Nat → UInt8) (a : Area) (aka : Node4D) (rescan : Bool) {m : MemMsg} {f : Data}
    (hty : a.type ≠ .netmail) (htag : a.tag ≠ [] ∧ a.tag.length ≤ 79) (hm : m.area ≠ []) (hok : StorableEcho m) (hf : msgData o junk m = .ok f) :
    190 ≤ f.length ∧ ∃ m', msgReadLoop o aka rescan (f.take 190) (f.length + 1) { mm := storedHeader a (f.take 190) } (f.drop 190) =
      .ret { mm := m', kludges := true, zones := false } ∧ EchoBack o rescan aka a.tag m m' := by
  obtain ⟨h, sb, hh, hsb, hf⟩ := msgData_eq hf
  obtain ⟨hl, hst, -⟩ := header_back a hh hok.fits
  rw [if_neg hty] at hst
  -- the SEEN-BY entries that are stored
  obtain ⟨bs, hbs, hvis, hvb⟩ : ∃ bs : List (List N2), (visible bs).Nodup ∧
      (visible bs = if o.importSeenBy then m.seenBy.flatten.filter (· ≠ (0, 0)) else []) ∧
      (if (o.importSeenBy && m.area ≠ []) = true then mmMakeSeenByBuf m.seenBy else .ok []) = mmMakeSeenByBuf bs := by
    cases hi : o.importSeenBy with
    | true =>
      refine ⟨m.seenBy, List.Pairwise.filter _ hok.seenBy, by simp [visible], ?_⟩
      simp [hm]
    | false => exact ⟨[], by simp [visible], by simp [visible], rfl⟩
  obtain ⟨s0, hs0⟩ : ∃ s0, s0 = storedHeader a h := ⟨_, rfl⟩
  have hst0 : s0.area = a.tag ∧ s0.text = [] ∧ s0.seenBy = [] ∧ s0.path = [] ∧ s0.to = m.to ∧ s0.frm = m.frm ∧ s0.subject = m.subject ∧
      s0.date = m.date ∧ s0.attr = m.attr &&& msgAttrs ∧ s0.cost = m.cost ∧ s0.msgid = [] ∧ s0.flags = 0 := by
    rw [hs0, hst]; exact ⟨rfl, rfl, rfl, rfl, rfl, rfl, rfl, rfl, rfl, rfl, rfl, rfl⟩
  obtain ⟨i1, i2, i3, i4, i5, i6, i7, i8, i9, i10, i11, i12⟩ := hst0
  have hinv : MsgInv s0 := by
    constructor
    · rw [i2]; simp [TextOK]
    · rw [i1]; exact htag.2
    · rw [i5]; exact hok.fits.to.2
    · rw [i6]; exact hok.fits.frm.2
    · rw [i7]; exact hok.fits.subject.2
    · rw [i8]; exact hok.fits.date.2
    · rw [i11]; simp
    · rw [hs0, hst]; simp
    · rw [i3]; simp [Blocks]
    · rw [i4]; intro c hc; cases hc
  have hsa : s0.area ≠ [] := by rw [i1]; exact htag.1
  -- the text with the lines that are added
  obtain ⟨K, hK⟩ : ∃ K, K = (pieces m.text.flatten).takeWhile leadLine := ⟨_, rfl⟩
  obtain ⟨R, hR⟩ : ∃ R, R = (pieces m.text.flatten).dropWhile leadLine := ⟨_, rfl⟩
  have hKR : pieces m.text.flatten = K ++ R := by rw [hK, hR, List.takeWhile_append_dropWhile]
  have hpl : ∀ l ∈ K ++ R, l.length ≤ 198 ∧ SafeEcho l ∧ ¬ b!"SEEN-BY:" <+: l ∧ ¬ (1 :: b!"PATH:") <+: l := by
    intro l hl'
    rw [← hKR] at hl'
    exact ⟨pieces_len hl', hok.lines l hl'⟩
  have hall : ∀ l ∈ K ++ (msgNewLines o rescan aka ++ R), l.length ≤ 198 ∧ SafeEcho l ∧ ¬ b!"SEEN-BY:" <+: l ∧ ¬ (1 :: b!"PATH:") <+: l := by
    intro l hl'
    rw [List.mem_append, List.mem_append] at hl'
    rcases hl' with hx | hx | hx
    · exact hpl l (by simp [hx])
    · obtain ⟨q1, q2, q3, q4, -⟩ := newLines_ok hx; exact ⟨q1, q2, q3, q4⟩
    · exact hpl l (by simp [hx])
  have plain : ∀ (s : MemMsg), MsgInv s → s.area = a.tag → ∀ ls : List Str, (∀ l ∈ ls, l.length ≤ 198 ∧ SafeEcho l ∧ ¬ b!"SEEN-BY:" <+: l ∧ ¬ (1 :: b!"PATH:") <+: l) →
      ∃ s', addLines s ls = .ok (some s') ∧ MsgInv s' ∧ LFrame s s' ∧ s'.text.flatten = s.text.flatten ++ ls.flatten ∧ s'.seenBy = s.seenBy ∧ s'.path = s.path := by
    intro s hs hsa ls hls
    obtain ⟨s', q1, q2, q3, q4, q5, q6, -⟩ := addLines_text s ls hs (fun l hl => (hls l hl).1) (fun h0 => absurd (hsa.symm.trans h0) htag.1)
      (fun _ l hl => (hls l hl).2.1) (by
        rintro l hl ⟨-, hc | hc⟩
        · exact (hls l hl).2.2.1 hc
        · exact (hls l hl).2.2.2 hc)
    exact ⟨s', q1, q2, q3, q4, q5, q6⟩
  have hpne : ∀ l ∈ m.path.flatten, l ≠ [] := by
    intro l hl h0
    obtain ⟨c, hc, _⟩ := (hok.path l hl).2.2.2.2
    rw [h0] at hc; simp at hc
  have hpath : ∀ l ∈ m.path.flatten, l.length < 100 ∧ ∃ c, l.getLast? = some c ∧ below33 c = false :=
    fun l hl => ⟨(hok.path l hl).2.2.2.1, (hok.path l hl).2.2.2.2⟩
  obtain ⟨m2, b1, b2, b3, b4, b5, b6⟩ := plain s0 hinv i1 _ hall
  have hm2 : m2.area ≠ [] := by rw [b3.area]; exact hsa
  obtain ⟨ls, r, c1, c2, c3, c4⟩ := seenBy_roundtrip bs hbs m2 hm2 (by rw [b5, i3])
  obtain ⟨q, d1, d2, d3⟩ := path_roundtrip { m2 with seenBy := r } m.path.flatten hm2 b2.path hpath
  -- the file
  rw [hvb, c1] at hsb
  injection hsb with hsb
  subst hsb
  obtain ⟨T, hT⟩ : ∃ T, T = m.text.flatten ++ ((ls.flatMap (· ++ [13])) ++ msgPathLines m.path) := ⟨_, rfl⟩
  have hf' : f = h ++ (T ++ [0]) := by rw [hf, hT]
  have hfl : f.length = 190 + T.length + 1 := by rw [hf']; simp [hl]; omega
  have hft : f.take 190 = h := by rw [hf', ← hl, List.take_left]
  have hfd : f.drop 190 = T ++ [0] := by rw [hf', ← hl, List.drop_left]
  refine ⟨by omega, ?_⟩
  rw [hft, hfd, ← hs0]
  rw [msgPathLines_eq hpne] at hT
  have hTn : NoNul T := by
    rw [hT]
    unfold NoNul
    simp only [List.mem_append, List.mem_flatMap, List.mem_flatten, List.mem_map, not_or]
    refine ⟨by simpa [NoNul] using hok.noNul, ?_, ?_⟩
    · rintro ⟨l, hl, h0⟩
      rcases h0 with h0 | h0
      · exact (c2 l hl).2.2.1 h0
      · simp at h0
    · rintro ⟨_, ⟨l, hl, rfl⟩, h0⟩
      simp only [pathLine, List.mem_append, List.mem_cons] at h0
      have := (hok.path l (by simpa using hl)).2.2.1
      rcases h0 with (h0 | h0) | h0
      · revert h0; decide
      · exact this h0
      · simp at h0
  have hTe : EndsCR T := by
    rw [hT]
    refine endsCR_append hok.ends (endsCR_append ?_ (endsCR_lines ?_))
    · rw [List.flatMap_def]
      refine endsCR_lines ?_
      intro l hl
      obtain ⟨x, -, rfl⟩ := List.mem_map.1 hl
      exact ⟨x, rfl⟩
    · intro l hl
      obtain ⟨x, -, rfl⟩ := List.mem_map.1 hl
      exact ⟨_, rfl⟩
  have hTp : pieces T = (K ++ R) ++ (ls.map (· ++ [13]) ++ m.path.flatten.map pathLine) := by
    rw [hT, pieces_append _ _ hok.ends, hKR,
      pieces_lines ls _ (fun l hl => ⟨⟨(c2 l hl).1, (c2 l hl).2.1⟩, by have := (c2 l hl).2.2.2; omega⟩)]
    have := pieces_full (m.path.flatten.map pathLine) [] (by
      intro l hl
      obtain ⟨x, hx, rfl⟩ := List.mem_map.1 hl
      obtain ⟨x1, x2, _, x3, _⟩ := hok.path x hx
      exact ⟨1 :: b!"PATH: " ++ x, rfl, by simp [x1, x2], by simp; omega⟩)
    simp only [List.append_nil] at this
    rw [this]
    simp [pieces, piecesFrom]
  have hid : ∀ {s : MemMsg} {L : List Str}, addLines s0 L = .ok (some s) → L.foldl idFrom [] = msgidOf m.text.flatten → s.msgid = msgidOf m.text.flatten := by
    intro s L hs e
    obtain ⟨j1, -, -⟩ := addLines_id hsa hs
    rw [j1, i11, e]
  have hidK : (K ++ (msgNewLines o rescan aka ++ R)).foldl idFrom [] = msgidOf m.text.flatten := by
    unfold msgidOf
    rw [hKR, List.foldl_append, List.foldl_append, List.foldl_append, idFrom_none (fun l hl => (newLines_ok hl).2.2.2.2.2.1)]
  have hpl2 : (m.path.flatten.map pathLine).dropWhile leadLine = [] := by
    refine dropWhile_all ?_
    intro l hl
    obtain ⟨x, -, rfl⟩ := List.mem_map.1 hl
    rfl
  have hfl2 : ∀ {s : MemMsg} {L : List Str}, addLines s0 L = .ok (some s) → (∀ l ∈ L, ¬ (1 :: b!"RESCANNED") <+: l) → s.flags = 0 := by
    intro s L hs e
    obtain ⟨-, j2, -⟩ := addLines_id hsa hs
    rw [j2 e, i12]
  by_cases hcase : R = [] ∧ ls = []
  · -- all lines, and those of the PATH, are control lines
    obtain ⟨hR0, hls⟩ := hcase
    subst hls
    have hr0 : r = [] := by
      simp only [List.map_nil, addLines, Except.ok.injEq, Option.some.injEq] at c3
      have := congrArg MemMsg.seenBy c3
      rw [b5, i3] at this
      exact this.symm
    have hKall : K = pieces m.text.flatten := by rw [hKR, hR0, List.append_nil]
    obtain ⟨t1, t2, t3⟩ := takeWhile_all_append (p := leadLine) (bs := m.path.flatten.map pathLine) (hR.symm.trans hR0)
    obtain ⟨-, -, t4⟩ := takeWhile_all_append (p := leadLine) (bs := []) hpl2
    obtain ⟨n1, e1, e2, e3, e4, e5, e6⟩ := plain s0 hinv i1 K (fun l hl => hpl l (by simp [hl]))
    obtain ⟨q', g1, g2, g3⟩ := path_roundtrip n1 m.path.flatten (by rw [e3.area]; exact hsa) e2.path hpath
    obtain ⟨n3, k1, k2, k3, k4, k5, k6⟩ := plain { n1 with path := q' } { e2 with path := g2 } (e3.area.trans i1) (msgNewLines o rescan aka)
      (fun l hl => by obtain ⟨q1, q2, q3, q4, -⟩ := newLines_ok hl; exact ⟨q1, q2, q3, q4⟩)
    have hTp' : pieces T = pieces m.text.flatten ++ m.path.flatten.map pathLine := by rw [hTp, hKR]; simp
    have hrun : addLines s0 ((pieces T).takeWhile leadLine ++ (msgNewLines o rescan aka ++ (pieces T).dropWhile leadLine)) = .ok (some n3) := by
      rw [hTp', t1, t2, hpl2, t4, ← hKall, List.append_nil, List.append_assoc, addLines_append _ _ _ _ e1, addLines_append _ _ _ _ g1]
      exact k1
    refine ⟨n3, read_echo hsa hTn hTe (by omega) hrun, ⟨?_, ?_, ?_, ?_, ?_, ?_, ?_⟩, ?_, ?_, ?_, ?_, ?_⟩
    · exact k3.to.trans (e3.to.trans i5)
    · exact k3.frm.trans (e3.frm.trans i6)
    · exact k3.subject.trans (e3.subject.trans i7)
    · exact k3.date.trans (e3.date.trans i8)
    · exact k3.cost.trans (e3.cost.trans i10)
    · exact k3.attr.trans (e3.attr.trans i9)
    · rw [k4]
      show n1.text.flatten ++ _ = _
      unfold withLines
      rw [e4, i2, ← hK, ← hR, hR0]; simp
    · exact k3.area.trans (e3.area.trans i1)
    · rw [k6]; show q'.flatten = _
      rw [g3, e6, i4]; rfl
    · rw [k5]; show n1.seenBy.flatten = _
      rw [e5, i3, ← hvis, ← c4, hr0]
    · refine hid hrun ?_
      rw [hTp', t1, t2, hpl2, t4, List.append_nil, List.foldl_append, List.foldl_append, idFrom_none (fun l hl => (newLines_ok hl).2.2.2.2.2.1),
        idFrom_none (ls := m.path.flatten.map pathLine)]
      · rfl
      · intro l hl
        obtain ⟨x, -, rfl⟩ := List.mem_map.1 hl
        simp [pathLine]
    · intro hres hne
      refine hfl2 hrun ?_
      intro l hl
      rw [hTp', t1, t2, hpl2, t4, List.append_nil] at hl
      simp only [List.mem_append] at hl
      rcases hl with (hl | hl) | hl
      · exact hres l hl
      · obtain ⟨x, -, rfl⟩ := List.mem_map.1 hl
        simp [pathLine]
      · exact (newLines_ok hl).2.2.2.2.2.2 hne
  · have hshape : (pieces T).takeWhile leadLine = K ∧ (pieces T).dropWhile leadLine = R ++ (ls.map (· ++ [13]) ++ m.path.flatten.map pathLine) := by
      rw [hTp]
      by_cases hR0 : R = []
      · have hls : ls ≠ [] := fun h => hcase ⟨hR0, h⟩
        have hKd : K.dropWhile leadLine = [] := by
          refine dropWhile_all ?_
          intro l hl
          rw [hK] at hl
          exact mem_takeWhile hl
        rw [hR0, List.append_nil]
        obtain ⟨t1, t2, -⟩ := takeWhile_all_append (p := leadLine) (bs := ls.map (· ++ [13]) ++ m.path.flatten.map pathLine) hKd
        rw [t1, t2]
        cases ls with
        | nil => exact absurd rfl hls
        | cons l ls =>
          have hnl : ¬ leadLine (l ++ [13]) = true := by
            obtain ⟨G, g1, g2, -⟩ := mmMakeSeenByBuf_lines bs
            rw [c1] at g1
            injection g1 with g1
            cases G with
            | nil => simp at g1
            | cons p G =>
              obtain ⟨body, he, -⟩ := g2 p (by simp)
              have := congrArg List.head? g1
              rw [List.flatMap_cons, List.flatMap_cons, he] at this
              have h2 : (l ++ [13]).head? = some 83 := by
                cases l with
                | nil => simp at this
                | cons c l => simpa using this
              unfold leadLine
              rw [h2]; decide
          simp only [List.map_cons, List.cons_append]
          rw [List.takeWhile_cons_of_neg hnl, List.dropWhile_cons_of_neg hnl]
          simp
      · have : (pieces m.text.flatten).dropWhile leadLine ≠ [] := by rw [← hR]; exact hR0
        obtain ⟨t1, t2⟩ := takeWhile_some_append (bs := ls.map (· ++ [13]) ++ m.path.flatten.map pathLine) this
        rw [← hKR, t1, t2, hK, hR]
        exact ⟨rfl, rfl⟩
    refine ⟨{ m2 with seenBy := r, path := q }, read_echo hsa hTn hTe (by omega) ?_, ⟨?_, ?_, ?_, ?_, ?_, ?_, ?_⟩, ?_, ?_, ?_, ?_, ?_⟩
    · rw [hshape.1, hshape.2]
      rw [show K ++ (msgNewLines o rescan aka ++ (R ++ (ls.map (· ++ [13]) ++ m.path.flatten.map pathLine))) =
        (K ++ (msgNewLines o rescan aka ++ R)) ++ (ls.map (· ++ [13]) ++ m.path.flatten.map pathLine) by simp]
      rw [addLines_append _ _ _ _ b1, addLines_append _ _ _ _ c3]
      exact d1
    · exact b3.to.trans i5
    · exact b3.frm.trans i6
    · exact b3.subject.trans i7
    · exact b3.date.trans i8
    · exact b3.cost.trans i10
    · exact b3.attr.trans i9
    · show m2.text.flatten = _
      unfold withLines
      rw [b4, i2, ← hK, ← hR]; simp
    · exact b3.area.trans i1
    · show q.flatten = _
      rw [d3]
      show m2.path.flatten ++ _ = _
      rw [b6, i4]; rfl
    · show r.flatten = _
      rw [c4, hvis]
    · show m2.msgid = _
      exact hid b1 hidK
    · intro hres hne
      show m2.flags = 0
      refine hfl2 b1 ?_
      intro l hl
      simp only [List.mem_append] at hl
      rcases hl with hl | hl | hl
      · exact hres l (by rw [hKR]; simp [hl])
      · exact (newLines_ok hl).2.2.2.2.2.2 hne
      · exact hres l (by rw [hKR]; simp [hl])

/-! ## Netmail -/

/-- A netmail that can be stored: its text begins with the lines for its addresses. -/
structure StorableNetmail (force : Bool) (body : Str) (m : MemMsg) : Prop where
  fits : Packable m
  text : m.text.flatten = (netmailKludgeLines force m.orig m.dest).flatten ++ body
  ends : EndsCR body
  noNul : NoNul m.text.flatten
  lines : ∀ l ∈ pieces body, SafeKludge l ∧ ¬ AddrKludge l
  path : m.path.flatten = []

/-- A netmail that came back: with an INTL line, from and to the same addresses; without one, with the zone of the area instead of its own. -/
structure NetmailBack (o : MsgOpt) (rescan force : Bool) (aka : Node4D) (m m' : MemMsg) : Prop where
  area : m'.area = []
  intl : HasIntl force m.orig m.dest → m.orig.zone ≠ 0 → m.dest.zone ≠ 0 →
    CameBack (msgNewLines o rescan aka) m m' ∧ m'.orig = m.orig ∧ m'.dest = m.dest
  noIntl : ¬ HasIntl force m.orig m.dest →
    CameBack (msgNewLines o rescan aka ++ msgZoneLine o aka.zone m.orig m.dest) m m' ∧
    m'.orig = { m.orig with zone := aka.zone } ∧ m'.dest = { m.dest with zone := aka.zone }
  flags : (∀ l ∈ pieces m.text.flatten, ¬ (1 :: b!"RESCANNED") <+: l) → rescan = false → m'.flags = 0

/-- The INTL line for the area's zone. -/
theorem addZones_runs {o : MsgOpt} {aka orig dest : Node4D} {d : Data} {m : MemMsg} (ha : m.area = []) (hi : MsgInv m)
    (w1 : wordAt d 166 = dest.node) (w2 : wordAt d 168 = orig.node) (w3 : wordAt d 172 = orig.net) (w4 : wordAt d 174 = dest.net)
    (ho : m.orig = { orig with zone := m.orig.zone }) (hd : m.dest = { dest with zone := m.dest.zone }) :
    ∃ m', addZones o aka d m = .ret m' ∧ MsgInv m' ∧ LFrame m m' ∧ m'.text.flatten = m.text.flatten ++ (msgZoneLine o aka.zone orig dest).flatten ∧
      m'.orig = { orig with zone := aka.zone } ∧ m'.dest = { dest with zone := aka.zone } ∧ m'.flags = m.flags := by
  obtain ⟨z, hz⟩ : ∃ z : MemMsg, z = { m with dest := { m.dest with zone := aka.zone }, orig := { m.orig with zone := aka.zone } } := ⟨_, rfl⟩
  have ho' : z.orig = { orig with zone := aka.zone } := by rw [hz]; show { m.orig with zone := aka.zone } = _; rw [ho]
  have hd' : z.dest = { dest with zone := aka.zone } := by rw [hz]; show { m.dest with zone := aka.zone } = _; rw [hd]
  have hzi : MsgInv z := by rw [hz]; exact { hi with }
  have hzf : LFrame m z := by rw [hz]; constructor <;> rfl
  have hzt : z.text = m.text := by rw [hz]
  have hzg : z.flags = m.flags := by rw [hz]
  have hza : z.area = [] := by rw [hz]; exact ha
  unfold addZones
  rw [← hz, w1, w2, w3, w4]
  unfold addIf msgZoneLine
  cases hfi : o.forceIntl with
  | false =>
    simp only [Bool.false_eq_true, if_false]
    exact ⟨z, rfl, hzi, hzf, by rw [hzt]; simp, ho', hd', hzg⟩
  | true =>
    simp only [if_true]
    have hk := kludge_intl z { orig with zone := aka.zone } { dest with zone := aka.zone } hza
    unfold addr3 at hk
    simp only [← List.append_assoc] at hk
    have hlen : (1 :: b!"INTL " ++ dec aka.zone.toNat ++ b!":" ++ dec dest.net.toNat ++ b!"/" ++ dec dest.node.toNat ++ b!" " ++
      dec aka.zone.toNat ++ b!":" ++ dec orig.net.toNat ++ b!"/" ++ dec orig.node.toNat ++ [13]).length + chunkLen < 2 ^ 32 := by
      have h1 := dec5 aka.zone; have h2 := dec5 dest.net; have h3 := dec5 dest.node; have h4 := dec5 orig.net; have h5 := dec5 orig.node
      simp [chunkLen]; omega
    obtain ⟨t, e1, e2, e3⟩ := addText_ok { z with orig := { orig with zone := aka.zone, point := z.orig.point }, dest := { dest with zone := aka.zone, point := z.dest.point } }
      (1 :: b!"INTL " ++ dec aka.zone.toNat ++ b!":" ++ dec dest.net.toNat ++ b!"/" ++ dec dest.node.toNat ++ b!" " ++
      dec aka.zone.toNat ++ b!":" ++ dec orig.net.toNat ++ b!"/" ++ dec orig.node.toNat ++ [13]) hzi.text hlen
    have hadd := (mmAddLine_kludge z _ _ hza rfl hk).trans e1
    unfold addLineP
    rw [hadd]
    refine ⟨_, rfl, { hzi with text := e2 }, ?_, ?_, ?_, ?_, hzg⟩
    · constructor
      · exact hzf.area
      · exact hzf.to
      · exact hzf.frm
      · exact hzf.subject
      · exact hzf.date
      · exact hzf.attr
      · exact hzf.cost
      · exact hzf.type
      · exact hzf.pktOrig
      · exact hzf.pktDest
    · show t.flatten = _
      rw [e3, ← hzt]; simp
    · show ({ orig with zone := aka.zone, point := z.orig.point } : Node4D) = _
      rw [ho']
    · show ({ dest with zone := aka.zone, point := z.dest.point } : Node4D) = _
      rw [hd']

/-- C85, netmail. A netmail that was stored in a *.msg area is read again with the same names, subject, date and text (with the lines that are added), and with the same addresses if
these are in an INTL line. -/
theorem msg_netmail_back (o : MsgOpt) (junk : Nat → UInt8) (a : Area) (aka : Node4D) (rescan force : Bool) {m : MemMsg} {body : Str} {f : Data}
    (hty : a.type = .netmail) (hm : m.area = []) (hok : StorableNetmail force body m)
    (hzone : HasIntl force m.orig m.dest → m.orig.zone ≠ 0 ∧ m.dest.zone ≠ 0) (hf : msgData o junk m = .ok f) :
    190 ≤ f.length ∧ ∃ m' z, msgReadLoop o aka rescan (f.take 190) (f.length + 1) { mm := storedHeader a (f.take 190) } (f.drop 190) =
      .ret { mm := m', kludges := true, zones := z } ∧ NetmailBack o rescan force aka m m' := by
  obtain ⟨h, sb, hh, hsb, hf⟩ := msgData_eq hf
  obtain ⟨hl, hst, w1, w2, w3, w4⟩ := header_back a hh hok.fits
  rw [if_pos hty] at hst
  rw [if_neg (by simp [hm])] at hsb
  injection hsb with hsb
  subst hsb
  have hso : (storedOf m).origNet = m.orig.net ∧ (storedOf m).origNode = m.orig.node ∧ (storedOf m).destNet = m.dest.net ∧ (storedOf m).destNode = m.dest.node := by
    unfold storedOf; rw [if_pos hm]; exact ⟨rfl, rfl, rfl, rfl⟩
  rw [hso.1, hso.2.1, hso.2.2.1, hso.2.2.2] at hst
  rw [hso.2.2.2] at w1
  rw [hso.2.1] at w2
  rw [hso.1] at w3
  rw [hso.2.2.1] at w4
  have hmp : msgPathLines m.path = [] := by unfold msgPathLines; rw [hok.path]; rfl
  rw [hmp] at hf
  simp only [List.append_nil] at hf
  have hfl : f.length = 190 + m.text.flatten.length + 1 := by rw [hf]; simp only [List.length_append, hl, List.length_singleton]; omega
  have hft : f.take 190 = h := by rw [hf, ← hl, List.take_left]
  have hfd : f.drop 190 = m.text.flatten ++ [0] := by rw [hf, ← hl, List.drop_left]
  refine ⟨by omega, ?_⟩
  rw [hft, hfd]
  obtain ⟨s0, hs0⟩ : ∃ s0, s0 = storedHeader a h := ⟨_, rfl⟩
  rw [← hs0]
  have hst0 : s0.area = [] ∧ s0.text = [] ∧ s0.to = m.to ∧ s0.frm = m.frm ∧ s0.subject = m.subject ∧
      s0.date = m.date ∧ s0.attr = m.attr &&& msgAttrs ∧ s0.cost = m.cost ∧ s0.flags = 0 ∧ s0.orig = ⟨0, m.orig.net, m.orig.node, 0⟩ ∧
      s0.dest = ⟨0, m.dest.net, m.dest.node, 0⟩ := by
    rw [hs0, hst]; exact ⟨rfl, rfl, rfl, rfl, rfl, rfl, rfl, rfl, rfl, rfl, rfl⟩
  obtain ⟨i1, i2, i5, i6, i7, i8, i9, i10, i12, i13, i14⟩ := hst0
  have hinv : MsgInv s0 := by
    constructor
    · rw [i2]; simp [TextOK]
    · rw [i1]; simp
    · rw [i5]; exact hok.fits.to.2
    · rw [i6]; exact hok.fits.frm.2
    · rw [i7]; exact hok.fits.subject.2
    · rw [i8]; exact hok.fits.date.2
    · rw [hs0, hst]; simp
    · rw [hs0, hst]; simp
    · rw [hs0, hst]; simp [Blocks]
    · rw [hs0, hst]; intro c hc; cases hc
  -- the lines
  obtain ⟨ks, hks⟩ : ∃ ks, ks = netmailKludgeLines force m.orig m.dest := ⟨_, rfl⟩
  have hfull := kludge_full force m.orig m.dest
  have hpl : pieces m.text.flatten = ks ++ pieces body := by rw [hok.text, hks]; exact pieces_full _ _ hfull
  have hlead : ks.dropWhile leadLine = [] := by
    refine dropWhile_all ?_
    intro l hl
    rw [hks] at hl
    simp only [netmailKludgeLines, List.mem_append, List.mem_ite_nil_right, List.mem_singleton] at hl
    rcases hl with (⟨_, rfl⟩ | ⟨_, rfl⟩) | ⟨_, rfl⟩ <;> rfl
  obtain ⟨t1, t2, -⟩ := takeWhile_all_append (bs := pieces body) hlead
  rw [← hpl] at t1 t2
  have hTe : EndsCR m.text.flatten := by
    rw [hok.text]
    refine endsCR_append (endsCR_lines ?_) hok.ends
    intro l hl
    obtain ⟨q, rfl, _⟩ := hfull l hl
    exact ⟨q, rfl⟩
  have plain : ∀ (s : MemMsg), MsgInv s → s.area = [] → ∀ ls : List Str, (∀ l ∈ ls, l.length ≤ 198 ∧ SafeKludge l) →
      ∃ s', addLines s ls = .ok (some s') ∧ MsgInv s' ∧ LFrame s s' ∧ s'.text.flatten = s.text.flatten ++ ls.flatten ∧
        ((∀ l ∈ ls, ¬ AddrKludge l) → s'.orig = s.orig ∧ s'.dest = s.dest) := by
    intro s hs hsa ls hls
    obtain ⟨s', q1, q2, q3, q4, q5, q6, q7⟩ := addLines_text s ls hs (fun l hl => (hls l hl).1) (fun _ l hl => (hls l hl).2)
      (fun h0 => absurd hsa h0) (fun l _ hc => hc.1 hsa)
    exact ⟨s', q1, q2, q3, q4, q7⟩
  obtain ⟨m1, a1, a2, a3, a4, -⟩ := plain s0 hinv i1 ks (by
    intro l hl; rw [hks] at hl
    obtain ⟨q, rfl, _, hq⟩ := hfull l hl
    exact ⟨by simp; omega, fun _ => Or.inr (Or.inl (by simp))⟩)
  obtain ⟨m1', b1, b2, b3, b4⟩ := netmailKludges_restore force m.orig m.dest s0 i1 hinv.text
    (by rw [i13]; exact ⟨rfl, rfl, rfl⟩) (by rw [i14]; exact ⟨rfl, rfl, rfl⟩)
  rw [← hks, a1] at b1
  simp only [Except.ok.injEq, Option.some.injEq] at b1
  subst b1
  have hbl : ∀ l ∈ (pieces body).takeWhile leadLine ++ (pieces body).dropWhile leadLine, l.length ≤ 198 ∧ SafeKludge l ∧ ¬ AddrKludge l := by
    intro l hl
    rw [List.takeWhile_append_dropWhile] at hl
    exact ⟨pieces_len hl, hok.lines l hl⟩
  obtain ⟨m2, c1, c2, c3, c4, c5⟩ := plain m1 a2 (a3.area.trans i1) ((pieces body).takeWhile leadLine) (fun l hl => ⟨(hbl l (List.mem_append_left _ hl)).1, (hbl l (List.mem_append_left _ hl)).2.1⟩)
  obtain ⟨c6, c7⟩ := c5 (fun l hl => (hbl l (List.mem_append_left _ hl)).2.2)
  have hm2a : m2.area = [] := c3.area.trans (a3.area.trans i1)
  obtain ⟨m3, d1, d2, d3, d4, d5⟩ := plain m2 c2 hm2a (msgNewLines o rescan aka) (fun l hl => ⟨(newLines_ok hl).1, (newLines_ok hl).2.1.1⟩)
  obtain ⟨d6, d7⟩ := d5 (fun l hl => (newLines_ok hl).2.2.2.2.1)
  have hm3a : m3.area = [] := d3.area.trans hm2a
  have hK : addLines s0 ((pieces m.text.flatten).takeWhile leadLine) = .ok (some m2) := by
    rw [t1, addLines_append _ _ _ _ a1]; exact c1
  have hfr : LFrame s0 m3 := a3.trans (c3.trans d3)
  -- flags
  have hfl3 : (∀ l ∈ pieces m.text.flatten, ¬ (1 :: b!"RESCANNED") <+: l) → rescan = false → m3.flags = 0 := by
    intro hres hne
    have hk : ∀ l ∈ (pieces m.text.flatten).takeWhile leadLine, ¬ (1 :: b!"RESCANNED") <+: l := by
      intro l hl
      refine hres l ?_
      rw [← List.takeWhile_append_dropWhile (p := leadLine) (l := pieces m.text.flatten)]
      exact List.mem_append_left _ hl
    rw [addLines_flags _ hm2a (fun l hl => (newLines_ok hl).2.2.2.2.2.2 hne) d1, addLines_flags _ i1 hk hK, i12]
  have hR : ∀ s : MemMsg, MsgInv s → s.area = [] → ∃ s', addLines s ((pieces m.text.flatten).dropWhile leadLine) = .ok (some s') ∧ LFrame s s' ∧
      s'.text.flatten = s.text.flatten ++ ((pieces m.text.flatten).dropWhile leadLine).flatten ∧ s'.orig = s.orig ∧ s'.dest = s.dest ∧
      ((∀ l ∈ pieces m.text.flatten, ¬ (1 :: b!"RESCANNED") <+: l) → s'.flags = s.flags) := by
    intro s hs hsa
    obtain ⟨s', q1, q2, q3, q4, q5⟩ := plain s hs hsa ((pieces m.text.flatten).dropWhile leadLine) (by
      rw [t2]; exact fun l hl => ⟨(hbl l (List.mem_append_right _ hl)).1, (hbl l (List.mem_append_right _ hl)).2.1⟩)
    obtain ⟨q6, q7⟩ := q5 (by rw [t2]; exact fun l hl => (hbl l (List.mem_append_right _ hl)).2.2)
    refine ⟨s', q1, q3, q4, q6, q7, fun hres => addLines_flags _ hsa (fun l hl => hres l ?_) q1⟩
    rw [← List.takeWhile_append_dropWhile (p := leadLine) (l := pieces m.text.flatten)]
    exact List.mem_append_right _ hl
  have back : ∀ (new : List Str) (s : MemMsg), LFrame s0 s → s.text.flatten = ((pieces m.text.flatten).takeWhile leadLine).flatten ++ new.flatten ++
      ((pieces m.text.flatten).dropWhile leadLine).flatten → CameBack new m s := by
    intro new s hs ht
    exact ⟨hs.to.trans i5, hs.frm.trans i6, hs.subject.trans i7, hs.date.trans i8, hs.cost.trans i10, hs.attr.trans i9, ht⟩
  have ht3 : m3.text.flatten = ((pieces m.text.flatten).takeWhile leadLine).flatten ++ (msgNewLines o rescan aka).flatten := by
    rw [d4, c4, a4, i2, t1]; simp
  by_cases hI : HasIntl force m.orig m.dest
  · obtain ⟨z1, z2⟩ := hzone hI
    obtain ⟨m4, e1, e2, e3, e4, e5, e6⟩ := hR m3 d2 hm3a
    have ho3 : m3.orig = m.orig := d6.trans (c6.trans (b3 hI).1)
    have hd3 : m3.dest = m.dest := d7.trans (c7.trans (b3 hI).2)
    refine ⟨m4, false, read_text _ _ _ _ _ hok.noNul hTe (by omega) hK ?_ e1, e2.area.trans hm3a, ?_, fun h => absurd hI h, fun hr hn => (e6 hr).trans (hfl3 hr hn)⟩
    · rw [addKludges_eq d1, if_neg]
      rintro ⟨-, hz | hz⟩
      · rw [hd3] at hz; exact z2 hz
      · rw [ho3] at hz; exact z1 hz
    · intro _ _ _
      exact ⟨back _ _ (hfr.trans e2) (by rw [e3, ht3]), e4.trans ho3, e5.trans hd3⟩
  · have ho3 : m3.orig = { m.orig with zone := 0 } := by
      rw [d6, c6, (b4 hI).1, i13]
    have hd3 : m3.dest = { m.dest with zone := 0 } := by
      rw [d7, c7, (b4 hI).2, i14]
    obtain ⟨m3', g1, g2, g3, g4, g5, g6, g7⟩ := addZones_runs (o := o) (aka := aka) (orig := m.orig) (dest := m.dest) (d := h) hm3a d2 w1 w2 w3 w4
      (by rw [ho3]) (by rw [hd3])
    obtain ⟨m4, e1, e2, e3, e4, e5, e6⟩ := hR m3' g2 (g3.area.trans hm3a)
    refine ⟨m4, true, read_text _ _ _ _ _ hok.noNul hTe (by omega) hK ?_ e1, e2.area.trans (g3.area.trans hm3a), fun h => absurd h hI, ?_,
      fun hr hn => (e6 hr).trans (g7.trans (hfl3 hr hn))⟩
    · rw [addKludges_eq d1, if_pos ⟨hm3a, .inl (by rw [hd3])⟩, g1]
      rfl
    · intro _
      exact ⟨back _ _ (hfr.trans (g3.trans e2)) (by rw [e3, g4, ht3]; simp), e4.trans g5, e5.trans g6⟩

/-! ## On the disk -/

/-- The message is handed over as it was read, and the handler's answer decides. -/
theorem exportNum_hands {w : World} (hw : w.Reliable) {o : MsgOpt} {junk : Nat → UInt8} {handle : MsgHandler} {io : Bool} {st : MsgSt} {i : Nat}
    {a : Area} {aka : Node4D} {rescan : Bool} {num : UInt32} {fs : FS} {r0 : MsgRec} {f : Data} {rd : MsgReading} (hd : DirName a.path)
    (hr : st i = some r0) (hf : fs (msgFile a.path num.toNat) = some f) (hl : 190 ≤ f.length)
    (hs : rescan = true ∨ (wordAt (f.take 190) 186 &&& FLAG_SENT = 0 ∧ wordAt (f.take 190) 186 &&& FLAG_LOCAL ≠ 0))
    (hrd : msgReadLoop o aka rescan (f.take 190) (f.length + 1) { mm := storedHeader a (f.take 190) } (f.drop 190) = .ret rd) :
    Post w (fun x _ => if x.ok then x.sent = [(num, { rd.mm with msgnum := num, flags := rd.mm.flags ||| if rescan then 1 else 2 })] else x.sent = [])
      (msgExportNum o junk handle io st i a aka rescan num) fs := by
  unfold msgExportNum msgGetArea readFile
  simp only [Prog.bind_eq, hr, Prog.bind, Bool.not_true, Bool.false_eq_true, if_false]
  rw [msgPath_eq hd]
  refine .read ?_ ?_
  · intro f' hf'
    rw [hf] at hf'; cases hf'
    dsimp only
    rw [if_neg (show ¬ f.length < 190 by omega), if_neg (show ¬ (!rescan && (wordAt (f.take 190) 186 &&& FLAG_SENT != 0 || wordAt (f.take 190) 186 &&& FLAG_LOCAL == 0)) = true from ?_), hrd]
    · unfold msgHand handed
      simp only [Prog.bind, Prog.bind_eq]
      refine Post.bind (Q := fun _ _ => True) (fun _ _ _ => trivial) ?_
      rintro ⟨ok, m, st'⟩ gs -
      cases ok with
      | false =>
        simp only [Bool.not_false, if_true]
        refine .ret ?_
        simp
      | true =>
        simp only [Bool.not_true, Bool.false_eq_true, if_false]
        cases rescan with
        | true =>
          simp only [if_true]
          refine .ret ?_
          simp only [if_true]
          rfl
        | false =>
          simp only [Bool.false_eq_true, if_false]
          refine Post.bind (Q := fun _ _ => True) (fun _ _ _ => trivial) ?_
          rintro ⟨io', st2⟩ gs' -
          refine .ret ?_
          simp only [if_true]
          rfl
    · rcases hs with hs | ⟨h1, h2⟩
      · rw [hs]; simp
      · rw [h1]; simp [h2]
  · rintro (h | h)
    · rw [hf] at h; cases h
    · exact absurd h hw.opens

/-- Is the message to be exported? Rescans send every message, an export those that are local (bit 8) and not sent (bit 3). -/
def IsRead (rescan : Bool) (attr : UInt16) : Prop := rescan = true ∨ (attr &&& 8 = 0 ∧ attr &&& 256 ≠ 0)

theorem attr_stored {o : MsgOpt} {junk : Nat → UInt8} {m : MemMsg} {f : Data} (hp : Packable m) (hf : msgData o junk m = .ok f) :
    wordAt (f.take 190) 186 = m.attr := by
  obtain ⟨h, sb, hh, -, hf⟩ := msgData_eq hf
  have hs : (storedOf m).frm = m.frm ∧ (storedOf m).to = m.to ∧ (storedOf m).subject = m.subject ∧ (storedOf m).date = m.date ∧
      (storedOf m).attr = m.attr := by
    unfold storedOf; split <;> exact ⟨rfl, rfl, rfl, rfl, rfl⟩
  obtain ⟨s1, s2, s3, s4, s6⟩ := hs
  obtain ⟨b0, -, -, -, -, -, -, -, -, -, b10, -⟩ := stored_back hh (by rw [s1]; exact hp.frm.1) (by rw [s2]; exact hp.to.1)
    (by rw [s3]; exact hp.subject.1) (by rw [s4]; exact hp.date.1)
  rw [hf, ← b0, List.take_left, b10, s6]

theorem fieldsFit_of {m : MemMsg} (h : Packable m) : FieldsFit m := by
  have h1 := h.frm.2; have h2 := h.to.2; have h3 := h.subject.2; have h4 := h.date.2
  exact ⟨by omega, by omega, by omega, by omega⟩

theorem through_post {α : Type} {w : World} {I : FS → Prop} {Q : α → FS → Prop} {p : Prog α} {fs : FS} (h : Through w I Q p fs) : Post w Q p fs :=
  fun a _ hr => (h _ _ hr).2.1 a rfl

/-- C85. Once an echomail has been imported into a *.msg area, reading that message - in a rescan, or in an export if it is one to be sent - at any later time when its file is unchanged
hands over the message as it was. -/
theorem echo_stored_comes_back {w : World} (hw : w.Reliable) (o : MsgOpt) (junk : Nat → UInt8) (fuel : Nat) (io : Bool) (st : MsgSt) (i : Nat) (a : Area)
    (m : MemMsg) (fs : FS) (hd : DirName a.path) (b : Nat) (h2 : 2 ≤ b) (hb : b < 2 ^ 32)
    (hn : st i = none → NumbersBelow fs a.path b) (hr : ∀ r, st i = some r → Room fs a.path r)
    (hty : a.type ≠ .netmail) (htag : a.tag ≠ [] ∧ a.tag.length ≤ 79) (hm : m.area ≠ []) (hok : StorableEcho m) :
    Post w (fun x fs' => x.1 = true → ∃ num : UInt32, fs (msgFile a.path num.toNat) = none ∧ fs' (msgFile a.path num.toNat) ≠ none ∧
        ∀ (gs : FS) (st2 : MsgSt) (io2 : Bool) (handle : MsgHandler) (aka : Node4D) (rescan : Bool),
          gs (msgFile a.path num.toNat) = fs' (msgFile a.path num.toNat) → st2 i ≠ none → IsRead rescan m.attr →
          Post w (fun y _ => if y.ok then ∃ m', EchoBack o rescan aka a.tag m m' ∧
              y.sent = [(num, { m' with msgnum := num, flags := m'.flags ||| if rescan then 1 else 2 })] else y.sent = [])
            (msgExportNum o junk handle io2 st2 i a aka rescan num) gs)
      (msgImport o junk fuel io st i a.path m) fs := by
  refine (through_post (import_kept o junk fuel io st i a.path m fs hd (fieldsFit_of hok.fits) b h2 hb hn hr)).mono ?_
  intro x fs' H hx
  obtain ⟨f, r, hf, -, ⟨num, -, n2, n3, -⟩, -⟩ := H hx
  have hfs : fs' (msgFile a.path num.toNat) = some f := by rw [n3, FS.put_self]
  refine ⟨num, n2, by rw [hfs]; simp, ?_⟩
  intro gs st2 io2 handle aka rescan hg hst hread
  obtain ⟨hl, m', e1, e2⟩ := msg_echo_back o junk a aka rescan hty htag hm hok hf
  cases hs : st2 i with
  | none => exact absurd hs hst
  | some r0 =>
    refine (exportNum_hands hw hd hs (hg.trans hfs) hl ?_ e1).mono ?_
    · rw [attr_stored hok.fits hf]; exact hread
    · intro y _ hy
      split
      · next h => rw [if_pos h] at hy; exact ⟨m', e2, hy⟩
      · next h => rw [if_neg h] at hy; exact hy

/-- C85, the same for netmail; the addresses come back if they have an INTL line (see `NetmailBack`). -/
theorem netmail_stored_comes_back_partial {w : World} (hw : w.Reliable) (o : MsgOpt) (junk : Nat → UInt8) (fuel : Nat) (io : Bool) (st : MsgSt) (i : Nat) (a : Area)
    (m : MemMsg) (fs : FS) (hd : DirName a.path) (b : Nat) (h2 : 2 ≤ b) (hb : b < 2 ^ 32)
    (hn : st i = none → NumbersBelow fs a.path b) (hr : ∀ r, st i = some r → Room fs a.path r) (force : Bool) {body : Str}
    (hty : a.type = .netmail) (hm : m.area = []) (hok : StorableNetmail force body m)
    (hzone : HasIntl force m.orig m.dest → m.orig.zone ≠ 0 ∧ m.dest.zone ≠ 0) :
    Post w (fun x fs' => x.1 = true → ∃ num : UInt32, fs (msgFile a.path num.toNat) = none ∧ fs' (msgFile a.path num.toNat) ≠ none ∧
        ∀ (gs : FS) (st2 : MsgSt) (io2 : Bool) (handle : MsgHandler) (aka : Node4D) (rescan : Bool),
          gs (msgFile a.path num.toNat) = fs' (msgFile a.path num.toNat) → st2 i ≠ none → IsRead rescan m.attr →
          Post w (fun y _ => if y.ok then ∃ m', NetmailBack o rescan force aka m m' ∧
              y.sent = [(num, { m' with msgnum := num, flags := m'.flags ||| if rescan then 1 else 2 })] else y.sent = [])
            (msgExportNum o junk handle io2 st2 i a aka rescan num) gs)
      (msgImport o junk fuel io st i a.path m) fs := by
  refine (through_post (import_kept o junk fuel io st i a.path m fs hd (fieldsFit_of hok.fits) b h2 hb hn hr)).mono ?_
  intro x fs' H hx
  obtain ⟨f, r, hf, -, ⟨num, -, n2, n3, -⟩, -⟩ := H hx
  have hfs : fs' (msgFile a.path num.toNat) = some f := by rw [n3, FS.put_self]
  refine ⟨num, n2, by rw [hfs]; simp, ?_⟩
  intro gs st2 io2 handle aka rescan hg hst hread
  obtain ⟨hl, m', z, e1, e2⟩ := msg_netmail_back o junk a aka rescan force hty hm hok hzone hf
  cases hs : st2 i with
  | none => exact absurd hs hst
  | some r0 =>
    refine (exportNum_hands hw hd hs (hg.trans hfs) hl ?_ e1).mono ?_
    · rw [attr_stored hok.fits hf]; exact hread
    · intro y _ hy
      split
      · next h => rw [if_pos h] at hy; exact ⟨m', e2, hy⟩
      · next h => rw [if_neg h] at hy; exact hy

/-! ## Concrete cases -/

/-- What other programs find in the header of a stored message: every field at its place; the addresses only for netmail. -/
theorem stored_fields (o : MsgOpt) (junk : Nat → UInt8) {m : MemMsg} {f : Data} (hp : Packable m) (hf : msgData o junk m = .ok f) :
    strField f 0 36 = m.frm ∧ strField f 36 36 = m.to ∧ strField f 72 72 = m.subject ∧ strField f 144 20 = m.date ∧
    wordAt f 164 = 0 ∧ wordAt f 170 = m.cost ∧ wordAt f 184 = 0 ∧ wordAt f 186 = m.attr ∧ wordAt f 188 = 0 ∧
    (m.area = [] → (⟨wordAt f 178, wordAt f 172, wordAt f 168, wordAt f 182⟩ : Node4D) = m.orig ∧
      (⟨wordAt f 176, wordAt f 174, wordAt f 166, wordAt f 180⟩ : Node4D) = m.dest) ∧
    (m.area ≠ [] → ∀ j ∈ [166, 168, 172, 174, 176, 178, 180, 182], wordAt f j = 0) := by
  obtain ⟨h, sb, hh, -, hfe⟩ := msgData_eq hf
  have hs : (storedOf m).frm = m.frm ∧ (storedOf m).to = m.to ∧ (storedOf m).subject = m.subject ∧ (storedOf m).date = m.date ∧
      (storedOf m).cost = m.cost ∧ (storedOf m).attr = m.attr ∧ (storedOf m).timesRead = 0 ∧ (storedOf m).replyTo = 0 ∧ (storedOf m).nextReply = 0 := by
    unfold storedOf; split <;> exact ⟨rfl, rfl, rfl, rfl, rfl, rfl, rfl, rfl, rfl⟩
  obtain ⟨s1, s2, s3, s4, s5, s6, s7, s8, s9⟩ := hs
  obtain ⟨b0, b1, b2, b3, b4, b5, b6, b7, b8, b9, b10, b11, b12, b13, b14, b15, b16, b17⟩ := stored_back hh (by rw [s1]; exact hp.frm.1)
    (by rw [s2]; exact hp.to.1) (by rw [s3]; exact hp.subject.1) (by rw [s4]; exact hp.date.1)
  have hw : ∀ j, j + 1 < 190 → wordAt f j = wordAt h j := by
    intro j hj
    unfold wordAt
    rw [hfe, List.getD_eq_getElem?_getD, List.getD_eq_getElem?_getD, List.getElem?_append_left (by omega), List.getElem?_append_left (by omega),
      List.getD_eq_getElem?_getD, List.getD_eq_getElem?_getD]
  have hsf : ∀ i n, i + (n - 1) ≤ 190 → strField f i n = strField h i n := by
    intro i n hi
    unfold strField
    rw [hfe, List.drop_append_of_le_length (by omega), List.take_append_of_le_length (by rw [List.length_drop]; omega)]
  rw [hsf 0 36 (by omega), hsf 36 36 (by omega), hsf 72 72 (by omega), hsf 144 20 (by omega), hw 164 (by omega), hw 170 (by omega), hw 184 (by omega),
    hw 186 (by omega), hw 188 (by omega), b1, b2, b3, b4, b7, b10, b15, b16, b17]
  refine ⟨s1, s2, s3, s4, s7, s5, s8, s6, s9, ?_, ?_⟩
  · intro ha
    rw [hw 178 (by omega), hw 172 (by omega), hw 168 (by omega), hw 182 (by omega), hw 176 (by omega), hw 174 (by omega), hw 166 (by omega),
      hw 180 (by omega), b5, b6, b8, b9, b11, b12, b13, b14]
    unfold storedOf
    rw [if_pos ha]
    exact ⟨rfl, rfl⟩
  · intro ha j hj
    simp only [List.mem_cons, List.not_mem_nil, or_false] at hj
    have e : storedOf m = { frm := m.frm, to := m.to, subject := m.subject, date := m.date, cost := m.cost, attr := m.attr } := by
      unfold storedOf; rw [if_neg ha]
    rcases hj with rfl | rfl | rfl | rfl | rfl | rfl | rfl | rfl
    · rw [hw _ (by omega), b5, e]
    · rw [hw _ (by omega), b6, e]
    · rw [hw _ (by omega), b8, e]
    · rw [hw _ (by omega), b9, e]
    · rw [hw _ (by omega), b11, e]
    · rw [hw _ (by omega), b12, e]
    · rw [hw _ (by omega), b13, e]
    · rw [hw _ (by omega), b14, e]

namespace Ex

/-- An echomail. -/
def keepEcho : MemMsg where
  orig := ⟨1, 2, 4, 0⟩
  area := b!"TEST"
  to := b!"All"
  frm := b!"Someone"
  subject := b!"Hello"
  date := b!"01 Jan 26  00:00:00"
  attr := 0x109
  cost := 7
  text := [1 :: b!"MSGID: 1:2/4 12345678\rHello\rthere\r"]
  seenBy := [[(2, 3), (2, 4)]]
  path := [[b!"2/4"]]

theorem keepEcho_ok : StorableEcho keepEcho where
  fits := ⟨by decide, by decide, by decide, by decide⟩
  ends := .inr (by decide)
  noNul := by decide
  lines := by
    have h : pieces keepEcho.text.flatten = [1 :: b!"MSGID: 1:2/4 12345678\r", b!"Hello\r", b!"there\r"] := by decide
    rw [h]
    intro l hl
    have h3 : l = 1 :: b!"MSGID: 1:2/4 12345678\r" ∨ l = b!"Hello\r" ∨ l = b!"there\r" := by simpa using hl
    have no : ¬ b!"SEEN-BY:" <+: l ∧ ¬ (1 :: b!"PATH:") <+: l ∧ ¬ b!" * Origin: " <+: l ∧ l.getLast? = some 13 := by
      rcases h3 with rfl | rfl | rfl <;> decide
    exact ⟨⟨fun _ => .inr (.inl no.2.2.2), fun h => absurd h no.1, fun h => absurd h no.2.1, fun h => absurd h no.2.2.1⟩, no.1, no.2.1⟩
  seenBy := by decide
  path := by
    intro l hl
    have : l = b!"2/4" := by simpa [keepEcho] using hl
    subst this
    exact ⟨by decide, by decide, by decide, by decide, 52, by decide, by decide⟩

/-- The hypotheses of `echo_stored_comes_back` are met by this message and the directory with the messages 2 and 5. -/
example : mArea.type ≠ .netmail ∧ (mArea.tag ≠ [] ∧ mArea.tag.length ≤ 79) ∧ keepEcho.area ≠ [] ∧ StorableEcho keepEcho ∧ DirName mArea.path ∧
    NumbersBelow msgDisk mArea.path (6 : Nat) ∧ IsRead true keepEcho.attr ∧ calm.Reliable :=
  ⟨by decide, ⟨by decide, by decide⟩, by decide, keepEcho_ok, msgDir, msgDisk_below, .inl rfl, calm_reliable⟩

/-- The message of a file that has been read. -/
def readMsg (o : MsgOpt) (a : Area) (aka : Node4D) (rescan : Bool) (f : Data) : Option MemMsg :=
  match msgReadLoop o aka rescan (f.take 190) (f.length + 1) { mm := storedHeader a (f.take 190) } (f.drop 190) with
  | .ret r => some r.mm
  | _ => none

/-- What a rescan makes of that echomail. -/
theorem keepEcho_rescan : ∃ f m', msgData { importSeenBy := true } (fun _ => 7) keepEcho = .ok f ∧ readMsg { importSeenBy := true } mArea ⟨1, 2, 3, 0⟩ true f = some m' ∧
    m'.text.flatten = (1 :: b!"MSGID: 1:2/4 12345678\r") ++ (1 :: b!"RESCANNED 1:2/3.0\r") ++ b!"Hello\rthere\r" ∧ m'.seenBy.flatten = [(2, 3), (2, 4)] ∧
    m'.path.flatten = [b!"2/4"] ∧ m'.attr = 1 ∧ m'.cost = 7 ∧ m'.msgid = b!"1:2/4 12345678" := by
  obtain ⟨f, hf⟩ := msgData_ok { importSeenBy := true } (fun _ => 7) (fieldsFit_of keepEcho_ok.fits)
  obtain ⟨-, m', e1, e2⟩ := msg_echo_back { importSeenBy := true } (fun _ => 7) mArea ⟨1, 2, 3, 0⟩ true (by decide) ⟨by decide, by decide⟩ (by decide) keepEcho_ok hf
  refine ⟨f, m', hf, by unfold readMsg; rw [e1], ?_, ?_, ?_, ?_, ?_, ?_⟩
  · rw [e2.text]; decide
  · rw [e2.seenBy]; decide
  · rw [e2.path]; decide
  · rw [e2.attr]; decide
  · rw [e2.cost]; rfl
  · rw [e2.msgid]; decide

/-- A netmail area, and a netmail in zone 2 without INTL line. -/
def keepArea : Area := { mArea with type := .netmail }

def keepNetmail : MemMsg where
  orig := ⟨2, 5, 6, 1⟩
  dest := ⟨2, 7, 8, 0⟩
  to := b!"Sysop"
  frm := b!"Someone"
  subject := b!"Hello"
  date := b!"01 Jan 26  00:00:00"
  attr := 0x101
  text := [1 :: b!"FMPT 1\rHello\r"]

theorem keepNetmail_ok : StorableNetmail false b!"Hello\r" keepNetmail where
  fits := ⟨by decide, by decide, by decide, by decide⟩
  text := by decide
  ends := .inr (by decide)
  noNul := by decide
  lines := by
    have h : pieces b!"Hello\r" = [b!"Hello\r"] := by decide
    rw [h]
    intro l hl
    have h3 : l = b!"Hello\r" := by simpa using hl
    subst h3
    refine ⟨fun h => absurd h (by decide), ?_⟩
    unfold AddrKludge; decide
  path := by decide

/-- The hypotheses of `netmail_stored_comes_back_partial` are met. -/
example : keepArea.type = .netmail ∧ keepNetmail.area = [] ∧ StorableNetmail false b!"Hello\r" keepNetmail ∧
    (HasIntl false keepNetmail.orig keepNetmail.dest → keepNetmail.orig.zone ≠ 0 ∧ keepNetmail.dest.zone ≠ 0) ∧ IsRead false keepNetmail.attr :=
  ⟨rfl, rfl, keepNetmail_ok, fun _ => ⟨by decide, by decide⟩, .inr ⟨by decide, by decide⟩⟩

/-- The full statement fails: the zones of a netmail without INTL line are in the stored header (bytes 176 to 179), but it comes back with the zone of the area. -/
theorem zone_lost (junk : Nat → UInt8) : ∃ f m', msgData {} junk keepNetmail = .ok f ∧ wordAt f 176 = 2 ∧ wordAt f 178 = 2 ∧
    readMsg {} keepArea ⟨1, 2, 3, 0⟩ false f = some m' ∧ m'.orig = ⟨1, 5, 6, 1⟩ ∧ m'.dest = ⟨1, 7, 8, 0⟩ := by
  obtain ⟨f, hf⟩ := msgData_ok {} junk (fieldsFit_of keepNetmail_ok.fits)
  obtain ⟨-, m', z, e1, e2⟩ := msg_netmail_back {} junk keepArea ⟨1, 2, 3, 0⟩ false false rfl rfl keepNetmail_ok (fun _ => ⟨by decide, by decide⟩) hf
  have hn : ¬ HasIntl false keepNetmail.orig keepNetmail.dest := by unfold HasIntl; decide
  obtain ⟨-, o1, o2⟩ := e2.noIntl hn
  have hz : wordAt f 176 = 2 ∧ wordAt f 178 = 2 := by
    obtain ⟨h, sb, hh, -, hf⟩ := msgData_eq hf
    obtain ⟨b0, -, -, -, -, -, -, -, -, -, -, b11, b12, -⟩ := stored_back hh (by decide) (by decide) (by decide) (by decide)
    have hft : f.take 190 = h := by rw [hf, ← b0, List.take_left]
    rw [← wordAt_take (f := f) (n := 190) (k := 176) (by decide), ← wordAt_take (f := f) (n := 190) (k := 178) (by decide), hft, b11, b12]
    exact ⟨rfl, rfl⟩
  exact ⟨f, m', hf, hz.1, hz.2, by unfold readMsg; rw [e1], o1, o2⟩

/-- A text whose last line has no end: the first line of the PATH becomes part of the text. -/
theorem open_line_joins : ∃ f, msgData {} (fun _ => 0) { keepEcho with text := [b!"Hello"] } = .ok f ∧
    (readMsg {} mArea ⟨1, 2, 3, 0⟩ false f).map (fun m => (m.text.flatten, m.path)) = some (b!"Hello" ++ 1 :: b!"PATH: 2/4\r", []) := by
  exact ⟨_, rfl, by decide +kernel⟩

end Ex

end CM
