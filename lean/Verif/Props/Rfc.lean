import Verif.Lemmas.Rfc
import Verif.Lemmas.MsgRescan
import Verif.Props.MsgKeep
/-! # C87: what external commands are given

The mail file of a message has its header fields, its control lines and its text, broken only where it has to be; the command gets the
files it asked for, and they are removed when it has been run. -/
set_option linter.unusedSimpArgs false

namespace CM

/-! ## The mail file -/

theorem rfcDomain_eq (akas : List Aka) (m : MemMsg) : rfcDomain akas m = homeDomain akas m.dest := by
  unfold rfcDomain homeDomain
  induction akas with
  | nil => rfl
  | cons k ks ih =>
    have key : compare4D m.dest k.node = 0 ↔ (k.node.zone = m.dest.zone ∨ k.node.zone = 0 ∨ m.dest.zone = 0) ∧ k.node.net = m.dest.net ∧
        k.node.node = m.dest.node ∧ k.node.point = m.dest.point := by
      rw [compare4D_eq_zero_iff]
      constructor
      · rintro ⟨h1, h2, h3, h4⟩
        exact ⟨by rcases h4 with h | h | h <;> simp [h], h1.symm, h2.symm, h3.symm⟩
      · rintro ⟨h4, h1, h2, h3⟩
        exact ⟨h1.symm, h2.symm, h3.symm, by rcases h4 with h | h | h <;> simp [h]⟩
    by_cases h : compare4D m.dest k.node = 0
    · rw [List.filter_cons_of_pos (a := k) (by rw [decide_eq_true_eq]; exact key.1 h), List.find?_cons_of_pos (by rw [beq_iff_eq]; exact h)]
      dsimp only [List.map_cons]
      by_cases hd : k.domain = [] <;> simp [hd]
    · rw [List.filter_cons_of_neg (by rw [decide_eq_true_eq]; exact fun x => h (key.2 x)), List.find?_cons_of_neg (by rw [beq_iff_eq]; exact h)]
      exact ih

theorem fidonet_iff (d : Str) : eqi (d.map lower) b!"fidonet" = true ↔ d.map lower = b!"fidonet" := by
  unfold eqi
  rw [beq_iff_eq, List.map_map]
  have e : (lower ∘ lower) = lower := funext lower_idem
  rw [e]
  have : (b!"fidonet" : Str).map lower = b!"fidonet" := by decide
  rw [this]

theorem makeRFCAddr_eq {nam dom : Str} {n : Node4D} (h1 : nam.length ≤ 35) (h2 : dom.length ≤ 19) :
    makeRFCAddr nam n dom = .ok (inetAddress nam n dom) := by
  unfold makeRFCAddr inetAddress
  rw [if_pos (by simp; omega)]
  dsimp only
  have d1 : (dec n.zone.toNat).length ≤ 5 := dec_length_le (by omega) (by have := n.zone.toNat_lt; omega)
  have d2 : (dec n.net.toNat).length ≤ 5 := dec_length_le (by omega) (by have := n.net.toNat_lt; omega)
  have d3 : (dec n.node.toNat).length ≤ 5 := dec_length_le (by omega) (by have := n.node.toNat_lt; omega)
  have d4 : (dec n.point.toNat).length ≤ 5 := dec_length_le (by omega) (by have := n.point.toNat_lt; omega)
  have hd : (if eqi (dom.map lower) b!"fidonet" = true then b!"fidonet.org" else dom.map lower) =
      (if dom.map lower = b!"fidonet" then b!"fidonet.org" else dom.map lower) := by
    by_cases h : dom.map lower = b!"fidonet"
    · rw [if_pos h, if_pos ((fidonet_iff dom).2 h)]
    · rw [if_neg h, if_neg (fun x => h ((fidonet_iff dom).1 x))]
  have hl : (if dom.map lower = b!"fidonet" then b!"fidonet.org" else dom.map lower).length ≤ 19 := by
    split
    · decide
    · rw [List.length_map]; exact h2
  rw [hd]
  generalize (if dom.map lower = b!"fidonet" then b!"fidonet.org" else dom.map lower) = e at hl
  unfold rfcPart
  by_cases hp : n.point = 0
  · rw [if_neg (show ¬ n.point ≠ 0 by simp [hp]), if_pos hp, if_pos (by simp; omega)]
    simp
  · rw [if_pos (show n.point ≠ 0 from hp), if_neg hp, if_pos (by simp; omega)]
    simp

theorem rfcAddr_eq {inet : Bool} {nam dom : Str} {n : Node4D} (h1 : nam.length ≤ 35) (h2 : dom.length ≤ 19) :
    rfcAddr inet nam n dom = .ok (if inet then inetAddress nam n dom else fidoAddress n dom) := by
  unfold rfcAddr
  cases inet with
  | true => rw [if_pos rfl, if_pos rfl]; exact makeRFCAddr_eq h1 h2
  | false =>
    have d1 : (dec n.zone.toNat).length ≤ 5 := dec_length_le (by omega) (by have := n.zone.toNat_lt; omega)
    have d2 : (dec n.net.toNat).length ≤ 5 := dec_length_le (by omega) (by have := n.net.toNat_lt; omega)
    have d3 : (dec n.node.toNat).length ≤ 5 := dec_length_le (by omega) (by have := n.node.toNat_lt; omega)
    have d4 : (dec n.point.toNat).length ≤ 5 := dec_length_le (by omega) (by have := n.point.toNat_lt; omega)
    rw [if_neg (show ¬ false = true by simp), if_neg (show ¬ false = true by simp), if_pos (by unfold addr4; simp; omega)]
    rfl

theorem rfcHead_eq {akas : List Aka} {m : MemMsg} {inet : Bool} (h : Mailable akas m) :
    rfcHead akas m inet = .ok ((mailHeader m (homeDomain akas m.dest) inet).flatMap (· ++ [10])) := by
  unfold rfcHead
  rw [rfcDomain_eq, rfcAddr_eq h.names.1 h.domain, rfcAddr_eq h.names.2 h.domain]
  show Except.ok _ = Except.ok _
  congr 1
  unfold mailHeader
  by_cases h1 : m.msgid = [] <;> by_cases h2 : m.reply = [] <;> simp [h1, h2]

theorem noLF_dec (n : Nat) : (10 : UInt8) ∉ dec n := (dec_noCR n).2

theorem lower_lf (c : UInt8) : lower c = 10 → c = 10 := by revert c; decide +kernel

theorem noLF_address {nam dom : Str} {n : Node4D} (h1 : 10 ∉ nam) (h2 : 10 ∉ dom) (inet : Bool) :
    (10 : UInt8) ∉ (if inet then inetAddress nam n dom else fidoAddress n dom) := by
  have hdom : (10 : UInt8) ∉ (if dom.map lower = b!"fidonet" then b!"fidonet.org" else dom.map lower) := by
    split
    · decide
    · intro h
      obtain ⟨c, hc, e⟩ := List.mem_map.1 h
      exact h2 (lower_lf c e ▸ hc)
  have hnam : (10 : UInt8) ∉ nam.map (fun c => if c = 32 then 95 else c) := by
    intro h
    obtain ⟨c, hc, e⟩ := List.mem_map.1 h
    split at e
    · cases e
    · exact h1 (e ▸ hc)
  cases inet with
  | true =>
    rw [if_pos rfl]
    unfold inetAddress
    simp only [List.mem_append, not_or]
    refine ⟨⟨⟨⟨⟨⟨⟨⟨⟨⟨hnam, by decide⟩, ?_⟩, by decide⟩, noLF_dec _⟩, by decide⟩, noLF_dec _⟩, by decide⟩, noLF_dec _⟩, by decide⟩, hdom⟩
    split
    · simp
    · simp only [List.mem_append, not_or]; exact ⟨⟨by decide, noLF_dec _⟩, by decide⟩
  | false =>
    rw [if_neg (by simp)]
    unfold fidoAddress
    simp only [List.mem_append, not_or]
    exact ⟨⟨⟨⟨⟨⟨⟨⟨noLF_dec _, by decide⟩, noLF_dec _⟩, by decide⟩, noLF_dec _⟩, by decide⟩, noLF_dec _⟩, by decide⟩, h2⟩

theorem mailHeader_lines {akas : List Aka} {m : MemMsg} {inet : Bool} (h : Mailable akas m) :
    ∀ l ∈ mailHeader m (homeDomain akas m.dest) inet, 10 ∉ l ∧ l ≠ [] := by
  have f := h.header
  simp only [List.mem_cons, List.not_mem_nil, or_false, forall_eq_or_imp, forall_eq] at f
  obtain ⟨f1, f2, f3, f4, f5, f6, f7⟩ := f
  have a1 := noLF_address (n := m.orig) f1 f7 inet
  have a2 := noLF_address (n := m.dest) f2 f7 inet
  have lf : ∀ p : Str, (10 : UInt8) ∉ p → (p ≠ []) → ∀ s : Str, 10 ∉ s → 10 ∉ p ++ s ∧ p ++ s ≠ [] := by
    intro p h1 h2 s h3
    simp only [List.mem_append, not_or]
    exact ⟨⟨h1, h3⟩, fun h => h2 (List.append_eq_nil_iff.1 h).1⟩
  have app : ∀ a b : Str, (10 : UInt8) ∉ a → 10 ∉ b → 10 ∉ a ++ b := by
    intro a b h1 h2; simp only [List.mem_append, not_or]; exact ⟨h1, h2⟩
  intro l hl
  unfold mailHeader at hl
  rcases List.mem_append.1 hl with hl | hl
  · rcases List.mem_append.1 hl with hl | hl
    · simp only [List.mem_cons, List.not_mem_nil, or_false] at hl
      rcases hl with rfl | rfl | rfl | rfl
      · rw [List.append_assoc, List.append_assoc, List.append_assoc]
        exact lf _ (by decide) (by decide) _ (app _ _ a1 (app _ _ (by decide) (app _ _ f1 (by decide))))
      · rw [List.append_assoc, List.append_assoc, List.append_assoc]
        exact lf _ (by decide) (by decide) _ (app _ _ a2 (app _ _ (by decide) (app _ _ f2 (by decide))))
      · exact lf _ (by decide) (by decide) _ f3
      · exact lf _ (by decide) (by decide) _ f4
    · split at hl
      · cases hl
      · rw [List.mem_singleton.1 hl, List.append_assoc]
        exact lf _ (by decide) (by decide) _ (app _ _ f5 (by decide))
  · split at hl
    · cases hl
    · rw [List.mem_singleton.1 hl, List.append_assoc]
      exact lf _ (by decide) (by decide) _ (app _ _ f6 (by decide))

theorem mailFile_eq {hs bs : List Str} (h1 : ∀ l ∈ hs, 10 ∉ l ∧ l ≠ []) (h2 : ∀ l ∈ bs, 10 ∉ l) :
    mailFile (hs.flatMap (· ++ [10]) ++ ([10] ++ bs.flatMap (· ++ [10]))) = (hs, bs) := by
  have e : linesEnded 10 [] (hs.flatMap (· ++ [10]) ++ ([10] ++ bs.flatMap (· ++ [10]))) = hs ++ ([] :: bs) := by
    rw [linesEnded_lines (fun l hl => (h1 l hl).1)]
    congr 1
    have := linesEnded_lines (e := 10) (ls := [] :: bs) (by
      intro l hl
      rcases List.mem_cons.1 hl with rfl | hl
      · simp
      · exact h2 l hl) []
    simpa [linesEnded] using this
  unfold mailFile
  rw [e]
  have hp : ∀ l ∈ hs, (decide (l ≠ [])) = true := fun l hl => by simp [(h1 l hl).2]
  rw [List.takeWhile_append_of_pos hp, List.dropWhile_append_of_pos hp]
  simp

theorem rfcData_of {akas : List Aka} {m : MemMsg} {inet : Bool} {h b : Str} {k : List Str} (e1 : rfcHead akas m inet = .ok h)
    (e2 : m.text.mapM (fun c => rfcKludges (behind c) [] c) = .ok k) (e3 : rfcBodies m.text = .ok (some b)) :
    rfcData akas m inet = .ok (some (h ++ k.flatten ++ [10] ++ b)) := by
  unfold rfcData
  simp only [e1, e2, e3, bind, Except.bind]
  rfl

/-- The mail file of a message has the header lines of the message, its control lines as further header lines, and its text: the lines that
are no control lines, broken if they are too long. -/
theorem rfc_file_partial (akas : List Aka) (m : MemMsg) (inet : Bool) (h : Mailable akas m) :
    ∃ d qs, rfcData akas m inet = .ok (some d) ∧ FoldedText (linesEnded 13 [] m.text.flatten) qs ∧
      mailFile d = (mailHeader m (homeDomain akas m.dest) inet ++ mailControl (linesEnded 13 [] m.text.flatten),
        qs.filter fun q => q.head? ≠ some 1) := by
  have hlf : linesEnded 13 [] m.text.flatten = m.text.flatMap (linesEnded 13 []) := linesEnded_flatten fun c hc => (h.text c hc).1
  obtain ⟨qs, h1, h2⟩ := rfcBodies_eq (cs := m.text) fun c hc => h.text c hc
  have h3 := mapM_kludges_eq (cs := m.text) fun c hc => ⟨(h.text c hc).1, (h.text c hc).2.1⟩
  rw [← hlf] at h1
  have hno : ∀ l ∈ linesEnded 13 [] m.text.flatten, 10 ∉ l := by
    intro l hl hx
    rcases mem_linesEnded hl hx with h' | h'
    · cases h'
    · obtain ⟨c, hc, hx⟩ := List.mem_flatten.1 h'
      exact (h.text c hc).2.1 hx
  have hk : (m.text.map fun c => (linesEnded 13 [] c).flatMap rfcKludge).flatten =
      (mailControl (linesEnded 13 [] m.text.flatten)).flatMap (· ++ [10]) := by
    rw [← rfcKludge_eq, hlf]
    generalize m.text = cs
    induction cs with
    | nil => rfl
    | cons c cs ih => rw [List.map_cons, List.flatten_cons, ih, List.flatMap_cons, List.flatMap_append]
  refine ⟨(mailHeader m (homeDomain akas m.dest) inet ++ mailControl (linesEnded 13 [] m.text.flatten)).flatMap (· ++ [10]) ++
    ([10] ++ (qs.filter fun q => q.head? ≠ some 1).flatMap (· ++ [10])), qs, ?_, h1, ?_⟩
  · rw [rfcData_of (rfcHead_eq h) h3 h2, hk, rfcPut_eq, List.flatMap_append]
    simp only [List.append_assoc]
  · refine mailFile_eq ?_ ?_
    · intro l hl
      rcases List.mem_append.1 hl with hl | hl
      · exact mailHeader_lines h l hl
      · obtain ⟨k, hk1, rfl⟩ := List.mem_map.1 hl
        refine ⟨?_, by simp⟩
        simp only [List.mem_append, not_or]
        exact ⟨by decide, fun hx => hno k (List.mem_filter.1 hk1).1 (List.mem_of_mem_drop hx)⟩
    · intro l hl hx
      obtain ⟨-, k, hk1, hk2⟩ := foldedText_mem h1 l (List.mem_filter.1 hl).1
      exact hno k hk1 (hk2 _ hx)

/-- Whatever its lines are, the file of a message whose parts all end with a line is written without reading anything else. -/
theorem rfc_file_safe (akas : List Aka) (m : MemMsg) (inet : Bool) (h1 : m.frm.length ≤ 35 ∧ m.to.length ≤ 35)
    (h2 : (homeDomain akas m.dest).length ≤ 19) (h3 : ∀ c ∈ m.text, c = [] ∨ c.getLast? = some 13) : ∃ d, rfcData akas m inet = .ok (some d) := by
  obtain ⟨b, hb⟩ := rfcBodies_safe (cs := m.text) h3
  obtain ⟨ks, hk⟩ := mapM_kludges (cs := m.text) fun c hc => rfcKludges_safe (by
    rcases h3 c hc with h | h
    · exact .inl ⟨h, rfl⟩
    · exact .inr h)
  have hh : ∃ hd, rfcHead akas m inet = .ok hd := by
    unfold rfcHead
    rw [rfcDomain_eq, rfcAddr_eq h1.1 h2, rfcAddr_eq h1.2 h2]
    exact ⟨_, rfl⟩
  obtain ⟨hd, hh⟩ := hh
  exact ⟨_, rfcData_of hh hk hb⟩

/-- Lines that fit are not broken: the text is that of the message. -/
theorem rfc_file_short (akas : List Aka) (m : MemMsg) (inet : Bool) (h : Mailable akas m)
    (hs : ∀ l ∈ linesEnded 13 [] m.text.flatten, l.length < 78) :
    ∃ d, rfcData akas m inet = .ok (some d) ∧ (mailFile d).2 = (linesEnded 13 [] m.text.flatten).filter fun q => q.head? ≠ some 1 := by
  obtain ⟨d, qs, h1, h2, h3⟩ := rfc_file_partial akas m inet h
  refine ⟨d, h1, ?_⟩
  rw [h3]
  have : qs = linesEnded 13 [] m.text.flatten := by
    clear h3
    generalize linesEnded 13 [] m.text.flatten = ls at hs h2
    induction h2 with
    | nil => rfl
    | cons hf _ ih =>
      rename_i l ps ls qs _
      have hl := hs l (by simp)
      rw [ih (fun x hx => hs x (by simp [hx]))]
      cases hf with
      | short => rfl
      | space _ _ h' => exact absurd hl (by omega)
      | full h' => omega
      | cut h' => rw [List.length_append] at hl; omega
  rw [this]

/-- Breaking a line takes away spaces only, and no part is longer than 78 bytes. -/
theorem folded_keeps {l : Str} {ps : List Str} (h : Folded l ps) :
    ps.flatten.filter (· ≠ 32) = l.filter (· ≠ 32) ∧ ∀ p ∈ ps, p.length ≤ 78 := by
  refine ⟨?_, fun p hp => (folded_mem h p hp).1⟩
  induction h with
  | short => simp
  | space _ _ _ _ _ ih => rw [List.flatten_cons, List.filter_append, ih, List.filter_append, List.filter_cons_of_neg (by simp)]
  | full => simp
  | cut _ _ _ _ ih => rw [List.flatten_cons, List.filter_append, ih, List.filter_append]

/-! ## The command line -/

theorem sub_eq (a : XArgs) (c : UInt8) : a.sub c = ([(97, a.area), (114, a.rfc1), (82, a.rfc2), (109, a.msg), (77, a.msg), (115, a.subj), (83, a.subj),
    (120, a.date), (88, a.date), (102, a.frm), (70, a.frm), (116, a.to), (84, a.to), (111, a.orig), (79, a.orig), (100, a.dest), (68, a.dest)] :
    List (UInt8 × Str)).lookup c := by
  have two : ∀ c k : UInt8, k ∈ ([109, 115, 120, 102, 116, 111, 100] : List UInt8) → (c ||| 32 = k ↔ c = k ∨ c = k - 32) := by decide +kernel
  unfold XArgs.sub
  simp only [two c 109 (by decide), two c 115 (by decide), two c 120 (by decide), two c 102 (by decide), two c 116 (by decide),
    two c 111 (by decide), two c 100 (by decide)]
  by_cases h1 : c = 97; · subst h1; rfl
  by_cases h2 : c = 114; · subst h2; rfl
  by_cases h3 : c = 82; · subst h3; rfl
  by_cases h4 : c = 109; · subst h4; rfl
  by_cases h5 : c = 77; · subst h5; rfl
  by_cases h6 : c = 115; · subst h6; rfl
  by_cases h7 : c = 83; · subst h7; rfl
  by_cases h8 : c = 120; · subst h8; rfl
  by_cases h9 : c = 88; · subst h9; rfl
  by_cases h10 : c = 102; · subst h10; rfl
  by_cases h11 : c = 70; · subst h11; rfl
  by_cases h12 : c = 116; · subst h12; rfl
  by_cases h13 : c = 84; · subst h13; rfl
  by_cases h14 : c = 111; · subst h14; rfl
  by_cases h15 : c = 79; · subst h15; rfl
  by_cases h16 : c = 100; · subst h16; rfl
  by_cases h17 : c = 68; · subst h17; rfl
  have no : ∀ k : UInt8, c ≠ k → (c == k) = false := fun k h => beq_eq_false_iff_ne.2 h
  simp [List.lookup, h1, h2, h3, h4, h5, h6, h7, h8, h9, h10, h11, h12, h13, h14, h15, h16, h17, no _ h1, no _ h2, no _ h3, no _ h4, no _ h5, no _ h6,
    no _ h7, no _ h8, no _ h9, no _ h10, no _ h11, no _ h12, no _ h13, no _ h14, no _ h15, no _ h16, no _ h17]

theorem expandLoop_eq (a : XArgs) (cmd : Str) : ∀ acc : Str, (acc ++ filledIn a cmd).length < 400 → expandLoop 400 a acc cmd = .ok (acc ++ filledIn a cmd) := by
  fun_induction filledIn a cmd with
  | case1 => intro acc h; rw [expandLoop, if_pos (by simpa using h), List.append_nil]
  | case2 c r ih =>
    intro acc h
    rw [expandLoop, sub_eq]
    cases hl : ([(97, a.area), (114, a.rfc1), (82, a.rfc2), (109, a.msg), (77, a.msg), (115, a.subj), (83, a.subj),
        (120, a.date), (88, a.date), (102, a.frm), (70, a.frm), (116, a.to), (84, a.to), (111, a.orig), (79, a.orig), (100, a.dest), (68, a.dest)] :
        List (UInt8 × Str)).lookup c with
    | none =>
      rw [hl] at h
      dsimp only at h ⊢
      simp only [List.length_append] at h
      rw [if_pos (by omega), ih _ (by simp only [List.length_append]; omega), List.append_assoc]
    | some t =>
      rw [hl] at h
      dsimp only at h ⊢
      simp only [List.length_append] at h
      rw [if_pos (by omega), List.take_of_length_le (by omega), ih _ (by simp only [List.length_append]; omega), List.append_assoc]
  | case3 c r hc ih =>
    intro acc h
    have : expandLoop 400 a acc (c :: r) = if acc.length < 400 then expandLoop 400 a (acc ++ [c]) r else .error .oobWrite := by
      rw [expandLoop]
      exact fun x y e => hc x y e
    simp only [List.length_append, List.length_cons] at h
    rw [this, if_pos (by omega), ih _ (by simp only [List.length_append, List.length_cons, List.length_nil]; omega), List.append_assoc]
    rfl

/-- A command that fits is run with every placeholder replaced, whatever the fields of the message are. -/
theorem expand_exact (a : XArgs) (cmd : Str) (h : (filledIn a cmd).length < 400) : expandFilter cmd a = .ok (filledIn a cmd) :=
  expandLoop_eq a cmd [] h

theorem hasPct_iff (x : UInt8) (cmd : Str) : hasPct x cmd = true ↔ [37, x] <:+: cmd := by
  fun_induction hasPct x cmd with
  | case1 a b r ih =>
    rw [Bool.or_eq_true, ih, Bool.and_eq_true, decide_eq_true_eq, decide_eq_true_eq, List.infix_cons_iff (l₂ := b :: r)]
    constructor
    · rintro (⟨rfl, rfl⟩ | h)
      · exact .inl ⟨r, rfl⟩
      · exact .inr h
    · rintro (⟨t, h⟩ | h)
      · simp only [List.cons_append, List.nil_append, List.cons.injEq] at h
        exact .inl ⟨h.1.symm, h.2.1.symm⟩
      · exact .inr h
  | case2 s h =>
    simp only [Bool.false_eq_true, false_iff]
    intro hs
    have := hs.length_le
    rcases s with _ | ⟨a, _ | ⟨b, r⟩⟩
    · simp at this
    · simp at this
    · exact h a b r rfl

/-! ## Running the command -/

section
variable {w : World} {α : Type} {Q : α → FS → Prop}

theorem Sure.writing {f : Str} {o done todo : Data} {p : Nat} {k : Bool → Prog α} (hw : w.Reliable) :
    ∀ {fs : FS}, fs f = some (overlay o p done) → Sure w (fun _ => True) Q (k true) (fs.put f (some (overlay o p (done ++ todo)))) →
    Sure w (fun _ => True) Q (.writing f o p done todo k) fs := by
  induction todo generalizing done with
  | nil =>
    intro fs hc hok
    refine .intro trivial (fun _ e => nomatch e) (fun u e => nomatch e) (fun e => nomatch e) fun p' fs' s => ?_
    have e : fs.put f (some (overlay o p (done ++ []))) = fs := by
      funext g; unfold FS.put; split
      · rename_i h; rw [h, hc, List.append_nil]
      · rfl
    rw [e] at hok
    cases s with
    | writeDone => exact hok
    | writeFail _ _ _ _ _ _ _ _ h => exact absurd h hw.writes
  | cons c t ih =>
    intro fs hc hok
    refine .intro trivial (fun _ e => nomatch e) (fun u e => nomatch e) (fun e => nomatch e) fun p' fs' s => ?_
    cases s with
    | byte =>
      refine ih (by unfold FS.put; rw [if_pos rfl]) ?_
      rw [List.append_assoc]
      have e : (fs.put f (some (overlay o p (done ++ [c])))).put f (some (overlay o p (done ++ ([c] ++ t)))) = fs.put f (some (overlay o p (done ++ ([c] ++ t)))) := by
        funext g; unfold FS.put; split <;> rfl
      rw [e]
      exact hok
    | writeFail _ _ _ _ _ _ _ _ h => exact absurd h hw.writes

theorem Sure.writeNew {f : Str} {d : Data} {k : Option Bool → Prog α} {fs : FS} (hw : w.Reliable)
    (h : Sure w (fun _ => True) Q (k (some true)) (fs.put f (some d))) : Sure w (fun _ => True) Q (.write f .new d k) fs := by
  refine .intro trivial (fun _ e => nomatch e) (fun u e => nomatch e) (fun e => nomatch e) fun p' fs' s => ?_
  cases s with
  | openOk =>
    refine Sure.writing hw (by unfold FS.put; rw [if_pos rfl]; rfl) ?_
    have e : (fs.put f (some (opened fs f .new).1)).put f (some (overlay (opened fs f .new).1 (opened fs f .new).2 ([] ++ d))) = fs.put f (some d) := by
      funext g; unfold FS.put; split
      · simp [opened, overlay]
      · rfl
    rw [e]
    exact h
  | openFail _ _ _ _ _ h => exact absurd h hw.opens

theorem Sure.delete {f : Str} {k : Bool → Prog α} {fs : FS} (hw : w.Reliable) (h : ∀ b, Sure w (fun _ => True) Q (k b) (fs.put f none)) :
    Sure w (fun _ => True) Q (.delete f k) fs := by
  refine .intro trivial (fun _ e => nomatch e) (fun u e => nomatch e) (fun e => nomatch e) fun p' fs' s => ?_
  cases s with
  | deleteOk => exact h true
  | deleteFail _ _ _ hf =>
    have hf := hf.resolve_right hw.deletes
    have e : fs.put f none = fs := by
      funext g; unfold FS.put; split
      · rename_i hg; rw [hg, hf]
      · rfl
    have := h false
    rwa [e] at this

theorem Sure.running {c : Str} {s : FS} {k : Nat → Prog α} (h : ∀ n fs', w.exec c s n fs' → Sure w (fun _ => True) Q (k n) fs') :
    ∀ {fs : FS}, Sure w (fun _ => True) Q (.running c s k) fs := by
  intro fs p' fs' hr
  generalize hp : Prog.running c s k = p at hr
  induction hr with
  | here => subst hp; exact ⟨trivial, (fun _ e => nomatch e), (fun u e => nomatch e), (fun e => nomatch e)⟩
  | step st r ih =>
    subst hp
    cases st with
    | execDuring => exact ih rfl
    | execEnd _ _ _ _ n _ he => exact h n _ he _ _ r

theorem Sure.exec {c : Str} {k : Nat → Prog α} {fs : FS} (h : ∀ n fs', w.exec c fs n fs' → Sure w (fun _ => True) Q (k n) fs') :
    Sure w (fun _ => True) Q (.exec c k) fs := by
  refine .intro trivial (fun _ e => nomatch e) (fun u e => nomatch e) (fun e => nomatch e) fun p' fs' s => ?_
  cases s
  exact Sure.running h

end

/-- The files a command line asks for. -/
def askedFor (cmd : Str) (t : TmpNames) (f : Str) : Prop :=
  ([37, 114] <:+: cmd ∧ f = t.rfc1) ∨ ([37, 82] <:+: cmd ∧ f = t.rfc2) ∨ ([37, 109] <:+: cmd ∧ f = t.msg)

/-- The values of the placeholders. -/
def placeholders (m : MemMsg) (cmd : Str) (t : TmpNames) : XArgs where
  rfc1 := if [37, 114] <:+: cmd then t.rfc1 else []
  rfc2 := if [37, 82] <:+: cmd then t.rfc2 else []
  msg := if [37, 109] <:+: cmd then t.msg else []
  area := m.area
  subj := m.subject
  date := m.date
  frm := m.frm
  to := m.to
  orig := print4D (if m.area = [] then m.orig else m.origin4D)
  dest := print4D m.dest

theorem executeLine_eq {m : MemMsg} {cmd : Str} {t : TmpNames} (h : (filledIn (placeholders m cmd t) cmd).length < 400) :
    executeLine m cmd t = .ok (filledIn (placeholders m cmd t) cmd) := by
  have e : m.xargs (if hasPct 114 cmd then t.rfc1 else []) (if hasPct 82 cmd then t.rfc2 else []) (if hasPct 109 cmd then t.msg else []) =
      placeholders m cmd t := by
    unfold MemMsg.xargs placeholders
    simp only [hasPct_iff]
    rfl
  unfold executeLine
  rw [e]
  exact expand_exact _ _ h

/-- A file that is written if the command asks for it. -/
theorem sure_onlyIf {w : World} {b : Bool} {p : Prog Unit} {f : Str} {v : Option Data} {fs : FS}
    (h : b = true → Sure w (fun _ => True) (fun _ fs' => fs' = fs.put f v) p fs) :
    Sure w (fun _ => True) (fun _ fs' => fs' = if b then fs.put f v else fs) (onlyIf b p) fs := by
  unfold onlyIf
  cases b with
  | true => simpa using h rfl
  | false => exact .ret trivial (by simp)

theorem sure_writeRFC {w : World} (hw : w.Reliable) {akas : List Aka} {m : MemMsg} {f : Str} {inet : Bool} {d : Data} {fs : FS}
    (h : rfcData akas m inet = .ok (some d)) : Sure w (fun _ => True) (fun _ fs' => fs' = fs.put f (some d)) (writeRFC akas m f inet) fs := by
  unfold writeRFC
  rw [h]
  exact Sure.writeNew hw (.ret trivial rfl)

theorem sure_writeMSG {w : World} (hw : w.Reliable) {o : MsgOpt} {junk : Nat → UInt8} {m : MemMsg} {f : Str} {d : Data} {fs : FS}
    (h : sentData o junk m = .ok d) : Sure w (fun _ => True) (fun _ fs' => fs' = fs.put f (some d)) (writeMSG o junk m f) fs := by
  unfold writeMSG
  rw [h]
  exact Sure.writeNew hw (.ret trivial rfl)

theorem sure_osDelete {w : World} (hw : w.Reliable) {f : Str} {fs : FS} :
    Sure w (fun _ => True) (fun _ fs' => fs' = fs.put f none) (do let _ ← osDelete f) fs :=
  Sure.delete hw fun _ => .ret trivial rfl

/-- What the command is given: the disk with the files it asked for. -/
structure Given (m : MemMsg) (cmd : Str) (t : TmpNames) (d1 d2 d3 : Data) (fs fs0 : FS) : Prop where
  rfc1 : [37, 114] <:+: cmd → fs0 t.rfc1 = some d1
  rfc2 : [37, 82] <:+: cmd → fs0 t.rfc2 = some d2
  msg : [37, 109] <:+: cmd → fs0 t.msg = some d3
  other : ∀ f, ¬ askedFor cmd t f → fs0 f = fs f

/-- The command line of the filter is run once, with the placeholders replaced and the files it asks for; then these files are removed and
nothing else is changed; the message is killed if the command succeeds, and the program ends if it fails with 20 or more. -/
theorem execute_runs (w : World) (hw : w.Reliable) (akas : List Aka) (o : MsgOpt) (junk : Nat → UInt8) (m : MemMsg) (cmd : Str) (t : TmpNames) (d1 d2 d3 : Data)
    (fs : FS) (hlen : (filledIn (placeholders m cmd t) cmd).length < 400) (hne : t.rfc1 ≠ t.rfc2 ∧ t.rfc1 ≠ t.msg ∧ t.rfc2 ≠ t.msg)
    (h1 : [37, 114] <:+: cmd → rfcData akas m false = .ok (some d1)) (h2 : [37, 82] <:+: cmd → rfcData akas m true = .ok (some d2))
    (h3 : [37, 109] <:+: cmd → sentData o junk m = .ok d3) :
    Sure w (fun _ => True) (fun r fs' => ∃ fs0 rc fs1, Given m cmd t d1 d2 d3 fs fs0 ∧ w.exec (filledIn (placeholders m cmd t) cmd) fs0 rc fs1 ∧
      (∀ f, askedFor cmd t f → fs' f = none) ∧ (∀ f, ¬ askedFor cmd t f → fs' f = fs1 f) ∧
      r = if rc = 0 then some { m with flags := m.flags ||| MMFLAG_KILL } else if rc < 20 then some m else none)
      (executeProg akas o junk m cmd t) fs := by
  unfold executeProg
  rw [executeLine_eq hlen]
  refine Sure.bind (Q := fun a fs' => a = filledIn (placeholders m cmd t) cmd ∧ fs' = fs) (.ret trivial ⟨rfl, rfl⟩) ?_
  rintro _ g - ⟨rfl, e⟩
  rw [e]
  refine Sure.bind (Q := fun _ fs0 => Given m cmd t d1 d2 d3 fs fs0) ?_ ?_
  · unfold executeWrite
    refine Sure.bind (sure_onlyIf (f := t.rfc1) (v := some d1) fun h => sure_writeRFC hw (h1 ((hasPct_iff _ _).1 h))) ?_
    rintro _ g - e
    subst e
    refine Sure.bind (sure_onlyIf (f := t.rfc2) (v := some d2) fun h => sure_writeRFC hw (h2 ((hasPct_iff _ _).1 h))) ?_
    rintro _ g - e
    subst e
    refine (sure_onlyIf (f := t.msg) (v := some d3) fun h => sure_writeMSG hw (h3 ((hasPct_iff _ _).1 h))).mono (fun _ h => h) ?_
    rintro _ g - e
    subst e
    simp only [hasPct_iff]
    obtain ⟨n1, n2, n3⟩ := hne
    by_cases c1 : [37, 114] <:+: cmd <;> by_cases c2 : [37, 82] <:+: cmd <;> by_cases c3 : [37, 109] <:+: cmd <;>
      simp only [c1, c2, c3, if_true, if_false] <;>
      refine ⟨fun h => ?_, fun h => ?_, fun h => ?_, fun f hf => ?_⟩ <;>
      first
        | exact absurd h (by assumption)
        | (simp only [askedFor, c1, c2, c3, true_and, false_and, false_or, or_false, not_or] at hf
           simp [FS.put, hf])
        | simp [FS.put, n1, n2, n3]
        | simp [FS.put, askedFor, c1, c2, c3]
  rintro _ fs0 - hg
  refine Sure.bind (Q := fun rc fs1 => w.exec (filledIn (placeholders m cmd t) cmd) fs0 rc fs1) (Sure.exec fun rc fs1 he => .ret trivial he) ?_
  rintro rc fs1 - he
  refine Sure.bind (Q := fun _ fs' => (∀ f, askedFor cmd t f → fs' f = none) ∧ (∀ f, ¬ askedFor cmd t f → fs' f = fs1 f)) ?_ ?_
  · unfold executeClean
    refine Sure.bind (sure_onlyIf (f := t.rfc1) (v := none) fun _ => sure_osDelete hw) ?_
    rintro _ g - e
    subst e
    refine Sure.bind (sure_onlyIf (f := t.rfc2) (v := none) fun _ => sure_osDelete hw) ?_
    rintro _ g - e
    subst e
    refine (sure_onlyIf (f := t.msg) (v := none) fun _ => sure_osDelete hw).mono (fun _ h => h) ?_
    rintro _ g - e
    subst e
    simp only [hasPct_iff]
    by_cases c1 : [37, 114] <:+: cmd <;> by_cases c2 : [37, 82] <:+: cmd <;> by_cases c3 : [37, 109] <:+: cmd <;>
      simp only [askedFor, c1, c2, c3, if_true, if_false, true_and, false_and, or_false, false_or, not_or] <;>
      refine ⟨fun f hf => ?_, fun f hf => ?_⟩ <;> grind [FS.put]
  rintro _ fs' - ⟨a1, a2⟩
  by_cases r0 : rc = 0
  · rw [if_pos r0]
    exact .ret trivial ⟨fs0, rc, fs1, hg, he, a1, a2, by rw [if_pos r0]⟩
  · rw [if_neg r0]
    by_cases r1 : 20 ≤ rc
    · rw [if_pos r1]
      exact .ret trivial ⟨fs0, rc, fs1, hg, he, a1, a2, by rw [if_neg r0, if_neg (by omega)]⟩
    · rw [if_neg r1]
      exact .ret trivial ⟨fs0, rc, fs1, hg, he, a1, a2, by rw [if_neg r0, if_pos (by omega)]⟩

/-! ## The message file -/

theorem sent_attr (a : UInt16) : (a ||| FLAG_SENT) &&& msgAttrs = a &&& msgAttrs := by
  apply UInt16.toBitVec_inj.1
  rw [UInt16.toBitVec_and, UInt16.toBitVec_or, UInt16.toBitVec_and]
  apply BitVec.eq_of_getLsbD_eq
  intro i hi
  have h : ∀ i : Fin 16, (FLAG_SENT.toBitVec.getLsbD i && msgAttrs.toBitVec.getLsbD i) = false := by decide +kernel
  have := h ⟨i, hi⟩
  rw [BitVec.getLsbD_and, BitVec.getLsbD_or, BitVec.getLsbD_and]
  revert this
  generalize FLAG_SENT.toBitVec.getLsbD i = p
  generalize msgAttrs.toBitVec.getLsbD i = q
  generalize a.toBitVec.getLsbD i = r
  revert p q r
  decide

theorem CameBack.sent {new : List Str} {m m' : MemMsg} (h : CameBack new { m with attr := m.attr ||| FLAG_SENT } m') : CameBack new m m' :=
  ⟨h.to, h.frm, h.subject, h.date, h.cost, by rw [h.attr]; exact sent_attr _, h.text⟩

/-- The message file of an echomail, read like a message of a *.msg area, is the message. -/
theorem sent_file_echo (o : MsgOpt) (junk : Nat → UInt8) (a : Area) (aka : Node4D) (rescan : Bool) {m : MemMsg} {f : Data}
    (hty : a.type ≠ .netmail) (htag : a.tag ≠ [] ∧ a.tag.length ≤ 79) (hm : m.area ≠ []) (hok : StorableEcho m) (hf : sentData o junk m = .ok f) :
    190 ≤ f.length ∧ ∃ m', msgReadLoop o aka rescan (f.take 190) (f.length + 1) { mm := storedHeader a (f.take 190) } (f.drop 190) =
      .ret { mm := m', kludges := true, zones := false } ∧ EchoBack o rescan aka a.tag m m' := by
  obtain ⟨h1, m', h2, h3⟩ := msg_echo_back o junk a aka rescan (m := { m with attr := m.attr ||| FLAG_SENT }) hty htag hm
    ⟨⟨hok.fits.1, hok.fits.2, hok.fits.3, hok.fits.4⟩, hok.ends, hok.noNul, hok.lines, hok.seenBy, hok.path⟩ hf
  exact ⟨h1, m', h2, ⟨h3.toCameBack.sent, h3.area, h3.path, h3.seenBy, h3.msgid, h3.flags⟩⟩

/-- The message file of a netmail, read like a message of a *.msg area, is the message. -/
theorem sent_file_netmail (o : MsgOpt) (junk : Nat → UInt8) (a : Area) (aka : Node4D) (rescan force : Bool) {m : MemMsg} {body : Str} {f : Data}
    (hty : a.type = .netmail) (hm : m.area = []) (hok : StorableNetmail force body m)
    (hzone : HasIntl force m.orig m.dest → m.orig.zone ≠ 0 ∧ m.dest.zone ≠ 0) (hf : sentData o junk m = .ok f) :
    190 ≤ f.length ∧ ∃ m' z, msgReadLoop o aka rescan (f.take 190) (f.length + 1) { mm := storedHeader a (f.take 190) } (f.drop 190) =
      .ret { mm := m', kludges := true, zones := z } ∧ NetmailBack o rescan force aka m m' := by
  obtain ⟨h1, m', z, h2, h3⟩ := msg_netmail_back o junk a aka rescan force (m := { m with attr := m.attr ||| FLAG_SENT }) (body := body) hty hm
    ⟨⟨hok.fits.1, hok.fits.2, hok.fits.3, hok.fits.4⟩, hok.text, hok.ends, hok.noNul, hok.lines, hok.path⟩ hzone hf
  exact ⟨h1, m', z, h2, ⟨h3.area, fun i j k => ⟨(h3.intl i j k).1.sent, (h3.intl i j k).2⟩, fun i => ⟨(h3.noIntl i).1.sent, (h3.noIntl i).2⟩, h3.flags⟩⟩

namespace Ex

def rfcAkas : List Aka := [{ node := ⟨2, 5, 6, 0⟩, domain := b!"FidoNet" }]

/-- A netmail with a control line, a long line and a short one. -/
def rfcMsg : MemMsg where
  orig := ⟨2, 1, 3, 4⟩
  dest := ⟨2, 5, 6, 0⟩
  frm := b!"Some One"
  to := b!"Sysop"
  subject := b!"Test"
  date := b!"01 Jan 26  00:00:00"
  msgid := b!"2:1/3.4 12345678"
  text := [1 :: b!"MSGID: 2:1/3.4 12345678\rThis is the first line of a text that is far too long to be put into a mail as it is.\rBye\r"]

theorem rfcMsg_ok : Mailable rfcAkas rfcMsg where
  names := by decide
  domain := by decide +kernel
  header := by decide +kernel
  text := by
    intro c hc
    have : c = 1 :: b!"MSGID: 2:1/3.4 12345678\rThis is the first line of a text that is far too long to be put into a mail as it is.\rBye\r" := by
      simpa [rfcMsg] using hc
    subst this
    exact ⟨.inr (by decide), by decide, by decide⟩

/-- Its mail file. -/
theorem rfcMsg_file : ∃ d, rfcData rfcAkas rfcMsg true = .ok (some d) ∧ mailFile d =
    ([b!"From: Some_One@p4.f3.n1.z2.fidonet.org (Some One)", b!"To: Sysop@f6.n5.z2.fidonet.org (Sysop)", b!"Subject: Test", b!"Date: 01 Jan 26  00:00:00",
      b!"Message-ID: <2:1/3.4 12345678>", b!"X-Fido-MSGID: 2:1/3.4 12345678"],
     [b!"This is the first line of a text that is far too long to be put into a mail", b!"as it is.", b!"Bye"]) := by
  obtain ⟨d, -, h, -, -⟩ := rfc_file_partial rfcAkas rfcMsg true rfcMsg_ok
  have e : (match rfcData rfcAkas rfcMsg true with | .ok (some d) => mailFile d | _ => ([], [])) =
    ([b!"From: Some_One@p4.f3.n1.z2.fidonet.org (Some One)", b!"To: Sysop@f6.n5.z2.fidonet.org (Sysop)", b!"Subject: Test", b!"Date: 01 Jan 26  00:00:00",
      b!"Message-ID: <2:1/3.4 12345678>", b!"X-Fido-MSGID: 2:1/3.4 12345678"],
     [b!"This is the first line of a text that is far too long to be put into a mail", b!"as it is.", b!"Bye"]) := by decide +kernel
  rw [h] at e
  exact ⟨d, h, e⟩

/-- Without a line end at the end of the text, the byte behind it is read. -/
theorem rfc_no_end : rfcData rfcAkas { rfcMsg with text := [b!"Hello"] } false = .error .uninit := by decide +kernel

/-- A subject with line feeds ends the header: the date is in the text, with whatever the sender has put there. -/
theorem rfc_forged : ∃ d, rfcData rfcAkas { rfcMsg with subject := b!"Hi\nX-Trusted: yes\n\nMy text", text := [] } false = .ok (some d) ∧
    (mailFile d).1.drop 2 = [b!"Subject: Hi", b!"X-Trusted: yes"] ∧ (mailFile d).2.take 2 = [b!"My text", b!"Date: 01 Jan 26  00:00:00"] := by
  obtain ⟨d, h⟩ := rfc_file_safe rfcAkas { rfcMsg with subject := b!"Hi\nX-Trusted: yes\n\nMy text", text := [] } false (by decide) (by decide +kernel)
    (fun c hc => nomatch hc)
  have e : (match rfcData rfcAkas { rfcMsg with subject := b!"Hi\nX-Trusted: yes\n\nMy text", text := [] } false with
    | .ok (some d) => ((mailFile d).1.drop 2, (mailFile d).2.take 2) | _ => ([], [])) =
    ([b!"Subject: Hi", b!"X-Trusted: yes"], [b!"My text", b!"Date: 01 Jan 26  00:00:00"]) := by decide +kernel
  rw [h] at e
  exact ⟨d, h, congrArg Prod.fst e, congrArg Prod.snd e⟩

/-- The rest of a long control line is put into the text. -/
theorem rfc_long_control : ∃ d, rfcData rfcAkas { rfcMsg with text := [1 :: b!"NOTE: one two three four five six seven eight nine ten eleven twelve thirteen fourteen\rHello\r"] } false = .ok (some d) ∧
    (mailFile d).2 = [b!"thirteen fourteen", b!"Hello"] := by
  obtain ⟨d, h⟩ := rfc_file_safe rfcAkas { rfcMsg with text := [1 :: b!"NOTE: one two three four five six seven eight nine ten eleven twelve thirteen fourteen\rHello\r"] } false
    (by decide) (by decide +kernel) (fun c hc => .inr (by rw [List.mem_singleton.1 hc]; decide))
  have e : (match rfcData rfcAkas { rfcMsg with text := [1 :: b!"NOTE: one two three four five six seven eight nine ten eleven twelve thirteen fourteen\rHello\r"] } false with
    | .ok (some d) => (mailFile d).2 | _ => []) = [b!"thirteen fourteen", b!"Hello"] := by decide +kernel
  rw [h] at e
  exact ⟨d, h, e⟩

def rfcNames : TmpNames := ⟨b!"/tmp/a", b!"/tmp/b", b!"/tmp/c"⟩

/-- A subject is put into the command line as it is: the shell is given a second command. -/
theorem execute_injected : executeLine { rfcMsg with subject := b!"x'; rm -rf ~; '" } b!"log '%s' %r" rfcNames =
    .ok b!"log 'x'; rm -rf ~; '' /tmp/a" := by decide +kernel

/-- `%M` is replaced by nothing, as no file is written for it. -/
theorem execute_capital : executeLine rfcMsg b!"import %M" rfcNames = .ok b!"import " := by decide +kernel

/-- The hypotheses of `execute_runs` are met by this message and a command that asks for both mail files. -/
example : ∃ d1 d2, (filledIn (placeholders rfcMsg b!"news %r %R '%f'" rfcNames) b!"news %r %R '%f'").length < 400 ∧
    (rfcNames.rfc1 ≠ rfcNames.rfc2 ∧ rfcNames.rfc1 ≠ rfcNames.msg ∧ rfcNames.rfc2 ≠ rfcNames.msg) ∧ rfcData rfcAkas rfcMsg false = .ok (some d1) ∧
    rfcData rfcAkas rfcMsg true = .ok (some d2) ∧ ¬ [37, 109] <:+: (b!"news %r %R '%f'" : Str) ∧ calm.Reliable := by
  obtain ⟨d1, -, h1, -⟩ := rfc_file_partial rfcAkas rfcMsg false rfcMsg_ok
  obtain ⟨d2, -, h2, -⟩ := rfc_file_partial rfcAkas rfcMsg true rfcMsg_ok
  refine ⟨d1, d2, by decide +kernel, by decide, h1, h2, ?_, calm_reliable⟩
  rw [← hasPct_iff]
  decide

/-- The hypotheses of `sent_file_echo` are met. -/
example : ∃ f, sentData {} (fun _ => 7) keepEcho = .ok f ∧ StorableEcho keepEcho ∧ mArea.type ≠ .netmail := by
  obtain ⟨f, hf⟩ := msgData_ok {} (fun _ => 7) (m := { keepEcho with attr := keepEcho.attr ||| FLAG_SENT }) (fieldsFit_of ⟨by decide, by decide, by decide, by decide⟩)
  exact ⟨f, hf, keepEcho_ok, by decide⟩

end Ex

end CM
