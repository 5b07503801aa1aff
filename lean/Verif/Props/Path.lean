import Verif.Model.MemMessage
import Verif.Lemmas.Base
import Verif.Lemmas.Node4D
import Verif.Props.Node4D
import Verif.Props.Strings
import Verif.Props.SeenBy
import Verif.Props.MemText
/-! # C10: PATH lines; C23: netmail kludges -/
set_option linter.unusedSimpArgs false

namespace CM

/-! ## Specification of a PATH line -/

/-- Cut a line into words at blanks and tabs; `cur` is the word being collected. -/
def wordsFrom (cur : Str) : Str → List Str
  | [] => if cur = [] then [] else [cur]
  | c :: r =>
    if c = 32 ∨ c = 9 then (if cur = [] then wordsFrom [] r else cur :: wordsFrom [] r)
    else wordsFrom (cur ++ [c]) r

/-- The words of a line. -/
def words (s : Str) : List Str := wordsFrom [] s

/-- The hops a list of words names: a net left out is the net of the hop before it on the line;
`none` for a word that is not an address. -/
def hopsFrom (lastnet : UInt16) : List Str → List (Option Node4D)
  | [] => []
  | w :: ws => match parse4D w with
    | none => none :: hopsFrom lastnet ws
    | some n =>
      if n.net = 0 then some { n with net := lastnet } :: hopsFrom lastnet ws
      else some n :: hopsFrom n.net ws

/-- The hops of one PATH line. -/
def hops (line : Str) : List (Option Node4D) := hopsFrom 0 (words line)

/-- A line without quotes, backslashes and line feeds, all of whose words are shorter than the
program's 40-byte word buffer. -/
def CleanLine (s : Str) : Prop := (∀ c ∈ s, c ≠ 34 ∧ c ≠ 92 ∧ c ≠ 10) ∧ ∀ w ∈ words s, w.length < 40

/-! ## Lemmas -/

/-- The net in force after some hops. -/
def netAfter (ln : UInt16) : List Str → UInt16
  | [] => ln
  | w :: ws => match parse4D w with
    | none => netAfter ln ws
    | some n => if n.net = 0 then netAfter ln ws else netAfter n.net ws

theorem dropWhile_nil_iff {α} (p : α → Bool) (l : List α) : l.dropWhile p = [] ↔ ∀ x ∈ l, p x = true := by
  induction l with
  | nil => simp
  | cons a l ih =>
    rw [List.dropWhile_cons]
    by_cases h : p a = true
    · simp [h, ih]
    · simp [h]

theorem netAfter_append (ws vs : List Str) (ln : UInt16) :
    netAfter ln (ws ++ vs) = netAfter (netAfter ln ws) vs := by
  induction ws generalizing ln with
  | nil => rfl
  | cons w ws ih =>
    simp only [List.cons_append, netAfter]
    split
    · exact ih ln
    · split <;> exact ih _

theorem wordsFrom_nonblank (w r : Str) (hw : ∀ c ∈ w, c ≠ 32 ∧ c ≠ 9) (cur : Str) :
    wordsFrom cur (w ++ r) = wordsFrom (cur ++ w) r := by
  induction w generalizing cur with
  | nil => simp
  | cons c w ih =>
    have hc := hw c (by simp)
    simp only [List.cons_append, wordsFrom, hc.1, hc.2, or_self, if_false]
    rw [ih (fun x hx => hw x (by simp [hx]))]; simp

theorem wordsFrom_append_word (s t : Str) (ht : t ≠ []) (hb : ∀ c ∈ t, c ≠ 32 ∧ c ≠ 9) (cur : Str) :
    wordsFrom cur (s ++ b!" " ++ t) = wordsFrom cur s ++ [t] := by
  have last : wordsFrom [] t = [t] := by
    have := wordsFrom_nonblank t [] hb []
    simp only [List.append_nil, List.nil_append] at this
    rw [this]; simp [wordsFrom, ht]
  induction s generalizing cur with
  | nil =>
    simp only [List.nil_append, List.cons_append, wordsFrom, true_or, if_true, last]
    split <;> simp
  | cons c s ih =>
    simp only [List.cons_append, wordsFrom] at ih ⊢
    split
    · split
      · exact ih []
      · rw [List.cons_append]; congr 1; exact ih []
    · exact ih (cur ++ [c])

theorem words_append_word (s t : Str) (ht : t ≠ []) (hb : ∀ c ∈ t, c ≠ 32 ∧ c ≠ 9) :
    words (s ++ b!" " ++ t) = words s ++ [t] := wordsFrom_append_word s t ht hb []

theorem words_single (t : Str) (ht : t ≠ []) (hb : ∀ c ∈ t, c ≠ 32 ∧ c ≠ 9) : words t = [t] := by
  have := wordsFrom_nonblank t [] hb []
  simp only [List.append_nil, List.nil_append] at this
  unfold words; rw [this]; simp [wordsFrom, ht]

theorem hopsFrom_append (ws vs : List Str) (ln : UInt16) :
    hopsFrom ln (ws ++ vs) = hopsFrom ln ws ++ hopsFrom (netAfter ln ws) vs := by
  induction ws generalizing ln with
  | nil => rfl
  | cons w ws ih =>
    simp only [List.cons_append, hopsFrom, netAfter]
    split
    · rw [ih]; rfl
    · split <;> (rw [ih]; rfl)

/-- After a word that is an address, the net in force is the net of that hop. -/
theorem hopsFrom_last (ws : List Str) (ln : UInt16) (n : Node4D)
    (h : (hopsFrom ln ws).getLast? = some (some n)) : netAfter ln ws = n.net := by
  induction ws using snocInd with
  | nil => simp [hopsFrom] at h
  | snoc ws w _ =>
    rw [hopsFrom_append] at h
    rw [netAfter_append]
    generalize netAfter ln ws = k at *
    simp only [hopsFrom, netAfter] at h ⊢
    cases hp : parse4D w with
    | none => simp [hp] at h
    | some a =>
      simp only [hp] at h ⊢
      by_cases h0 : a.net = 0
      · simp [h0] at h ⊢; rw [← h]
      · simp [h0] at h ⊢; rw [← h]

theorem tokLoop_plain (m d : Nat) (w r : Str) (hw : ∀ c ∈ w, c ≠ 32 ∧ c ≠ 9 ∧ c ≠ 92 ∧ c ≠ 10)
    (hl : w.length + d ≤ m - 1) (hr : r = [] ∨ ∃ c t, r = c :: t ∧ (c = 32 ∨ c = 9)) :
    tokLoop false m d (w ++ r) = (w, r) := by
  induction w generalizing d with
  | nil =>
    rcases hr with rfl | ⟨c, t, rfl, hc⟩
    · simp [tokLoop]
    · simp only [List.nil_append]
      rw [tokLoop_stop]
      rcases hc with rfl | rfl <;> decide
  | cons c w ih =>
    have hc := hw c (by simp)
    simp only [List.length_cons] at hl
    have hs : tokStop false c = false := by simp [tokStop, hc]
    rw [List.cons_append]
    unfold tokLoop
    rw [if_neg (by simp [hs]), if_neg hc.2.2.1, if_pos (by omega),
      ih (d + 1) (fun x hx => hw x (by simp [hx])) (by omega)]

theorem words_blanks (b s : Str) (hb : ∀ c ∈ b, c = 32 ∨ c = 9) : words (b ++ s) = words s := by
  induction b with
  | nil => rfl
  | cons c b ih =>
    have := hb c (by simp)
    unfold words at *
    simp only [List.cons_append, wordsFrom, this, if_true]
    exact ih (fun x hx => hb x (by simp [hx]))

/-- Splitting off the first word. -/
theorem words_cons (s : Str) : (∃ b, s = b ∧ (∀ c ∈ b, c = 32 ∨ c = 9)) ∨
    ∃ b w r, s = b ++ (w ++ r) ∧ (∀ c ∈ b, c = 32 ∨ c = 9) ∧ w ≠ [] ∧ (∀ c ∈ w, c ≠ 32 ∧ c ≠ 9) ∧
      (r = [] ∨ ∃ c t, r = c :: t ∧ (c = 32 ∨ c = 9)) := by
  by_cases h : s.dropWhile isBlank = []
  · left
    refine ⟨s, rfl, ?_⟩
    intro c hc
    rw [dropWhile_nil_iff] at h
    have := h c hc
    simpa [isBlank] using this
  · right
    refine ⟨s.takeWhile isBlank, (s.dropWhile isBlank).takeWhile (fun c => !isBlank c),
      (s.dropWhile isBlank).dropWhile (fun c => !isBlank c), ?_, ?_, ?_, ?_, ?_⟩
    · rw [List.takeWhile_append_dropWhile, List.takeWhile_append_dropWhile]
    · intro c hc; simpa [isBlank] using mem_takeWhile hc
    · obtain ⟨a, t, e⟩ := List.exists_cons_of_ne_nil h
      have ha : isBlank a = false := by
        have := List.head_dropWhile_not isBlank (l := s) (by rw [e]; simp)
        simpa [e] using this
      rw [e, List.takeWhile_cons_of_pos (by simp [ha])]; simp
    · intro c hc
      have := mem_takeWhile hc
      simpa [isBlank] using this
    · cases e : (s.dropWhile isBlank).dropWhile (fun c => !isBlank c) with
      | nil => exact .inl rfl
      | cons c t =>
        right
        refine ⟨c, t, rfl, ?_⟩
        have := List.head_dropWhile_not (fun c => !isBlank c) (l := s.dropWhile isBlank) (by rw [e]; simp)
        simp only [e, List.head_cons, Bool.not_eq_false'] at this
        simpa [isBlank] using this

theorem words_word (w r : Str) (hne : w ≠ []) (hw : ∀ c ∈ w, c ≠ 32 ∧ c ≠ 9)
    (hr : r = [] ∨ ∃ c t, r = c :: t ∧ (c = 32 ∨ c = 9)) : words (w ++ r) = w :: words (skipSep r) := by
  unfold words
  rw [wordsFrom_nonblank w r hw]
  rcases hr with rfl | ⟨c, t, rfl, hc⟩
  · simp [wordsFrom, hne, skipSep]
  · have : skipSep (c :: t) = t := by simp only [skipSep]; rw [if_pos (by rcases hc with h | h <;> simp [h])]
    rw [this]
    simp only [List.nil_append, wordsFrom, hc, if_true, hne, if_false]

theorem pathScan_words (f : Nat) (s : Str) (last : Option Node4D) (ln : UInt16) (hs : CleanLine s)
    (hf : s.length < f) :
    pathScan f s last ln = some ((hopsFrom ln (words s)).getLast?.getD last) := by
  induction f generalizing s last ln with
  | zero => omega
  | succ f ih =>
    rcases words_cons s with ⟨b, rfl, hb⟩ | ⟨b, w, r, rfl, hb, hne, hw, hr⟩
    · have hdw : s.dropWhile isBlank = [] := by
        rw [dropWhile_nil_iff]; intro c hc; rcases hb c hc with rfl | rfl <;> decide
      have hwd : words s = [] := by
        have := words_blanks s [] hb
        simpa [words, wordsFrom] using this
      simp only [pathScan, jbstrcpy, hdw, hwd, hopsFrom]
      simp [tokLoop]
    · obtain ⟨h1, h2⟩ := hs
      have hwlen : w.length < 40 := by
        apply h2
        rw [words_blanks _ _ hb, words_word w r hne hw hr]; simp
      obtain ⟨c0, t0, hc0⟩ := List.exists_cons_of_ne_nil hne
      have hdw : (b ++ (w ++ r)).dropWhile isBlank = w ++ r := by
        rw [dropWhile_append_of_all _ _ _ (by intro c hc; rcases hb c hc with rfl | rfl <;> decide)]
        have := hw c0 (by simp [hc0])
        rw [hc0, List.cons_append, List.dropWhile_cons_of_neg (by simp [isBlank, this])]
      have hq : ((w ++ r).head? == some 34) = false := by
        rw [hc0]
        have := (h1 c0 (by simp [hc0])).1
        simp [this]
      have htok : tokLoop false 40 0 (w ++ r) = (w, r) := by
        refine tokLoop_plain 40 0 w r ?_ (by omega) hr
        intro c hc
        have := h1 c (by simp [hc])
        exact ⟨(hw c hc).1, (hw c hc).2, this.2.1, this.2.2⟩
      have hjb : jbstrcpy 40 (b ++ (w ++ r)) = (w, skipSep r, true) := by
        simp only [jbstrcpy, hdw, hq, Bool.false_eq_true, if_false, htok]
        simp [hne]
      have hsk : skipSep r = [] ∨ ∃ c, r = c :: skipSep r := by
        rcases hr with rfl | ⟨c, t, rfl, hc⟩
        · exact .inl rfl
        · right; refine ⟨c, ?_⟩; simp only [skipSep]; rw [if_pos (by rcases hc with h | h <;> simp [h])]
      have hwords : words (b ++ (w ++ r)) = w :: words (skipSep r) := by
        rw [words_blanks _ _ hb, words_word w r hne hw hr]
      have hclean : CleanLine (skipSep r) := by
        refine ⟨?_, fun v hv => h2 v (by rw [hwords]; simp [hv])⟩
        intro c hc
        rcases hsk with e | ⟨a, e⟩
        · rw [e] at hc; simp at hc
        · exact h1 c (by rw [e]; simp [hc])
      have hlen : (skipSep r).length < f := by
        have hwp := List.length_pos_iff.2 hne
        simp only [List.length_append] at hf
        rcases hsk with e | ⟨a, e⟩
        · rw [e]; simp; omega
        · have := congrArg List.length e; simp only [List.length_cons] at this; omega
      have hgl : ∀ (x : Option Node4D) (l : List (Option Node4D)) (d : Option Node4D),
          (x :: l).getLast?.getD d = l.getLast?.getD x := by
        intro x l d; cases l <;> simp [List.getLast?_cons]
      unfold pathScan
      simp only [hjb, if_true]
      rw [hwords]
      simp only [hopsFrom]
      cases hp : parse4D w with
      | none => simp only; rw [ih _ _ _ hclean hlen, hgl]
      | some n =>
        simp only
        by_cases h0 : n.net = 0
        · rw [if_pos h0, if_pos h0, ih _ _ _ hclean hlen, hgl]
        · rw [if_neg h0, if_neg h0, ih _ _ _ hclean hlen, hgl]

/-! ### The texts written -/

theorem parse4D_iff (s : Str) (r : Node4D) : parse4D s = some r ↔
    ∃ t : AddrText, t.Digits ∧ s = t.text ∧ r = t.meaning ⟨0, 0, 0, 0⟩ := parse4DTemplate_iff s _ r

theorem compVal_dec (n d : UInt16) : compVal (dec n.toNat) d = n := by
  simp [compVal, dec_ne_nil, decVal_dec]

theorem parse_hop (net node point : UInt16) (withNet : Bool) :
    parse4D ((if withNet then dec net.toNat ++ b!"/" else []) ++ dec node.toNat ++
      (if point ≠ 0 then b!"." ++ dec point.toNat else [])) =
    some ⟨0, if withNet then net else 0, node, point⟩ := by
  rw [parse4D_iff]
  refine ⟨⟨none, if withNet then some (dec net.toNat) else none,
    if point ≠ 0 then some (dec node.toNat) else none,
    if point ≠ 0 then dec point.toNat else dec node.toNat⟩, ?_, ?_, ?_⟩
  · refine ⟨by simp [odig], ?_, ?_, ?_⟩
    · cases withNet <;> simp [odig]; exact dec_digits _
    · by_cases h : point = 0 <;> simp [odig, h]; exact dec_digits _
    · by_cases h : point = 0 <;> simp [h] <;> exact dec_digits _
  · by_cases h : point = 0 <;> cases withNet <;> simp [AddrText.text, sec, h]
  · by_cases h : point = 0 <;> cases withNet <;>
      simp [AddrText.meaning, h, odig, compVal_dec, compVal]
    all_goals simp [dec_ne_nil, decVal_dec]

/-- A hop written by the program. -/
def hopWord (n : Node4D) (withNet : Bool) : Str :=
  (if withNet then dec n.net.toNat ++ b!"/" else []) ++ dec n.node.toNat ++ pointText n

theorem hopWord_chars (n : Node4D) (b : Bool) : ∀ c ∈ hopWord n b, isDigit c = true ∨ c = 47 ∨ c = 46 := by
  intro c hc
  unfold hopWord pointText at hc
  have d := dec_digits
  cases b <;> by_cases h : n.point = 0 <;>
    simp only [h, if_true, if_false, ne_eq, not_true_eq_false, not_false_eq_true, List.mem_append,
      List.mem_cons, List.not_mem_nil, or_false, false_or, Bool.false_eq_true] at hc
  · exact .inl (d _ c hc)
  · rcases hc with hc | rfl | hc
    · exact .inl (d _ c hc)
    · exact .inr (.inr rfl)
    · exact .inl (d _ c hc)
  · rcases hc with (hc | rfl) | hc
    · exact .inl (d _ c hc)
    · exact .inr (.inl rfl)
    · exact .inl (d _ c hc)
  · rcases hc with ((hc | rfl) | hc) | rfl | hc
    · exact .inl (d _ c hc)
    · exact .inr (.inl rfl)
    · exact .inl (d _ c hc)
    · exact .inr (.inr rfl)
    · exact .inl (d _ c hc)

theorem hopWord_ne_nil (n : Node4D) (b : Bool) : hopWord n b ≠ [] := by
  unfold hopWord; simp [dec_ne_nil]

theorem hopWord_nonblank (n : Node4D) (b : Bool) : ∀ c ∈ hopWord n b, c ≠ 32 ∧ c ≠ 9 := by
  have : ∀ c : UInt8, isDigit c = true ∨ c = 47 ∨ c = 46 → c ≠ 32 ∧ c ≠ 9 := by decide +kernel
  exact fun c hc => this c (hopWord_chars n b c hc)

theorem hopWord_length (n : Node4D) (b : Bool) : (hopWord n b).length ≤ 17 := by
  unfold hopWord pointText
  have h1 := dec5 n.net; have h2 := dec5 n.node; have h3 := dec5 n.point
  cases b <;> by_cases h : n.point = 0 <;> simp [h] <;> omega

theorem parse_hopWord (n : Node4D) (b : Bool) :
    parse4D (hopWord n b) = some ⟨0, if b then n.net else 0, n.node, n.point⟩ := by
  have := parse_hop n.net n.node n.point b
  unfold hopWord pointText
  exact this

theorem pathBuf_eq (last : Option Node4D) (n : Node4D) : pathBuf last n = hopWord n (!sameNet last n) := by
  unfold pathBuf hopWord
  cases sameNet last n <;> simp

/-! ## C10 -/

/-- The hop as it appears on a PATH line: net, node and point. -/
def asHop (n : Node4D) : Node4D := { n with zone := 0 }

/-- All hops of the PATH lines, in order. -/
def allHops (ps : List (List Str)) : List (Option Node4D) := ps.flatten.flatMap hops

/-- Does the last word of the last line name this system? -/
def tailIs (ps : List (List Str)) (n : Node4D) : Prop :=
  ∃ l p, lastLine ps = some l ∧ (hops l).getLast? = some (some p) ∧ p.net = n.net ∧ p.node = n.node ∧
    p.point = n.point

theorem lastLine_split {ps : List (List Str)} {l : Str} (h : lastLine ps = some l) :
    ∃ qs b, ps = qs ++ [b ++ [l]] := by
  unfold lastLine at h
  cases hg : ps.getLast? with
  | none => simp [hg] at h
  | some c =>
    rw [hg] at h
    simp only [Option.bind_some] at h
    obtain ⟨qs, rfl⟩ := List.getLast?_eq_some_iff.1 hg
    obtain ⟨b, rfl⟩ := List.getLast?_eq_some_iff.1 h
    exact ⟨qs, b, rfl⟩

theorem pathPush_flatten (ps : List (List Str)) (l : Str) : (pathPush ps l).flatten = ps.flatten ++ [l] := by
  unfold pathPush
  cases hg : ps.getLast? with
  | none => simp
  | some b =>
    obtain ⟨qs, rfl⟩ := List.getLast?_eq_some_iff.1 hg
    simp only
    split <;> simp

/-- PATH buffers: at least one and at most ten lines per block, lines shorter than the 100-byte
fields. -/
def PathOK (ps : List (List Str)) : Prop :=
  ∀ b ∈ ps, 1 ≤ b.length ∧ b.length ≤ numPath ∧ ∀ l ∈ b, l.length < 100

theorem pathPush_ok (ps : List (List Str)) (l : Str) (h : PathOK ps) (hl : l.length < 100) :
    PathOK (pathPush ps l) := by
  unfold pathPush
  cases hg : ps.getLast? with
  | none => simp at hg; subst hg; intro b hb; simp at hb; subst hb; simp [numPath, hl]
  | some c =>
    obtain ⟨qs, rfl⟩ := List.getLast?_eq_some_iff.1 hg
    simp only
    have hc := h c (by simp)
    split
    · intro b hb
      rw [List.mem_append, List.mem_singleton] at hb
      rcases hb with hb | rfl
      · exact h b hb
      · simp [numPath, hl]
    · intro b hb
      rw [List.dropLast_concat, List.mem_append, List.mem_singleton] at hb
      rcases hb with hb | rfl
      · exact h b (by simp [hb])
      · refine ⟨by simp, by simp; omega, ?_⟩
        intro x hx
        rw [List.mem_append, List.mem_singleton] at hx
        rcases hx with hx | rfl
        · exact hc.2.2 x hx
        · exact hl

/-- C10, for every set of PATH lines: the scan ends, and the lines either stay as they are, or one word
is appended to the last line, or one new line is added; every field stays within its 100 bytes. -/
theorem addNodePath_shape (ps : List (List Str)) (n : Node4D) (r : List (List Str)) (hok : PathOK ps)
    (h : addNodePath ps n = some r) :
    PathOK r ∧ (r = ps ∨ (∃ b, (∃ init l, ps.flatten = init ++ [l] ∧
        r.flatten = init ++ [l ++ b!" " ++ hopWord n b])) ∨ r.flatten = ps.flatten ++ [hopWord n true]) := by
  unfold addNodePath at h
  split at h
  · simp at h
  · rename_i last hlast
    have hh : hopText n = hopWord n true := by simp [hopText, hopWord]
    have push : PathOK (pathPush ps (hopText n)) ∧ (pathPush ps (hopText n)).flatten = ps.flatten ++ [hopWord n true] := by
      refine ⟨pathPush_ok _ _ hok ?_, ?_⟩
      · rw [hh]; have := hopWord_length n true; omega
      · rw [pathPush_flatten, hh]
    split at h
    · simp at h; subst h; exact ⟨hok, .inl rfl⟩
    · split at h
      · simp at h; subst h; exact ⟨push.1, .inr (.inr push.2)⟩
      · rename_i b hb
        split at h
        · simp at h; subst h; exact ⟨push.1, .inr (.inr push.2)⟩
        · rename_i l hl
          split at h
          · rename_i hlen
            simp only [Option.some.injEq] at h
            obtain ⟨qs, rfl⟩ := List.getLast?_eq_some_iff.1 hb
            obtain ⟨c, rfl⟩ := List.getLast?_eq_some_iff.1 hl
            simp only [List.dropLast_concat] at h
            subst h
            rw [pathBuf_eq] at hlen ⊢
            refine ⟨?_, .inr (.inl ⟨!sameNet last n, qs.flatten ++ c, l, by simp, by simp⟩)⟩
            intro x hx
            rw [List.mem_append, List.mem_singleton] at hx
            rcases hx with hx | rfl
            · exact hok x (by simp [hx])
            · have := hok (c ++ [l]) (by simp)
              refine ⟨by simp, by simpa using this.2.1, ?_⟩
              intro y hy
              rw [List.mem_append, List.mem_singleton] at hy
              rcases hy with hy | rfl
              · exact this.2.2 y (by simp [hy])
              · simp; omega
          · simp at h; subst h; exact ⟨push.1, .inr (.inr push.2)⟩

/-- C10. For a system with a nonzero net whose last PATH line is clean: the operation terminates; if
this system is the last hop nothing changes; otherwise the hops read from the new lines are the old
hops, in order, followed by this system. -/
theorem addNodePath_hops (ps : List (List Str)) (n : Node4D) (hn : n.net ≠ 0)
    (hc : ∀ l, lastLine ps = some l → CleanLine l) :
    ∃ r, addNodePath ps n = some r ∧ (tailIs ps n → r = ps) ∧
      (¬ tailIs ps n → allHops r = allHops ps ++ [some (asHop n)]) := by
  have hh : hopText n = hopWord n true := by simp [hopText, hopWord]
  have hopsNew : hops (hopWord n true) = [some (asHop n)] := by
    unfold hops
    rw [words_single _ (hopWord_ne_nil n true) (hopWord_nonblank n true)]
    simp [hopsFrom, parse_hopWord, hn, asHop]
  have push : allHops (pathPush ps (hopText n)) = allHops ps ++ [some (asHop n)] := by
    unfold allHops; rw [pathPush_flatten, hh, flatMap_snoc, hopsNew]
  unfold addNodePath lastHop
  cases hll : lastLine ps with
  | none =>
    refine ⟨pathPush ps (hopText n), ?_, ?_, fun _ => push⟩
    · have : sameHop none n = false := rfl
      simp only [this, Bool.false_eq_true, if_false]
      cases hg : ps.getLast? with
      | none => rfl
      | some b =>
        cases hgb : b.getLast? with
        | none => simp only [hgb]
        | some l => simp [lastLine, hg, hgb] at hll
    · rintro ⟨l, p, h1, _⟩; rw [hll] at h1; simp at h1
  | some l =>
    obtain ⟨qs, b, rfl⟩ := lastLine_split hll
    have hcl := hc l hll
    have hscan := pathScan_words (l.length + 1) l none 0 hcl (by omega)
    simp only [hscan]
    change ∃ r, _ = some r ∧ _
    generalize hlast : (hopsFrom 0 (words l)).getLast?.getD none = last
    have htail : tailIs (qs ++ [b ++ [l]]) n ↔
        ∃ p, last = some p ∧ p.net = n.net ∧ p.node = n.node ∧ p.point = n.point := by
      constructor
      · rintro ⟨l', p, h1, h2, h3⟩
        rw [hll] at h1
        simp at h1; subst h1
        unfold hops at h2
        rw [h2] at hlast
        exact ⟨p, by simpa using hlast.symm, h3⟩
      · rintro ⟨p, rfl, h3⟩
        refine ⟨l, p, hll, ?_, h3⟩
        unfold hops
        cases hgl : (hopsFrom 0 (words l)).getLast? with
        | none => simp [hgl] at hlast
        | some x => simp [hgl] at hlast; simp [hlast]
    by_cases hs : sameHop last n = true
    · refine ⟨_, by rw [if_pos hs], fun _ => rfl, fun hnt => absurd ?_ hnt⟩
      rw [htail]
      cases last with
      | none => simp [sameHop] at hs
      | some p =>
        simp only [sameHop, Bool.and_eq_true, beq_iff_eq] at hs
        exact ⟨p, rfl, hs.1.1, hs.1.2, hs.2⟩
    · rw [if_neg hs]
      have hnt : ¬ tailIs (qs ++ [b ++ [l]]) n := by
        rw [htail]
        rintro ⟨p, rfl, h1, h2, h3⟩
        exact hs (by simp [sameHop, h1, h2, h3])
      simp only [List.getLast?_append, List.getLast?_singleton, Option.some_or, List.getLast?_concat,
        List.dropLast_concat]
      split
      · refine ⟨_, rfl, fun h => absurd h hnt, fun _ => ?_⟩
        rw [pathBuf_eq]
        generalize hsn : sameNet last n = sn
        have hline : hops (l ++ b!" " ++ hopWord n (!sn)) = hops l ++ [some (asHop n)] := by
          unfold hops
          rw [words_append_word _ _ (hopWord_ne_nil n _) (hopWord_nonblank n _), hopsFrom_append]
          congr 1
          cases sn with
          | false => simp [hopsFrom, parse_hopWord, hn, asHop]
          | true =>
            cases last with
            | none => simp [sameNet] at hsn
            | some p =>
              simp only [sameNet, beq_iff_eq] at hsn
              have hgl : (hopsFrom 0 (words l)).getLast? = some (some p) := by
                cases hgl : (hopsFrom 0 (words l)).getLast? with
                | none => simp [hgl] at hlast
                | some x => simp [hgl] at hlast; simp [hlast]
              have := hopsFrom_last _ _ _ hgl
              simp [hopsFrom, parse_hopWord, asHop, this, hsn]
        unfold allHops
        simp only [List.flatten_append, List.flatten_cons, List.flatten_nil, List.append_nil,
          List.flatMap_append, List.flatMap_cons, List.flatMap_nil, hline]
        simp only [List.append_assoc]
      · exact ⟨_, rfl, fun h => absurd h hnt, fun _ => push⟩

theorem hopWord_clean (n : Node4D) (b : Bool) : CleanLine (hopWord n b) := by
  have : ∀ c : UInt8, isDigit c = true ∨ c = 47 ∨ c = 46 → c ≠ 34 ∧ c ≠ 92 ∧ c ≠ 10 := by decide +kernel
  refine ⟨fun c hc => this c (hopWord_chars n b c hc), ?_⟩
  rw [words_single _ (hopWord_ne_nil n b) (hopWord_nonblank n b)]
  intro w hw
  have := hopWord_length n b
  simp only [List.mem_singleton] at hw
  subst hw; omega

theorem lastLine_of_flatten {r : List (List Str)} {init : List Str} {l : Str} (hok : PathOK r)
    (h : r.flatten = init ++ [l]) : lastLine r = some l := by
  cases hg : r.getLast? with
  | none => simp at hg; subst hg; simp at h
  | some b =>
    obtain ⟨qs, rfl⟩ := List.getLast?_eq_some_iff.1 hg
    have hb := (hok b (by simp)).1
    cases hgb : b.getLast? with
    | none => simp at hgb; subst hgb; simp at hb
    | some x =>
      obtain ⟨c, rfl⟩ := List.getLast?_eq_some_iff.1 hgb
      have e : (qs ++ [c ++ [x]]).flatten = (qs.flatten ++ c) ++ [x] := by simp
      rw [e] at h
      have := List.append_inj' h rfl
      simp only [List.cons.injEq, and_true] at this
      simp [lastLine, this.2]

/-- C10. Afterwards this system is the last hop on the last line. -/
theorem addNodePath_tail (ps : List (List Str)) (n : Node4D) (hn : n.net ≠ 0) (hok : PathOK ps)
    (hc : ∀ l, lastLine ps = some l → CleanLine l) (r : List (List Str)) (h : addNodePath ps n = some r) :
    tailIs r n ∧ ∀ l, lastLine r = some l → CleanLine l := by
  obtain ⟨r', h1, h2, h3⟩ := addNodePath_hops ps n hn hc
  have : r' = r := by rw [h1] at h; simpa using h
  subst this
  by_cases ht : tailIs ps n
  · rw [h2 ht]; exact ⟨ht, hc⟩
  · have h3 := h3 ht
    obtain ⟨hok', hs⟩ := addNodePath_shape ps n r' hok h
    rcases hs with rfl | ⟨b, init, l, e1, e2⟩ | e
    · exfalso
      have := congrArg List.length h3
      simp at this
    · have hl1 := lastLine_of_flatten hok e1
      have hl2 := lastLine_of_flatten hok' e2
      have hcl := hc l hl1
      have hh : hops (l ++ b!" " ++ hopWord n b) = hops l ++ [some (asHop n)] := by
        unfold allHops at h3
        rw [e1, e2, flatMap_snoc, flatMap_snoc, List.append_assoc (List.flatMap hops init) (hops l)] at h3
        exact List.append_cancel_left h3
      constructor
      · exact ⟨_, asHop n, hl2, by rw [hh]; simp, rfl, rfl, rfl⟩
      · intro l' hl'
        rw [hl2] at hl'
        simp only [Option.some.injEq] at hl'
        subst hl'
        have hw := hopWord_clean n b
        constructor
        · intro c hcm
          simp only [List.mem_append, List.mem_singleton] at hcm
          rcases hcm with (hcm | rfl) | hcm
          · exact hcl.1 c hcm
          · decide
          · exact hw.1 c hcm
        · rw [words_append_word _ _ (hopWord_ne_nil n _) (hopWord_nonblank n _)]
          intro w hwm
          rw [List.mem_append, List.mem_singleton] at hwm
          rcases hwm with hwm | rfl
          · exact hcl.2 w hwm
          · have := hopWord_length n b; omega
    · have hl2 := lastLine_of_flatten hok' e
      constructor
      · refine ⟨_, asHop n, hl2, ?_, rfl, rfl, rfl⟩
        unfold hops
        rw [words_single _ (hopWord_ne_nil n true) (hopWord_nonblank n true)]
        simp [hopsFrom, parse_hopWord, hn, asHop]
      · intro l' hl'
        rw [hl2] at hl'
        simp only [Option.some.injEq] at hl'
        subst hl'
        exact hopWord_clean n true

/-- C10. So doing it twice changes nothing more. -/
theorem addNodePath_idempotent (ps : List (List Str)) (n : Node4D) (hn : n.net ≠ 0) (hok : PathOK ps)
    (hc : ∀ l, lastLine ps = some l → CleanLine l) (r : List (List Str)) (h : addNodePath ps n = some r) :
    addNodePath r n = some r := by
  obtain ⟨ht, hc'⟩ := addNodePath_tail ps n hn hok hc r h
  obtain ⟨r', h1, h2, _⟩ := addNodePath_hops r n hn hc'
  rw [h1, h2 ht]

/-- C10. Whatever the PATH lines contain, the operation terminates. -/
theorem addNodePath_total (ps : List (List Str)) (n : Node4D) : ∃ r, addNodePath ps n = some r := by
  have scan : ∀ (f : Nat) (s : Str) (last : Option Node4D) (ln : UInt16), s.length < f →
      ∃ r, pathScan f s last ln = some r := by
    intro f
    induction f with
    | zero => intro s last ln h; omega
    | succ f ih =>
      intro s last ln h
      unfold pathScan
      obtain ⟨_, used, h2, _, h4⟩ := jbstrcpy_bounds 40 s (by omega)
      by_cases ht : (jbstrcpy 40 s).2.2 = true
      · simp only [ht, if_true]
        have hu := List.length_pos_iff.2 (h4 ht)
        have hl : (jbstrcpy 40 s).2.1.length < f := by
          have := congrArg List.length h2
          simp only [List.length_append] at this; omega
        split
        · exact ih _ _ _ hl
        · split <;> exact ih _ _ _ hl
      · simp only [ht, if_false]; exact ⟨last, rfl⟩
  have : ∃ last, lastHop ps = some last := by
    unfold lastHop
    cases lastLine ps with
    | none => exact ⟨none, rfl⟩
    | some l => exact scan _ _ _ _ (by omega)
  obtain ⟨last, hl⟩ := this
  unfold addNodePath
  rw [hl]
  simp only
  split
  · exact ⟨_, rfl⟩
  · split
    · exact ⟨_, rfl⟩
    · split
      · exact ⟨_, rfl⟩
      · split <;> exact ⟨_, rfl⟩

/-- The PATH line written for a stored line (`WritePath`, `pkt.c` 756-758). -/
def pathLine (l : Str) : Str := 1 :: b!"PATH: " ++ l ++ [13]

/-- C10. A stored PATH line of full length, written out and read in again by an echomail message, is
stored unchanged as the next line. -/
theorem mmAddLine_pathLine (m : MemMsg) (l : Str) (ha : m.area ≠ []) (hl : l.length < 100)
    (c : UInt8) (hc : l.getLast? = some c) (hv : below33 c = false) :
    mmAddLine m (pathLine l) = .ok (some { m with path := pathPush m.path l }) := by
  have h1 : startsWith (pathLine l) b!"SEEN-BY:" = false := by simp [startsWith, pathLine]
  have h2 : startsWith (pathLine l) (1 :: b!"PATH:") = true := by simp [startsWith, pathLine]
  have h3 : strAt (pathLine l) 7 = .ok (l ++ [13]) := by simp [strAt, pathLine]
  have hst : striptrail (mystrncpy (l ++ [13]) 100) = .ok l := by
    rw [striptrail_iff]
    by_cases h : l.length = 99
    · exact ⟨[], by simp [mystrncpy, ← h], by simp, c, hc, hv⟩
    · refine ⟨[13], ?_, by decide, c, hc, hv⟩
      unfold mystrncpy
      rw [List.take_of_length_le (by simp; omega)]
  unfold mmAddLine
  rw [if_neg (by simp [h1]), if_pos ⟨ha, h2⟩]
  simp only [h3, bind, Except.bind, mmAddPath]
  rw [if_neg (by simp)]
  simp only [hst]

/-- C10. All PATH lines of a message, written out and read into a fresh echomail message, are read back
in order; each ends in a visible character. -/
theorem path_roundtrip (m : MemMsg) (ls : List Str) (ha : m.area ≠ []) (hp : PathOK m.path)
    (h : ∀ l ∈ ls, l.length < 100 ∧ ∃ c, l.getLast? = some c ∧ below33 c = false) :
    ∃ p, addLines m (ls.map pathLine) = .ok (some { m with path := p }) ∧ PathOK p ∧
      p.flatten = m.path.flatten ++ ls := by
  induction ls generalizing m with
  | nil => exact ⟨m.path, rfl, hp, by simp⟩
  | cons l ls ih =>
    obtain ⟨hl, c, hc, hv⟩ := h l (by simp)
    obtain ⟨p, h1, h2, h3⟩ := ih { m with path := pathPush m.path l } ha (pathPush_ok _ _ hp hl)
      (fun x hx => h x (by simp [hx]))
    refine ⟨p, ?_, h2, ?_⟩
    · simp only [List.map_cons, addLines, mmAddLine_pathLine m l ha hl c hc hv]
      exact h1
    · rw [h3, pathPush_flatten]; simp

/-- C10 (violated at the edge). A PATH line without a hop is read outside its buffer. -/
theorem path_empty_reads_before (m : MemMsg) (ha : m.area ≠ []) :
    mmAddLine m (pathLine []) = .error .oobRead ∧ mmAddLine m (1 :: b!"PATH:") = .error .oobRead := by
  constructor
  · have h2 : strAt (pathLine []) 7 = .ok [13] := by decide
    have h3 : striptrail (mystrncpy [13] 100) = .error .oobRead := by decide
    unfold mmAddLine
    rw [if_neg (by simp [startsWith, pathLine]), if_pos ⟨ha, by decide⟩]
    simp only [h2, bind, Except.bind, mmAddPath]
    rw [if_neg (by simp)]
    simp only [h3]
  · unfold mmAddLine
    rw [if_neg (by simp [startsWith]), if_pos ⟨ha, by decide⟩]
    simp [strAt, bind, Except.bind]

example : mmAddLine { area := b!"TEST" } (pathLine b!"5020/100 200") =
    .ok (some { area := b!"TEST", path := [[b!"5020/100 200"]] }) :=
  mmAddLine_pathLine _ _ (by simp) (by decide) 48 (by decide) (by decide)

example : addNodePath [[b!"5020/100 200", b!"5030/7"]] ⟨2, 5030, 1042, 3⟩
    = some [[b!"5020/100 200", b!"5030/7 1042.3"]] := by decide

example : addNodePath [[b!"5020/100 200 "]] ⟨2, 5020, 200, 0⟩ = some [[b!"5020/100 200 "]] := by decide

example : CleanLine b!"5020/100 200" ∧ hops b!"5020/100 200" =
    [some ⟨0, 5020, 100, 0⟩, some ⟨0, 5020, 200, 0⟩] := by
  refine ⟨⟨by decide, by decide⟩, by decide⟩

/-! ## C23: INTL, FMPT and TOPT -/

theorem parse_full (z n f : UInt16) :
    parse4D (dec z.toNat ++ b!":" ++ dec n.toNat ++ b!"/" ++ dec f.toNat) = some ⟨z, n, f, 0⟩ := by
  rw [parse4D_iff]
  refine ⟨⟨some (dec z.toNat), some (dec n.toNat), none, dec f.toNat⟩, ?_, ?_, ?_⟩
  · refine ⟨?_, ?_, by simp [odig], dec_digits _⟩ <;> simp [odig] <;> exact dec_digits _
  · simp [AddrText.text, sec]
  · simp [AddrText.meaning, odig, compVal_dec]

/-- Does the message carry an INTL line? -/
def HasIntl (force : Bool) (orig dest : Node4D) : Prop := orig.zone ≠ dest.zone ∨ force = true

theorem kludge_fmpt (m : MemMsg) (p : UInt16) (ha : m.area = []) :
    processKludge m (1 :: b!"FMPT " ++ dec p.toNat ++ [13]) =
      .ok { m with orig := { m.orig with point := p } } := by
  have hv : strAt (1 :: b!"FMPT " ++ dec p.toNat ++ [13]) 6 = .ok (dec p.toNat ++ [13]) := by simp [strAt]
  have hp : atoi16 (dec p.toNat ++ [13]) = p := atoi16_dec_rest p [13] (by simp; decide)
  have e : ∀ pre : Str, startsWith (1 :: b!"FMPT " ++ dec p.toNat ++ [13]) (1 :: pre)
      = ((b!"FMPT " ++ dec p.toNat ++ [13]).take pre.length == pre) := by
    intro pre; simp [startsWith]
  unfold processKludge
  have t1 : startsWith (1 :: b!"FMPT " ++ dec p.toNat ++ [13]) (1 :: b!"RESCANNED") = false := by simp [startsWith]
  have t2 : startsWith (1 :: b!"FMPT " ++ dec p.toNat ++ [13]) (1 :: b!"MSGID:") = false := by simp [startsWith]
  have t3 : startsWith (1 :: b!"FMPT " ++ dec p.toNat ++ [13]) (1 :: b!"REPLY:") = false := by simp [startsWith]
  have t4 : startsWith (1 :: b!"FMPT " ++ dec p.toNat ++ [13]) (1 :: b!"FMPT") = true := by simp [startsWith]
  have t5 : startsWith (1 :: b!"FMPT " ++ dec p.toNat ++ [13]) (1 :: b!"TOPT") = false := by simp [startsWith]
  have t6 : startsWith (1 :: b!"FMPT " ++ dec p.toNat ++ [13]) (1 :: b!"INTL") = false := by simp [startsWith]
  simp only [kRescanned, kMsgid, kReply, kFmpt, kTopt, kIntl, t1, t2, t3, t4, t5, t6, bind, Except.bind, Bool.false_eq_true, if_false, if_true, ha, hv, hp]

theorem kludge_topt (m : MemMsg) (p : UInt16) (ha : m.area = []) :
    processKludge m (1 :: b!"TOPT " ++ dec p.toNat ++ [13]) =
      .ok { m with dest := { m.dest with point := p } } := by
  have hv : strAt (1 :: b!"TOPT " ++ dec p.toNat ++ [13]) 6 = .ok (dec p.toNat ++ [13]) := by simp [strAt]
  have hp : atoi16 (dec p.toNat ++ [13]) = p := atoi16_dec_rest p [13] (by simp; decide)
  unfold processKludge
  have t1 : startsWith (1 :: b!"TOPT " ++ dec p.toNat ++ [13]) (1 :: b!"RESCANNED") = false := by simp [startsWith]
  have t2 : startsWith (1 :: b!"TOPT " ++ dec p.toNat ++ [13]) (1 :: b!"MSGID:") = false := by simp [startsWith]
  have t3 : startsWith (1 :: b!"TOPT " ++ dec p.toNat ++ [13]) (1 :: b!"REPLY:") = false := by simp [startsWith]
  have t4 : startsWith (1 :: b!"TOPT " ++ dec p.toNat ++ [13]) (1 :: b!"FMPT") = false := by simp [startsWith]
  have t5 : startsWith (1 :: b!"TOPT " ++ dec p.toNat ++ [13]) (1 :: b!"TOPT") = true := by simp [startsWith]
  have t6 : startsWith (1 :: b!"TOPT " ++ dec p.toNat ++ [13]) (1 :: b!"INTL") = false := by simp [startsWith]
  simp only [kRescanned, kMsgid, kReply, kFmpt, kTopt, kIntl, t1, t2, t3, t4, t5, t6, bind, Except.bind, Bool.false_eq_true, if_false, if_true, ha, hv, hp]

/-- The text `zone:net/node`. -/
def addr3 (n : Node4D) : Str := dec n.zone.toNat ++ b!":" ++ dec n.net.toNat ++ b!"/" ++ dec n.node.toNat

theorem addr3_chars (n : Node4D) : ∀ c ∈ addr3 n, isDigit c = true ∨ c = 58 ∨ c = 47 := by
  intro c hc
  simp only [addr3, List.mem_append, List.mem_singleton] at hc
  rcases hc with (((hc | hc) | hc) | hc) | hc
  · exact .inl (dec_digits _ c hc)
  · exact .inr (.inl hc)
  · exact .inl (dec_digits _ c hc)
  · exact .inr (.inr hc)
  · exact .inl (dec_digits _ c hc)

theorem addr3_length (n : Node4D) : (addr3 n).length ≤ 17 := by
  have h1 := dec5 n.zone; have h2 := dec5 n.net; have h3 := dec5 n.node
  simp [addr3]; omega

theorem addr3_nosep (n : Node4D) : ∀ c ∈ addr3 n, (c != 32 && c != 13) = true := by
  have : ∀ c : UInt8, isDigit c = true ∨ c = 58 ∨ c = 47 → (c != 32 && c != 13) = true := by decide +kernel
  exact fun c hc => this c (addr3_chars n c hc)

theorem kludge_intl (m : MemMsg) (o d : Node4D) (ha : m.area = []) :
    processKludge m (1 :: b!"INTL " ++ addr3 d ++ b!" " ++ addr3 o ++ [13]) =
      .ok { m with
        orig := { o with point := m.orig.point }
        dest := { d with point := m.dest.point } } := by
  have hhead : ∃ c t, addr3 d = c :: t ∧ isDigit c = true := by
    obtain ⟨c, t, h, hd⟩ := dec_head d.zone.toNat
    exact ⟨c, t ++ (b!":" ++ dec d.net.toNat ++ b!"/" ++ dec d.node.toNat), by simp [addr3, h], hd⟩
  have hv : strAt (1 :: b!"INTL " ++ addr3 d ++ b!" " ++ addr3 o ++ [13]) 6 =
      .ok (addr3 d ++ (32 :: (addr3 o ++ [13]))) := by simp [strAt]
  have h5 : (1 :: b!"INTL " ++ addr3 d ++ b!" " ++ addr3 o ++ [13])[5]? = some 32 := by simp
  have f1 : intlFirst (addr3 d ++ (32 :: (addr3 o ++ [13]))) = addr3 d := by
    unfold intlFirst
    rw [takeWhile_append_of_all]
    · rw [List.takeWhile_cons_of_neg (by decide), List.append_nil, List.take_of_length_le]
      have := addr3_length d; omega
    · intro x hx
      have := addr3_nosep d x hx
      simp only [Bool.and_eq_true] at this; exact this.1
  have f2 : intlSecond (addr3 o ++ [13]) = addr3 o := by
    unfold intlSecond
    rw [takeWhile_append_of_all _ _ _ (addr3_nosep o), List.takeWhile_cons_of_neg (by decide),
      List.append_nil, List.take_of_length_le]
    have := addr3_length o; omega
  have pd : parse4D (addr3 d) = some ⟨d.zone, d.net, d.node, 0⟩ := parse_full _ _ _
  have po : parse4D (addr3 o) = some ⟨o.zone, o.net, o.node, 0⟩ := parse_full _ _ _
  unfold processKludge
  have t1 : startsWith (1 :: b!"INTL " ++ addr3 d ++ b!" " ++ addr3 o ++ [13]) (1 :: b!"RESCANNED") = false := by simp [startsWith]
  have t2 : startsWith (1 :: b!"INTL " ++ addr3 d ++ b!" " ++ addr3 o ++ [13]) (1 :: b!"MSGID:") = false := by simp [startsWith]
  have t3 : startsWith (1 :: b!"INTL " ++ addr3 d ++ b!" " ++ addr3 o ++ [13]) (1 :: b!"REPLY:") = false := by simp [startsWith]
  have t4 : startsWith (1 :: b!"INTL " ++ addr3 d ++ b!" " ++ addr3 o ++ [13]) (1 :: b!"FMPT") = false := by simp [startsWith]
  have t5 : startsWith (1 :: b!"INTL " ++ addr3 d ++ b!" " ++ addr3 o ++ [13]) (1 :: b!"TOPT") = false := by simp [startsWith]
  have t6 : startsWith (1 :: b!"INTL " ++ addr3 d ++ b!" " ++ addr3 o ++ [13]) (1 :: b!"INTL") = true := by simp [startsWith]
  simp only [kRescanned, kMsgid, kReply, kFmpt, kTopt, kIntl, t1, t2, t3, t4, t5, t6, bind, Except.bind, Bool.false_eq_true, if_false, if_true, ha, h5,
    Option.some.injEq]
  rw [if_neg (by decide)]
  simp only [hv, f1, List.drop_left, List.head?_cons, if_true, List.tail_cons, f2, pd, po, setZNN]

theorem addText_ok (m : MemMsg) (l : Str) (ht : TextOK m.text) (hl : l.length + chunkLen < 2 ^ 32) :
    ∃ t, addText m l = .ok (some { m with text := t }) ∧ TextOK t ∧ t.flatten = m.text.flatten ++ l := by
  obtain ⟨t, h1, h2, h3⟩ := mmAddBuf_appends m.text l ht hl
  exact ⟨t, by simp [addText, h1, bind, Except.bind], h3, h2⟩

theorem mmAddLine_kludge (m : MemMsg) (l : Str) (m' : MemMsg) (ha : m.area = []) (hl : l.head? = some 1)
    (hk : processKludge m l = .ok m') : mmAddLine m l = addText m' l := by
  unfold mmAddLine
  rw [if_neg (by simp [ha]), if_neg (by simp [ha]), if_neg (by simp [ha]), if_pos hl]
  simp only [hk, bind, Except.bind]

/-- Feeding lines one by one composes. -/
theorem addLines_append (m : MemMsg) (as bs : List Str) (m' : MemMsg) (h : addLines m as = .ok (some m')) :
    addLines m (as ++ bs) = addLines m' bs := by
  induction as generalizing m with
  | nil => simp only [addLines, Except.ok.injEq, Option.some.injEq] at h; subst h; rfl
  | cons l as ih =>
    simp only [List.cons_append, addLines] at h ⊢
    split at h
    · simp at h
    · simp at h
    · exact ih _ h

/-- C23. The control lines written for a netmail, read into a message that has only the 2D addresses of
the packet, restore the addresses: the points always, the zones when an INTL line is written; without
one the zones the reader already had stay. The lines also stay in the text. -/
theorem netmailKludges_restore (force : Bool) (orig dest : Node4D) (m : MemMsg) (ha : m.area = [])
    (ht : TextOK m.text)
    (ho : m.orig.net = orig.net ∧ m.orig.node = orig.node ∧ m.orig.point = 0)
    (hd : m.dest.net = dest.net ∧ m.dest.node = dest.node ∧ m.dest.point = 0) :
    ∃ m', addLines m (netmailKludgeLines force orig dest) = .ok (some m') ∧
      m'.text.flatten = m.text.flatten ++ (netmailKludgeLines force orig dest).flatten ∧
      (HasIntl force orig dest → m'.orig = orig ∧ m'.dest = dest) ∧
      (¬ HasIntl force orig dest → m'.orig = { orig with zone := m.orig.zone } ∧
        m'.dest = { dest with zone := m.dest.zone }) := by
  have hlen : ∀ p : UInt16, (dec p.toNat).length ≤ 5 := dec5
  -- FMPT
  obtain ⟨m1, a1, t1, x1, o1, d1, r1⟩ : ∃ m1, addLines m
      (if orig.point ≠ 0 then [1 :: b!"FMPT " ++ dec orig.point.toNat ++ [13]] else []) = .ok (some m1) ∧
      TextOK m1.text ∧ m1.text.flatten = m.text.flatten ++
        (if orig.point ≠ 0 then [1 :: b!"FMPT " ++ dec orig.point.toNat ++ [13]] else []).flatten ∧
      m1.orig = { orig with zone := m.orig.zone } ∧ m1.dest = m.dest ∧ m1.area = [] := by
    by_cases hp : orig.point = 0
    · refine ⟨m, by simp [hp, addLines], ht, by simp [hp], ?_, rfl, ha⟩
      obtain ⟨h1, h2, h3⟩ := ho
      cases hmo : m.orig; cases orig; simp_all
    · have hk := kludge_fmpt m orig.point ha
      obtain ⟨t, e1, e2, e3⟩ := addText_ok { m with orig := { m.orig with point := orig.point } }
        (1 :: b!"FMPT " ++ dec orig.point.toNat ++ [13]) ht (by
          have := hlen orig.point; simp [chunkLen]; omega)
      refine ⟨{ m with orig := { m.orig with point := orig.point }, text := t }, ?_, e2, ?_, ?_, rfl, ha⟩
      · rw [if_pos hp]
        simp only [addLines, mmAddLine_kludge m _ _ ha (by simp) hk, e1]
      · rw [if_pos hp]; simp only [e3, List.flatten_cons, List.flatten_nil, List.append_nil]
      · obtain ⟨h1, h2, h3⟩ := ho
        cases hmo : m.orig; cases orig; simp_all
  -- TOPT
  obtain ⟨m2, a2, t2, x2, o2, d2, r2⟩ : ∃ m2, addLines m1
      (if dest.point ≠ 0 then [1 :: b!"TOPT " ++ dec dest.point.toNat ++ [13]] else []) = .ok (some m2) ∧
      TextOK m2.text ∧ m2.text.flatten = m1.text.flatten ++
        (if dest.point ≠ 0 then [1 :: b!"TOPT " ++ dec dest.point.toNat ++ [13]] else []).flatten ∧
      m2.orig = m1.orig ∧ m2.dest = { dest with zone := m.dest.zone } ∧ m2.area = [] := by
    by_cases hp : dest.point = 0
    · refine ⟨m1, by simp [hp, addLines], t1, by simp [hp], rfl, ?_, r1⟩
      rw [d1]
      obtain ⟨h1, h2, h3⟩ := hd
      cases hmo : m.dest; cases dest; simp_all
    · have hk := kludge_topt m1 dest.point r1
      obtain ⟨t, e1, e2, e3⟩ := addText_ok { m1 with dest := { m1.dest with point := dest.point } }
        (1 :: b!"TOPT " ++ dec dest.point.toNat ++ [13]) t1 (by
          have := hlen dest.point; simp [chunkLen]; omega)
      refine ⟨{ m1 with dest := { m1.dest with point := dest.point }, text := t }, ?_, e2, ?_, rfl, ?_, r1⟩
      · rw [if_pos hp]
        simp only [addLines, mmAddLine_kludge m1 _ _ r1 (by simp) hk, e1]
      · rw [if_pos hp]; simp only [e3, List.flatten_cons, List.flatten_nil, List.append_nil]
      · simp only [d1]
        obtain ⟨h1, h2, h3⟩ := hd
        cases hmo : m.dest; cases dest; simp_all
  by_cases hi : HasIntl force orig dest
  · have hk := kludge_intl m2 orig dest r2
    obtain ⟨t, e1, e2, e3⟩ := addText_ok { m2 with
        orig := { orig with point := m2.orig.point }
        dest := { dest with point := m2.dest.point } }
      (1 :: b!"INTL " ++ addr3 dest ++ b!" " ++ addr3 orig ++ [13]) t2 (by
        have h1 := addr3_length orig; have h2 := addr3_length dest; simp [chunkLen]; omega)
    have hlines : netmailKludgeLines force orig dest =
        (if orig.point ≠ 0 then [1 :: b!"FMPT " ++ dec orig.point.toNat ++ [13]] else []) ++
        (if dest.point ≠ 0 then [1 :: b!"TOPT " ++ dec dest.point.toNat ++ [13]] else []) ++
        [1 :: b!"INTL " ++ addr3 dest ++ b!" " ++ addr3 orig ++ [13]] := by
      unfold netmailKludgeLines
      rw [if_pos (show orig.zone ≠ dest.zone ∨ force = true from hi)]
      simp only [addr3, List.append_assoc, List.cons_append, List.nil_append]
    rw [hlines, List.append_assoc, addLines_append _ _ _ _ a1, addLines_append _ _ _ _ a2]
    refine ⟨_, by simp only [addLines, mmAddLine_kludge m2 _ _ r2 (by simp) hk, e1]; rfl, ?_, ?_, fun h => absurd hi h⟩
    · simp only [e3, x2, x1, List.flatten_append, List.append_assoc, List.flatten_cons, List.flatten_nil, List.append_nil]
    · intro _
      simp only [o2, o1, d2, and_self]
  · have hlines : netmailKludgeLines force orig dest =
        (if orig.point ≠ 0 then [1 :: b!"FMPT " ++ dec orig.point.toNat ++ [13]] else []) ++
        (if dest.point ≠ 0 then [1 :: b!"TOPT " ++ dec dest.point.toNat ++ [13]] else []) := by
      unfold netmailKludgeLines
      rw [if_neg (show ¬ (orig.zone ≠ dest.zone ∨ force = true) from hi), List.append_nil]
    rw [hlines, addLines_append _ _ _ _ a1]
    refine ⟨m2, a2, ?_, fun h => absurd h hi, fun _ => ⟨by rw [o2, o1], d2⟩⟩
    rw [x2, x1, List.flatten_append, List.append_assoc]

/-- C23. Control lines are written exactly when needed: FMPT and TOPT for points, INTL between zones or
when forced; three at most. -/
theorem netmailKludges_needed (force : Bool) (orig dest : Node4D) :
    (netmailKludgeLines force orig dest = [] ↔
      orig.point = 0 ∧ dest.point = 0 ∧ orig.zone = dest.zone ∧ force = false) ∧
    (netmailKludgeLines force orig dest).length ≤ 3 := by
  unfold netmailKludgeLines
  constructor
  · constructor
    · intro h
      simp only [List.append_eq_nil_iff] at h
      obtain ⟨⟨h1, h2⟩, h3⟩ := h
      refine ⟨?_, ?_, ?_, ?_⟩
      · by_cases h : orig.point = 0 <;> simp_all
      · by_cases h : dest.point = 0 <;> simp_all
      · by_cases h : orig.zone = dest.zone <;> simp_all
      · cases force <;> simp_all
    · rintro ⟨h1, h2, h3, h4⟩; simp [h1, h2, h3, h4]
  · repeat' split <;> simp

/-- C23. The header made for a netmail: the lines are what the message text starts with. -/
theorem makeNetmailKludges_text (force : Bool) (m : MemMsg) (ht : TextOK m.text) :
    ∃ t, makeNetmailKludges force m = .ok (some { m with text := t }) ∧
      t.flatten = m.text.flatten ++ (netmailKludgeLines force m.orig m.dest).flatten ∧ TextOK t := by
  have gen : ∀ (ls : List Str) (m : MemMsg), TextOK m.text → (∀ l ∈ ls, l.length + chunkLen < 2 ^ 32) →
      ∃ t, ls.foldlM (fun (o : Option MemMsg) l => match o with
        | none => (.ok none : Except UB (Option MemMsg))
        | some m => addText m l) (some m) = .ok (some { m with text := t }) ∧
        t.flatten = m.text.flatten ++ ls.flatten ∧ TextOK t := by
    intro ls
    induction ls with
    | nil => intro m ht _; exact ⟨m.text, rfl, by simp, ht⟩
    | cons l ls ih =>
      intro m ht hl
      obtain ⟨t, e1, e2, e3⟩ := addText_ok m l ht (hl l (by simp))
      obtain ⟨u, f1, f2, f3⟩ := ih { m with text := t } e2 (fun x hx => hl x (by simp [hx]))
      refine ⟨u, ?_, ?_, f3⟩
      · simp only [List.foldlM_cons, e1, bind, Except.bind]
        exact f1
      · rw [f2]; simp only [e3, List.flatten_cons, List.append_assoc]
  refine gen _ m ht ?_
  intro l hl
  have h1 := dec5 m.orig.point; have h2 := dec5 m.dest.point
  have h3 := addr3_length m.orig; have h4 := addr3_length m.dest
  unfold netmailKludgeLines at hl
  simp only [List.mem_append] at hl
  rcases hl with (hl | hl) | hl
  · split at hl
    · simp only [List.mem_singleton] at hl; subst hl; simp [chunkLen]; omega
    · simp at hl
  · split at hl
    · simp only [List.mem_singleton] at hl; subst hl; simp [chunkLen]; omega
    · simp at hl
  · split at hl
    · simp only [List.mem_singleton] at hl; subst hl
      simp only [addr3, List.length_append, List.length_cons, List.length_nil] at h3 h4
      simp [chunkLen]; omega
    · simp at hl

example : netmailKludgeLines false ⟨2, 5020, 1042, 7⟩ ⟨1, 123, 500, 0⟩ =
    [1 :: b!"FMPT 7" ++ [13], 1 :: b!"INTL 1:123/500 2:5020/1042" ++ [13]] := by decide

example : TextOK ({} : MemMsg).text ∧ HasIntl false ⟨2, 5020, 1042, 7⟩ ⟨1, 123, 500, 0⟩ := by
  refine ⟨⟨by simp, by simp⟩, ?_⟩; unfold HasIntl; decide

end CM
