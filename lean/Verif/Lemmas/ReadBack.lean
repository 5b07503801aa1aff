import Verif.Lemmas.ReadConfig
import Verif.Props.ConfigFile
import Verif.Props.Node4D
import Verif.Props.ArcName
import Verif.Lemmas.MsgBase
/-! # Reading what was written: words, addresses, lines -/
set_option linter.unusedSimpArgs false

namespace CM

/-! ## Words -/

/-- A word that needs no quotes. -/
def PlainWord (w : Str) : Prop := w ≠ [] ∧ w.head? ≠ some 34 ∧ ∀ c ∈ w, c ≠ 32 ∧ c ≠ 9 ∧ c ≠ 10 ∧ c ≠ 92

instance (w : Str) : Decidable (PlainWord w) := by unfold PlainWord; infer_instance

theorem jbstrcpy_sp (n : Nat) (s : Str) : jbstrcpy n (32 :: s) = jbstrcpy n s := by
  unfold jbstrcpy
  rw [List.dropWhile_cons, if_pos (by decide)]

theorem tokLoop_word (maxlen : Nat) (x : UInt8) (r : Str) (hx : tokStop false x = true) : ∀ (w : Str) (d : Nat),
    (∀ c ∈ w, c ≠ 32 ∧ c ≠ 9 ∧ c ≠ 10 ∧ c ≠ 92) → d + w.length < maxlen → tokLoop false maxlen d (w ++ x :: r) = (w, x :: r) := by
  intro w
  induction w with
  | nil => intro d _ _; exact tokLoop_stop false maxlen d x r hx
  | cons c w ih =>
    intro d h hl
    obtain ⟨h1, h2, h3, h4⟩ := h c (by simp)
    simp only [List.length_cons] at hl
    have hs : tokStop false c = false := by simp [tokStop, h1, h2, h3]
    rw [List.cons_append, tokLoop.eq_def]
    dsimp only
    rw [if_neg (by rw [hs]; decide), if_neg h4, if_pos (by omega), ih (d + 1) (fun c hc => h c (by simp [hc])) (by omega)]

theorem jbstrcpy_plain (n : Nat) (w : Str) (x : UInt8) (r : Str) (hw : PlainWord w) (hl : w.length < n) (hx : tokStop false x = true) :
    jbstrcpy n (w ++ x :: r) = (w, skipSep (x :: r), true) := by
  obtain ⟨h1, h2, h3⟩ := hw
  cases w with
  | nil => exact absurd rfl h1
  | cons c w =>
    have hc := h3 c (by simp)
    have hb : isBlank c = false := by simp [isBlank, hc.1, hc.2.1]
    have hq : c ≠ 34 := by simpa using h2
    unfold jbstrcpy
    have e1 : (c :: w ++ x :: r).dropWhile isBlank = c :: w ++ x :: r := by
      rw [List.cons_append, List.dropWhile_cons, if_neg (by rw [hb]; decide)]
    have e2 : ((c :: w ++ x :: r).head? == some 34) = false := by simp [hq]
    dsimp only
    rw [e1, e2]
    simp only [Bool.false_eq_true, if_false]
    rw [tokLoop_word n x r hx (c :: w) 0 h3 (by omega)]
    simp

theorem jbstrcpy_word_sp (n : Nat) (w r : Str) (hw : PlainWord w) (hl : w.length < n) : jbstrcpy n (w ++ 32 :: r) = (w, r, true) := by
  rw [jbstrcpy_plain n w 32 r hw hl (by decide)]; rfl

theorem jbstrcpy_word_lf (n : Nat) (w r : Str) (hw : PlainWord w) (hl : w.length < n) : jbstrcpy n (w ++ 10 :: r) = (w, 10 :: r, true) := by
  rw [jbstrcpy_plain n w 10 r hw hl (by decide)]; rfl

theorem jbstrcpy_lf (n : Nat) (r : Str) : jbstrcpy n (10 :: r) = ([], 10 :: r, false) := by
  unfold jbstrcpy
  rw [List.dropWhile_cons, if_neg (by decide)]
  simp [tokLoop_stop, tokStop, skipSep]

theorem wordsLoop_plain (n : Nat) : ∀ (ws : List Str) (f : Nat), (∀ w ∈ ws, PlainWord w ∧ w.length < n) → ws.length ≤ f →
    wordsLoop n f (ws.flatMap (fun w => 32 :: w) ++ [10]) = ws := by
  intro ws
  induction ws with
  | nil =>
    intro f _ _
    cases f with
    | zero => rfl
    | succ f => rw [wordsLoop]; simp [jbstrcpy_lf]
  | cons w ws ih =>
    intro f h hf
    cases f with
    | zero => simp at hf
    | succ f =>
      obtain ⟨h1, h2⟩ := h w (by simp)
      have hx : ∃ x y, tokStop false x = true ∧ ws.flatMap (fun w => 32 :: w) ++ [10] = x :: y := by
        cases ws with
        | nil => exact ⟨10, [], by decide, rfl⟩
        | cons v ws => exact ⟨32, _, by decide, rfl⟩
      have key : jbstrcpy n ((w :: ws).flatMap (fun w => 32 :: w) ++ [10]) =
          (w, skipSep (ws.flatMap (fun w => 32 :: w) ++ [10]), true) := by
        obtain ⟨x, y, h3, h4⟩ := hx
        rw [List.flatMap_cons, List.append_assoc, h4, List.cons_append, jbstrcpy_sp, jbstrcpy_plain n w x y h1 h2 h3]
      rw [wordsLoop, key, if_pos rfl]
      congr 1
      have e : ∀ f, wordsLoop n f (skipSep (ws.flatMap (fun w => 32 :: w) ++ [10])) = wordsLoop n f (ws.flatMap (fun w => 32 :: w) ++ [10]) := by
        intro f
        cases ws with
        | nil => rfl
        | cons v ws =>
          cases f with
          | zero => rfl
          | succ f =>
            rw [List.flatMap_cons, List.append_assoc, List.cons_append]
            show wordsLoop n (f + 1) (v ++ _) = _
            rw [wordsLoop, wordsLoop, jbstrcpy_sp]
      rw [e]
      exact ih f (fun v hv => h v (by simp [hv])) (by simpa using hf)

theorem flatMap_length_ge (ws : List Str) : ws.length ≤ (ws.flatMap (fun w => (32 : UInt8) :: w)).length := by
  induction ws with
  | nil => simp
  | cons w ws ih => simp only [List.flatMap_cons, List.length_append, List.length_cons]; omega

theorem rdWords_plain (n : Nat) (ws : List Str) (h : ∀ w ∈ ws, PlainWord w ∧ w.length < n) :
    rdWords n (ws.flatMap (fun w => 32 :: w) ++ [10]) = ws := by
  unfold rdWords
  apply wordsLoop_plain n ws _ h
  have := flatMap_length_ge ws
  simp only [List.length_append]
  omega

/-- The same when the first blank is gone already. -/
theorem rdWords_plain' (n : Nat) (w : Str) (ws : List Str) (h : ∀ v ∈ w :: ws, PlainWord v ∧ v.length < n) :
    rdWords n (w ++ (ws.flatMap (fun w => 32 :: w) ++ [10])) = w :: ws := by
  have key : ∀ f s, wordsLoop n f (32 :: s) = wordsLoop n f s := by
    intro f s
    cases f with
    | zero => rfl
    | succ f => rw [wordsLoop, wordsLoop, jbstrcpy_sp]
  unfold rdWords
  rw [← key]
  have := wordsLoop_plain n (w :: ws) ((w ++ (ws.flatMap (fun w => 32 :: w) ++ [10])).length + 1) h
  rw [List.flatMap_cons, List.append_assoc, List.cons_append] at this
  apply this
  have := flatMap_length_ge ws
  have := List.length_pos_iff.2 (h w (by simp)).1.1
  simp only [List.length_append, List.length_cons]
  omega

/-! ## Addresses -/

theorem digit_plain {c : UInt8} (h : isDigit c = true) : c ≠ 32 ∧ c ≠ 9 ∧ c ≠ 10 ∧ c ≠ 92 := by
  refine ⟨?_, ?_, ?_, ?_⟩ <;> (rintro rfl; revert h; decide)

theorem dec_plain (n : Nat) : PlainWord (dec n) := by
  refine ⟨dec_ne_nil n, ?_, fun c hc => digit_plain (dec_digits n c hc)⟩
  intro h
  cases hd : dec n with
  | nil => exact dec_ne_nil n hd
  | cons c r =>
    have := dec_digits n c (by rw [hd]; simp)
    rw [hd] at h
    simp only [List.head?_cons, Option.some.injEq] at h
    subst h
    revert this; decide

theorem writeNode4D_plain (n : Node4D) : PlainWord (writeNode4D n) := by
  obtain ⟨h1, h2, h3⟩ := dec_plain n.zone.toNat
  unfold writeNode4D
  refine ⟨by simp [h1], ?_, ?_⟩
  · cases hd : dec n.zone.toNat with
    | nil => exact absurd hd h1
    | cons c r => rw [hd] at h2; simpa using h2
  · intro c hc
    simp only [List.mem_append, List.mem_cons, List.not_mem_nil, or_false] at hc
    rcases hc with (((((hc | hc) | hc) | hc) | hc) | hc) | hc
    · exact h3 c hc
    · subst hc; decide
    · exact (dec_plain _).2.2 c hc
    · subst hc; decide
    · exact (dec_plain _).2.2 c hc
    · subst hc; decide
    · exact (dec_plain _).2.2 c hc

theorem writeNode4D_length (n : Node4D) : (writeNode4D n).length ≤ 23 := by
  have h : ∀ k : UInt16, (dec k.toNat).length ≤ 5 := fun k => dec_length_le (by omega) (by have := k.toNat_lt; omega)
  have h1 := h n.zone
  have h2 := h n.net
  have h3 := h n.node
  have h4 := h n.point
  simp only [writeNode4D, List.length_append, List.length_cons, List.length_nil]
  omega

theorem parse4DTemplate_writeNode4D (n tpl : Node4D) : parse4DTemplate (writeNode4D n) tpl = some n := by
  rw [parse4DTemplate_iff]
  refine ⟨⟨some (dec n.zone.toNat), some (dec n.net.toNat), some (dec n.node.toNat), dec n.point.toNat⟩,
    ⟨dec_digits _, dec_digits _, dec_digits _, dec_digits _⟩, ?_, ?_⟩
  · simp [AddrText.text, sec, writeNode4D]
  · simp [AddrText.meaning, odig, compVal_dec]

theorem rdNode_write (n : Node4D) : rdNode (writeNode4D n) = .ok n := by
  unfold rdNode parse4D
  rw [parse4DTemplate_writeNode4D]

/-! ## Lines -/

/-- Empty, or ends with a line feed. -/
def WholeLines (x : Str) : Prop := x = [] ∨ ∃ y, x = y ++ [10]

theorem linesOf_snoc (l r : Str) (h : 10 ∉ l) : linesOf (l ++ 10 :: r) = (l ++ [10]) :: linesOf r := by
  induction l with
  | nil => rw [List.nil_append, linesOf.eq_def]; simp
  | cons c l ih =>
    simp only [List.mem_cons, not_or] at h
    rw [List.cons_append, linesOf.eq_def]
    dsimp only
    rw [if_neg (fun e => h.1 e.symm), ih h.2]
    rfl

theorem linesOf_lf (y r : Str) : linesOf (y ++ 10 :: r) = linesOf (y ++ [10]) ++ linesOf r := by
  induction y with
  | nil => rw [List.nil_append, List.nil_append, linesOf.eq_def]; simp [linesOf]
  | cons c y ih =>
    rw [List.cons_append, List.cons_append, linesOf.eq_def (c :: _), linesOf.eq_def (c :: (y ++ [10]))]
    dsimp only
    by_cases hc : c = 10
    · rw [if_pos hc, if_pos hc, ih]; rfl
    · rw [if_neg hc, if_neg hc, ih]
      have : linesOf (y ++ [10]) ≠ [] := by
        cases y with
        | nil => simp [linesOf]
        | cons d y =>
          rw [List.cons_append, linesOf.eq_def]
          dsimp only
          split
          · simp
          · split <;> simp
      cases hl : linesOf (y ++ [10]) with
      | nil => exact absurd hl this
      | cons l ls => rfl

theorem linesOf_append {x : Str} (h : WholeLines x) (y : Str) : linesOf (x ++ y) = linesOf x ++ linesOf y := by
  rcases h with rfl | ⟨z, rfl⟩
  · rfl
  · rw [List.append_assoc]; exact linesOf_lf z y

/-- Reading the lines of `x` leads from one state to another. -/
def Reads (s : RdSt) (x : Str) (t : RdSt) : Prop := WholeLines x ∧ rdLines s (linesOf x) = .ok t

theorem Reads.nil (s : RdSt) : Reads s [] s := ⟨.inl rfl, rfl⟩

theorem Reads.append {s t u : RdSt} {x y : Str} (h1 : Reads s x t) (h2 : Reads t y u) : Reads s (x ++ y) u := by
  refine ⟨?_, ?_⟩
  · rcases h2.1 with rfl | ⟨z, rfl⟩
    · rw [List.append_nil]; exact h1.1
    · exact .inr ⟨x ++ z, by rw [List.append_assoc]⟩
  · rw [linesOf_append h1.1]
    unfold rdLines
    rw [List.foldlM_append]
    have := h1.2
    unfold rdLines at this
    rw [this]
    exact h2.2

theorem Reads.line {s t : RdSt} {l : Str} (hl : 10 ∉ l) (h : rdLine s (l ++ [10]) = .ok t) : Reads s (l ++ [10]) t := by
  refine ⟨.inr ⟨l, rfl⟩, ?_⟩
  rw [linesOf_snoc l [] hl]
  unfold rdLines linesOf
  rw [List.foldlM_cons, h]
  rfl

theorem Reads.ite {s t : RdSt} {c : Prop} [Decidable c] {x : Str} (h : c → Reads s x t) (h' : ¬ c → t = s) :
    Reads s (if c then x else []) t := by
  by_cases hc : c
  · rw [if_pos hc]; exact h hc
  · rw [if_neg hc, h' hc]; exact .nil s

theorem writeSafely_oneLine {s out : Str} (h : writeSafely s = .ok out) (hs : 10 ∉ s) : 10 ∉ out := by
  have : out = b!"\"" ++ escape s ++ b!"\"" := by
    unfold writeSafely at h
    split at h
    · cases h; rfl
    · cases h
  rw [this, escape_eq]
  simp only [List.mem_append, List.mem_cons, List.not_mem_nil, or_false, List.mem_flatMap, not_or, not_exists, not_and]
  refine ⟨⟨by decide, fun c hc => ?_⟩, by decide⟩
  have : c ≠ 10 := fun e => hs (e ▸ hc)
  split <;> simp [Ne.symm this]

theorem plain_oneLine {w : Str} (h : PlainWord w) : 10 ∉ w := fun hc => (h.2.2 10 hc).2.2.1 rfl

/-! ## Ten words per line -/

theorem tenLoop_mod (kw : Str) : ∀ (ws : List Str) (c d : Nat), c ≠ 0 → d ≠ 0 → c % 10 = d % 10 → tenLoop kw c ws = tenLoop kw d ws := by
  intro ws
  induction ws with
  | nil => intro c d hc hd _; simp [tenLoop, hc, hd]
  | cons w ws ih =>
    intro c d hc hd h
    rw [tenLoop, tenLoop, h, ih (c + 1) (d + 1) (by omega) (by omega) (by omega)]
    simp [hc, hd]

theorem tenLoop_rest (kw : Str) : ∀ (ws : List Str) (c k : Nat), c % 10 ≠ 0 → k + c % 10 = 10 →
    tenLoop kw c ws = (ws.take k).flatMap (fun w => 32 :: w) ++ [10] ++ tenLoop kw 0 (ws.drop k) := by
  intro ws
  induction ws with
  | nil =>
    intro c k hc hk
    have : c ≠ 0 := by rintro rfl; exact hc rfl
    simp [tenLoop, this]
  | cons w ws ih =>
    intro c k hc hk
    obtain ⟨k, rfl⟩ : ∃ j, k = j + 1 := ⟨k - 1, by omega⟩
    rw [tenLoop, if_neg hc, List.take_succ_cons, List.drop_succ_cons, List.flatMap_cons]
    by_cases h0 : k = 0
    · subst h0
      rw [List.take_zero, List.drop_zero]
      cases ws with
      | nil => simp [tenLoop]
      | cons v ws =>
        rw [tenLoop, tenLoop, if_pos (by omega), if_pos (by omega), if_pos rfl, if_neg (by simp), tenLoop_mod kw ws (c + 1 + 1) (0 + 1) (by omega) (by omega) (by omega)]
        simp
    · rw [ih (c + 1) k (by omega) (by omega)]
      simp

theorem tenLoop_lines (kw w : Str) (ws : List Str) :
    tenLoop kw 0 (w :: ws) = kw ++ (w :: ws.take 9).flatMap (fun w => 32 :: w) ++ [10] ++ tenLoop kw 0 (ws.drop 9) := by
  rw [tenLoop, tenLoop_rest kw ws (0 + 1) 9 (by omega) (by omega)]
  simp

/-- Reading the lines of a list: `add` is what one line with the words of some elements does. -/
theorem reads_tenLoop {σ τ : Type} (S : σ → RdSt) (P : σ → Prop) (add : σ → List τ → σ) (g : τ → Str) (kw : Str) (G : τ → Prop)
    (h0 : ∀ a, add a [] = a) (h1 : ∀ a x y, add (add a x) y = add a (x ++ y)) (hP : ∀ a x, P a → P (add a x))
    (hkw : 10 ∉ kw) (hg : ∀ t, G t → 10 ∉ g t)
    (hl : ∀ a t ts, P a → (∀ x ∈ t :: ts, G x) →
      rdLine (S a) (kw ++ ((t :: ts).map g).flatMap (fun w => 32 :: w) ++ [10]) = .ok (S (add a (t :: ts)))) :
    ∀ (n : Nat) (ts : List τ), ts.length ≤ n → (∀ t ∈ ts, G t) → ∀ a, P a → Reads (S a) (tenLoop kw 0 (ts.map g)) (S (add a ts)) := by
  intro n
  induction n with
  | zero =>
    intro ts hn _ a _
    have : ts = [] := List.length_eq_zero_iff.1 (by omega)
    subst this
    rw [h0]
    exact .nil _
  | succ n ih =>
    intro ts hn hG a ha
    cases ts with
    | nil => rw [h0]; exact .nil _
    | cons t ts =>
      rw [List.map_cons, tenLoop_lines, ← List.map_take, ← List.map_drop, ← List.map_cons]
      have e : add a (t :: ts) = add (add a (t :: ts.take 9)) (ts.drop 9) := by
        rw [h1, List.cons_append, List.take_append_drop]
      rw [e]
      have hG' : ∀ x ∈ t :: ts.take 9, G x := by
        intro x hx
        rcases List.mem_cons.1 hx with rfl | hx
        · exact hG _ (by simp)
        · exact hG x (List.mem_cons_of_mem _ (List.mem_of_mem_take hx))
      refine .append (.line ?_ (hl a t (ts.take 9) ha hG')) (ih (ts.drop 9) ?_ ?_ _ (hP _ _ ha))
      · intro hc
        rcases List.mem_append.1 hc with hc | hc
        · exact hkw hc
        · obtain ⟨w, hw, hc⟩ := List.mem_flatMap.1 hc
          obtain ⟨x, hx, rfl⟩ := List.mem_map.1 hw
          rcases List.mem_cons.1 hc with hc | hc
          · revert hc; decide
          · exact hg x (hG' x hx) hc
      · simp only [List.length_cons] at hn
        rw [List.length_drop]; omega
      · intro x hx
        exact hG x (List.mem_cons_of_mem _ (List.mem_of_mem_drop hx))

end CM
