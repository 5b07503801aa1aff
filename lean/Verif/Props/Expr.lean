import Verif.Lemmas.Expr
set_option linter.unusedSimpArgs false
/-! # C34: filter expressions -/

namespace CM
open FExp

/-- The operand with its outer parentheses removed and `NOT` pushed inside. -/
def strip1 : FExp → FExp
  | .group false e => e
  | .group true (.atom _ s) => .atom true s
  | .group true (.group _ e) => .group true e
  | e => e

theorem strip1_spec (ev : Str → Option Bool) (o : FExp) (hw : o.WF) (hn : o.NotSimple) (hop : o.isOperand = true) :
    (strip1 o).text = stripped o ∧ (strip1 o).WF ∧ (strip1 o).NotSimple ∧
      (strip1 o).rightVal ev = o.rightVal ev ∧
      ((strip1 o) = o ∧ (∃ n s, o = .atom n s) ∨ (strip1 o).text.length < o.text.length) := by
  cases o with
  | chain _ _ _ => simp [isOperand] at hop
  | atom n s => exact ⟨rfl, hw, hn, rfl, .inl ⟨rfl, n, s, rfl⟩⟩
  | group n e =>
    cases n with
    | false =>
      refine ⟨by simp [strip1, stripped, notText], hw, hn.1, ?_, .inr ?_⟩
      · simp [strip1, rightVal, sign]
      · simp [strip1, text]; omega
    | true =>
      have hs := hn.2 rfl
      cases e with
      | chain _ _ _ => exact absurd hs (by simp [Single])
      | atom n s =>
        have hs : n = false := hs
        subst hs
        refine ⟨by simp [strip1, stripped, text, notText], hw, trivial, ?_, .inr ?_⟩
        · simp [strip1, rightVal, sign]
        · simp [strip1, text, notText]
      | group n e =>
        obtain ⟨rfl, hs⟩ : n = false ∧ e.Single := hs
        refine ⟨by simp [strip1, stripped, text, notText], hw, ⟨hn.1.1, fun _ => hs⟩, ?_, .inr ?_⟩
        · simp [strip1, rightVal, sign]
        · simp [strip1, text, notText]

theorem exprPair_and (a b : Option Bool) :
    exprPair (· && ·) (.ok (some a)) (.ok (some b)) = .ok (some (step true a b)) := by
  cases a <;> cases b <;> rfl
theorem exprPair_or (a b : Option Bool) :
    exprPair (· || ·) (.ok (some a)) (.ok (some b)) = .ok (some (step false a b)) := by
  cases a <;> cases b <;> rfl
theorem exprPair_ne {op : Bool → Bool → Bool} {a b : Except UB (Option (Option Bool))} (ha : a ≠ .ok none)
    (hb : b ≠ .ok none) : exprPair op a b ≠ .ok none := by
  rcases a with e | (_ | (_ | a))
  · simp [exprPair]
  · exact absurd rfl ha
  · simp [exprPair]
  · rcases b with e | (_ | b)
    · simp [exprPair, Except.map]
    · exact absurd rfl hb
    · simp [exprPair, Except.map]
theorem map_ne_none {g : Option Bool → Option Bool} {a : Except UB (Option (Option Bool))}
    (ha : a ≠ .ok none) : (a.map fun r => r.map g) ≠ .ok none := by
  rcases a with e | (_ | a)
  · simp [Except.map]
  · exact absurd rfl ha
  · simp [Except.map]

/-- Statements that evaluate without undefined behaviour. -/
def pureEv (ev : Str → Option Bool) (s : Str) : Except UB (Option Bool) := .ok (ev s)

theorem exprNot_eq (v : Option Bool) : exprNot v = sign true v := by cases v <;> rfl

/-- What `expr_eval` computes, with any sufficient fuel. -/
theorem exprEval_right (ev : Str → Option Bool) (n : Nat) : ∀ (e : FExp) (f : Nat), e.text.length ≤ n →
    n < f → e.WF → e.NotSimple → exprEval (pureEv ev) f e.text = .ok (some (e.rightVal ev)) := by
  induction n with
  | zero =>
    intro e f h _ hw
    exact absurd (List.length_eq_zero_iff.1 (by omega)) (text_ne_nil e hw)
  | succ n ih =>
    intro e f hl hf hw hn
    obtain ⟨f, rfl⟩ : ∃ f', f = f' + 1 := ⟨f - 1, by omega⟩
    cases e with
    | atom neg s =>
      have hg := exprGet_operand (.atom neg s) hw rfl [] (.inl rfl)
      rw [List.append_nil] at hg
      have hst : stripped (.atom neg s) = (FExp.atom neg s).text := rfl
      rw [hst] at hg
      simp only [exprEval, hg, exprGet_nil, if_true]
      cases neg with
      | false =>
        have h2 : eqin (FExp.atom false s).text b!"NOT " 4 = false := by
          have := statement_not_not (s := s) (rest := []) hw (.inl rfl)
          simpa [text, notText] using this
        rw [h2]
        simp [text, notText, rightVal, sign, pureEv, Except.map]
      | true =>
        have h2 : eqin (FExp.atom true s).text b!"NOT " 4 = true := by
          simp [text, notText, eqin, lower]
        rw [h2, if_pos rfl]
        have h3 : (FExp.atom true s).text.drop 4 = (FExp.atom false s).text := by simp [text, notText]
        have hlen : (FExp.atom false s).text.length ≤ n := by
          simp [text, notText] at hl ⊢; omega
        rw [h3, ih (.atom false s) f hlen (by omega) hw trivial]
        simp [exprNot_eq, rightVal, sign, Except.map]
    | group neg e =>
      have hg := exprGet_operand (.group neg e) hw rfl [] (.inl rfl)
      rw [List.append_nil] at hg
      obtain ⟨h1, h2, h3, h4, h5⟩ := strip1_spec ev (.group neg e) hw hn rfl
      have h5 : (strip1 (.group neg e)).text.length < (FExp.group neg e).text.length := by
        rcases h5 with ⟨_, _, _, h⟩ | h
        · cases h
        · exact h
      rw [← h1] at hg
      have hne : (strip1 (.group neg e)).text ≠ (FExp.group neg e).text := by
        intro h; rw [h] at h5; omega
      simp only [exprEval, hg, exprGet_nil, if_true, if_neg hne]
      rw [ih _ f (by omega) (by omega) h2 h3, h4]
    | chain isAnd l r =>
      obtain ⟨hwl, hwr, hop⟩ := hw
      obtain ⟨hnl, hnr⟩ := hn
      obtain ⟨h1, h2, h3, h4, h5⟩ := strip1_spec ev l hwl hnl hop
      have hlen : l.text.length + r.text.length < (FExp.chain isAnd l r).text.length := by
        cases isAnd <;> simp [text] <;> omega
      have hrl : 0 < r.text.length := List.length_pos_iff.2 (text_ne_nil r hwr)
      have h5 : (strip1 l).text.length ≤ l.text.length := by
        rcases h5 with ⟨h, _⟩ | h
        · rw [h]; omega
        · omega
      have hl1 := ih (strip1 l) f (by omega) (by omega) h2 h3
      have hr1 := ih r f (by omega) (by omega) hwr hnr
      have ht : (FExp.chain isAnd l r).text =
          l.text ++ ((if isAnd then b!" AND " else b!" OR ") ++ r.text) := rfl
      have hg := exprGet_operand l hwl hop ((if isAnd then b!" AND " else b!" OR ") ++ r.text)
        (.inr (by cases isAnd <;> rfl))
      rw [← ht, ← h1] at hg
      have hrn := text_ne_nil r hwr
      cases isAnd with
      | true =>
        have hg2 := exprGet_and r.text
        have : ((if true = true then b!" AND " else b!" OR ") ++ r.text) = 32 :: 65 :: 78 :: 68 :: 32 :: r.text := rfl
        rw [this] at hg
        simp only [exprEval, hg, hg2, exprRest_text r hwr]
        rw [if_neg (by simp), if_pos (by decide), if_neg hrn, hl1, hr1]
        simp only [rightVal, ← h4, exprPair_and]
      | false =>
        have hg2 := exprGet_or r.text
        have : ((if false = true then b!" AND " else b!" OR ") ++ r.text) = 32 :: 79 :: 82 :: 32 :: r.text := rfl
        rw [this] at hg
        simp only [exprEval, hg, hg2, exprRest_text r hwr]
        rw [if_neg (by simp), if_neg (by decide), if_pos (by decide), if_neg hrn, hl1, hr1]
        simp only [rightVal, ← h4, exprPair_or]

/-! ## The recursion always ends -/

theorem exprWord_length (q : Bool) (s : Str) : (exprWord q s).1.length + (exprWord q s).2.length = s.length := by
  induction s generalizing q with
  | nil => simp [exprWord]
  | cons c r ih =>
    simp only [exprWord]
    split
    · simp
    · split
      · simp; omega
      · simp; have := ih (q || c == 34); omega

theorem closeParen_length (n : Nat) (s : Str) (t : Str × Str) (h : closeParen (n + 1) s = some t) :
    t.1.length + t.2.length < s.length := by
  induction s generalizing n t with
  | nil => simp [closeParen] at h
  | cons c r ih =>
    simp only [closeParen] at h
    split at h
    · simp at h; subst h; simp
    · rename_i hc
      simp only [Option.map_eq_some_iff] at h
      obtain ⟨u, hu, rfl⟩ := h
      have : ∃ k, (if c = 40 then n + 2 else if c = 41 then n else n + 1) = k + 1 := by
        split
        · exact ⟨n + 1, rfl⟩
        · split
          · rename_i h41
            cases n with
            | zero => exact absurd ⟨h41, rfl⟩ hc
            | succ n => exact ⟨n, rfl⟩
          · exact ⟨n, rfl⟩
      obtain ⟨k, hk⟩ := this
      rw [hk] at hu
      have := ih k u hu
      simp; omega

theorem exprOperand_length {pre s : Str} {t : Str × Str} (h : exprOperand pre s = some t) :
    t.1.length + t.2.length ≤ pre.length + s.length := by
  unfold exprOperand at h
  split at h
  · simp only [Option.map_eq_some_iff] at h
    obtain ⟨u, hu, rfl⟩ := h
    have := closeParen_length 0 _ u hu
    simp; omega
  · simp at h
    subst h
    have := exprWord_length false s
    simp; omega

theorem exprGet_length {s : Str} {t : Str × Str} (h : exprGet s = some t) :
    t.1.length + t.2.length ≤ s.length := by
  have hd := (List.dropWhile_suffix (l := s) (· == 32)).length_le
  simp only [exprGet] at h
  split at h
  · rename_i h4
    have := exprOperand_length h
    have hl : 4 ≤ (s.dropWhile (· == 32)).length := by
      have : ((s.dropWhile (· == 32)).take 4).length = 4 := by
        have h4 := congrArg List.length (beq_iff_eq.1 h4)
        simpa using h4
      simp at this; omega
    simp at this; omega
  · have := exprOperand_length h
    simp at this; omega

/-- A statement of full length that is not the string itself differs only in the case of `NOT`; it is
the operand of itself. -/
theorem exprGet_same_length {s e1 s1 : Str} (h : exprGet s = some (e1, s1)) (hl : e1.length = s.length)
    (hne : e1 ≠ s) : s1 = [] ∧ exprGet e1 = some (e1, []) ∧ eqin e1 b!"NOT " 4 = true ∧ 4 ≤ e1.length := by
  have hd := (List.dropWhile_suffix (l := s) (· == 32)).length_le
  have hle := exprGet_length h
  have hs1 : s1 = [] := List.length_eq_zero_iff.1 (by simp at hle; omega)
  subst hs1
  simp only [exprGet] at h
  generalize hw : s.dropWhile (· == 32) = w at h hd
  split at h
  · rename_i h4
    have hl4 : 4 ≤ w.length := by
      have h4 := congrArg List.length (beq_iff_eq.1 h4)
      simp at h4; omega
    have h' := exprOperand_length h
    have hop := h
    unfold exprOperand at hop
    split at hop
    · rename_i r heq
      simp only [Option.map_eq_some_iff] at hop
      obtain ⟨u, hu, hu2⟩ := hop
      have := closeParen_length 0 _ u hu
      have h1 := congrArg (fun x => x.1.length) hu2
      have h2 := congrArg List.length heq
      simp at h1 h2; omega
    · rename_i hx
      simp only [Option.some.injEq, Prod.mk.injEq] at hop
      have hww := exprWord_length false (w.drop 4)
      have hword : (exprWord false (w.drop 4)).1 = w.drop 4 ∧ (exprWord false (w.drop 4)).2 = [] := by
        refine ⟨?_, hop.2⟩
        have : ∀ (q : Bool) (s : Str), (exprWord q s).2 = [] → (exprWord q s).1 = s := by
          intro q s
          induction s generalizing q with
          | nil => simp [exprWord]
          | cons c r ih =>
            simp only [exprWord]
            split
            · simp
            · split
              · simp
              · intro h; simp only [] at h; simp [ih _ h]
        exact this _ _ hop.2
      have he1 : e1 = b!"NOT " ++ w.drop 4 := by rw [← hop.1, hword.1]
      refine ⟨rfl, ?_, ?_, ?_⟩
      · rw [he1, exprGet_not, h, he1]
      · rw [he1]; simp [eqin, lower]
      · rw [he1]; simp
  · exfalso
    have hop := h
    unfold exprOperand at hop
    split at hop
    · rename_i r
      simp only [Option.map_eq_some_iff] at hop
      obtain ⟨u, hu, hu2⟩ := hop
      have := closeParen_length 0 _ u hu
      have h1 := congrArg (fun x => x.1.length) hu2
      simp at h1 hd; omega
    · simp only [Option.some.injEq, Prod.mk.injEq, List.nil_append] at hop
      have hww := exprWord_length false w
      rw [hop.1, hop.2] at hww
      have hwl : w.length = s.length := by simp at hww; omega
      have hws : w = s := by
        rw [← hw]
        exact (List.dropWhile_suffix (l := s) (· == 32)).eq_of_length (by rw [hw]; exact hwl)
      have : ∀ (q : Bool) (s : Str), (exprWord q s).2 = [] → (exprWord q s).1 = s := by
          intro q s
          induction s generalizing q with
          | nil => simp [exprWord]
          | cons c r ih =>
            simp only [exprWord]
            split
            · simp
            · split
              · simp
              · intro h; simp only [] at h; simp [ih _ h]
      exact hne (by rw [← hop.1, this _ _ hop.2, hws])

/-- The recursion of `expr_eval` ends for every string. -/
theorem exprEval_total (ev : Str → Except UB (Option Bool)) (n : Nat) :
    ∀ (s : Str) (f : Nat), s.length ≤ n → 2 * n + 2 < f → exprEval ev f s ≠ .ok none := by
  induction n using Nat.strongRecOn with
  | ind n ih =>
  intro s f hl hf
  -- a recursive call on something shorter
  have shorter : ∀ (t : Str) (f' : Nat), t.length < n → 2 * n < f' → exprEval ev f' t ≠ .ok none := by
    intro t f' h1 h2
    exact ih t.length h1 t f' (Nat.le_refl _) (by omega)
  obtain ⟨f, rfl⟩ : ∃ f', f = f' + 1 := ⟨f - 1, by omega⟩
  unfold exprEval
  cases h1 : exprGet s with
  | none => simp
  | some t1 =>
    obtain ⟨e1, s1⟩ := t1
    simp only []
    have l1 := exprGet_length h1
    cases h2 : exprGet s1 with
    | none => simp
    | some t2 =>
      obtain ⟨e2, s2⟩ := t2
      have l2 := exprGet_length h2
      simp only [] at l1 l2 ⊢
      have l3 : (exprRest s2).length ≤ s2.length := (List.dropWhile_suffix (l := s2) (· == 32)).length_le
      by_cases he2 : e2 = []
      · rw [if_pos he2]
        by_cases he1 : e1 = s
        · rw [if_pos he1]
          split
          · rename_i h4
            have hl4 : 4 ≤ e1.length := by
              have h4 := congrArg List.length (beq_iff_eq.1 h4)
              simp at h4; omega
            have := shorter (e1.drop 4) f (by simp; omega) (by omega)
            exact map_ne_none this
          · cases ev e1 <;> simp [Except.map]
        · rw [if_neg he1]
          by_cases hlen : e1.length = s.length
          · obtain ⟨rfl, hg, h4, hl4⟩ := exprGet_same_length h1 hlen he1
            obtain ⟨f, rfl⟩ : ∃ f', f = f' + 1 := ⟨f - 1, by omega⟩
            unfold exprEval
            simp only [hg, exprGet_nil, if_true, h4]
            have := shorter (e1.drop 4) f (by simp; omega) (by omega)
            exact map_ne_none this
          · exact shorter e1 f (by omega) (by omega)
      · rw [if_neg he2]
        have hp : 0 < e2.length := List.length_pos_iff.2 he2
        have r1 := shorter e1 f (by omega) (by omega)
        have r3 := shorter (exprRest s2) f (by omega) (by omega)
        split
        · split
          · simp
          · exact exprPair_ne r1 r3
        · split
          · split
            · simp
            · exact exprPair_ne r1 r3
          · simp

theorem exprEval_fuel (ev : Str → Except UB (Option Bool)) (s : Str) : exprEval ev (exprFuel s) s ≠ .ok none :=
  exprEval_total ev s.length s _ (Nat.le_refl _) (by unfold exprFuel; omega)

/-- Outside negated groups of more than one operand, the code computes the value with AND and OR
grouped from the right. -/
theorem evalExpr_right (ev : Str → Option Bool) (e : FExp) (hw : e.WF) (hn : e.NotSimple) :
    evalExpr (pureEv ev) e.text = .ok (e.rightVal ev) := by
  unfold evalExpr
  rw [exprEval_right ev e.text.length e _ (Nat.le_refl _) (by unfold exprFuel; omega) hw hn]
  rfl

theorem step_assoc (op : Bool) (a b c : Option Bool) : step op (step op a b) c = step op a (step op b c) := by
  cases op <;> cases a <;> cases b <;> cases c <;> simp [step, Bool.and_assoc, Bool.or_assoc]

theorem docVal_right (ev : Str → Option Bool) (e : FExp) (hw : e.WF) (hu : e.Unmixed) :
    (∀ op a, e.Uniform op → docVal ev (some (a, op)) e = step op a (e.rightVal ev)) ∧
      docVal ev none e = e.rightVal ev := by
  induction e with
  | atom neg s => exact ⟨fun _ _ _ => rfl, rfl⟩
  | group neg e ih =>
    have h := (ih hw hu).2
    exact ⟨fun op a _ => by simp [docVal, rightVal, h], by simp [docVal, rightVal, h]⟩
  | chain isAnd l r ihl ihr =>
    obtain ⟨hwl, hwr, hop⟩ := hw
    obtain ⟨hul, hur, hun⟩ := hu
    have hl := ihl hwl hul
    have hr := ihr hwr hur
    have hlu : ∀ op, l.Uniform op := by
      intro op
      cases l <;> simp [isOperand] at hop <;> trivial
    constructor
    · intro op a hop'
      obtain ⟨rfl, _⟩ := hop'
      simp only [docVal, rightVal, hl.1 isAnd a (hlu _), hr.1 isAnd _ hun, step_assoc]
    · simp only [docVal, rightVal, hl.2, hr.1 isAnd _ hun]

/-- **C34** (partial: no mixing of AND and OR on one level, NOT only before a single operand). The value
computed for the text of an expression is the documented one. -/
theorem evalExpr_documented_partial (ev : Str → Option Bool) (e : FExp) (hw : e.WF) (hn : e.NotSimple)
    (hu : e.Unmixed) : evalExpr (pureEv ev) e.text = .ok (e.value ev) := by
  rw [evalExpr_right ev e hw hn, value, (docVal_right ev e hw hu).2]

/-- A statement evaluator for the examples: the statement is its own truth value. -/
def evBit (s : Str) : Option Bool :=
  if s = b!"F=0" then some false else if s = b!"T=1" then some true else none

example : evalExpr (pureEv evBit) b!"NOT F=0 AND (T=1 OR F=0 OR F=0) AND NOT (F=0)" = .ok (some true) := by decide +kernel

example : (FExp.chain true (.atom true b!"F=0") (.chain true (.group false (.chain false (.atom false b!"T=1")
    (.atom false b!"F=0"))) (.group true (.atom false b!"F=0")))).WF ∧
    (FExp.chain true (.atom true b!"F=0") (.chain true (.group false (.chain false (.atom false b!"T=1")
    (.atom false b!"F=0"))) (.group true (.atom false b!"F=0")))).NotSimple := by
  refine ⟨⟨?_, ⟨⟨?_, ?_, rfl⟩, ?_, rfl⟩, rfl⟩, ?_⟩
  all_goals first
    | exact ⟨_, [], by decide, by decide, by decide, .inl rfl⟩
    | simp [NotSimple, Single]

/-- C34 fails in general: `a AND b OR c` is not evaluated from left to right. -/
theorem evalExpr_mixed_wrong : ∃ e : FExp, e.NotSimple ∧ e.text = b!"F=0 AND T=1 OR T=1" ∧
    e.value evBit = some true ∧ evalExpr (pureEv evBit) e.text = .ok (some false) :=
  ⟨.chain true (.atom false b!"F=0") (.chain false (.atom false b!"T=1") (.atom false b!"T=1")),
    ⟨trivial, trivial, trivial⟩, by decide +kernel, by decide +kernel, by decide +kernel⟩

/-- C34 fails in general: `NOT (a OR b)` negates only the first operand of the group. -/
theorem evalExpr_not_group_wrong : ∃ e : FExp, e.Unmixed ∧ e.text = b!"NOT (F=0 OR T=1)" ∧
    e.value evBit = some false ∧ evalExpr (pureEv evBit) e.text = .ok (some true) :=
  ⟨.group true (.chain false (.atom false b!"F=0") (.atom false b!"T=1")),
    ⟨trivial, trivial, trivial⟩, by decide +kernel, by decide +kernel, by decide +kernel⟩

/-- C34 fails in general: a negated statement in a negated group is rejected. -/
theorem evalExpr_not_not_wrong : ∃ e : FExp, e.Unmixed ∧ e.text = b!"NOT (NOT F=0)" ∧
    e.value evBit = some false ∧ evalExpr (pureEv evBit) e.text = .ok none :=
  ⟨.group true (.atom true b!"F=0"), trivial, by decide +kernel, by decide +kernel, by decide +kernel⟩

/-- C34 fails in general: a parenthesis inside quotes ends the group. -/
theorem evalExpr_quoted_paren_wrong (ev : Str → Except UB (Option Bool)) :
    evalExpr ev b!"(SUBJECT=\"x)\" OR T=1)" = .ok none := by
  have hg : exprGet b!"(SUBJECT=\"x)\" OR T=1)" = some (b!"SUBJECT=\"x", b!"\" OR T=1)") := by decide +kernel
  have hg2 : exprGet b!"\" OR T=1)" = some (b!"\" OR T=1)", []) := by decide +kernel
  have hf : exprFuel b!"(SUBJECT=\"x)\" OR T=1)" = 44 + 1 := by decide +kernel
  unfold evalExpr
  rw [hf]
  unfold exprEval
  simp only [hg, hg2]
  rw [if_neg (by decide), if_neg (by decide), if_neg (by decide)]
  rfl

end CM
