import Verif.Model.Expr
import Verif.Spec.Expr
import Verif.Lemmas.Base
set_option linter.unusedSimpArgs false
/-! # Lemmas about filter expressions -/

namespace CM
open FExp

/-- Start of `rest` as seen after an operand: the end or a blank. -/
def AtEnd (rest : Str) : Prop := rest = [] ∨ rest.head? = some 32

theorem exprWord_word (w rest : Str) (hw : ∀ c ∈ w, c ≠ 32 ∧ c ≠ 34 ∧ c ≠ 40 ∧ c ≠ 41) (hr : AtEnd rest) :
    exprWord false (w ++ rest) = (w, rest) := by
  induction w with
  | nil =>
    rcases hr with rfl | hr
    · simp [exprWord]
    · cases rest with
      | nil => simp at hr
      | cons c r => simp at hr; subst hr; simp [exprWord]
  | cons c w ih =>
    have hc := hw c (by simp)
    have := ih (fun c h => hw c (by simp [h]))
    simp only [List.cons_append, exprWord]
    rw [if_neg (by simp [hc.1]), if_neg (by simp)]
    have : (false || c == 34) = false := by simp [hc.2.1]
    simp only [this, *]

theorem exprWord_quote (q rest : Str) (hq : ∀ c ∈ q, c ≠ 34 ∧ c ≠ 40 ∧ c ≠ 41) :
    exprWord true (q ++ 34 :: rest) = (q ++ [34], rest) := by
  induction q with
  | nil => simp [exprWord]
  | cons c q ih =>
    have hc := hq c (by simp)
    have ih := ih (fun c h => hq c (by simp [h]))
    simp only [List.cons_append, exprWord]
    rw [if_neg (by simp), if_neg (by simp [hc.1])]
    have : (true || c == 34) = true := rfl
    simp only [this, ih]

theorem exprWord_wordquote (w q rest : Str) (hw : ∀ c ∈ w, c ≠ 32 ∧ c ≠ 34 ∧ c ≠ 40 ∧ c ≠ 41)
    (hq : ∀ c ∈ q, c ≠ 34 ∧ c ≠ 40 ∧ c ≠ 41) :
    exprWord false (w ++ 34 :: (q ++ 34 :: rest)) = (w ++ 34 :: (q ++ [34]), rest) := by
  induction w with
  | nil =>
    simp only [List.nil_append, exprWord]
    rw [if_neg (by simp), if_neg (by simp)]
    have : (false || (34 : UInt8) == 34) = true := by decide
    simp only [this, exprWord_quote q rest hq]
  | cons c w ih =>
    have hc := hw c (by simp)
    have := ih (fun c h => hw c (by simp [h]))
    simp only [List.cons_append, exprWord]
    rw [if_neg (by simp [hc.1]), if_neg (by simp)]
    have : (false || c == 34) = false := by simp [hc.2.1]
    simp only [this, *]

theorem statement_word {s rest : Str} (hs : Statement s) (hr : AtEnd rest) :
    exprWord false (s ++ rest) = (s, rest) := by
  obtain ⟨w, q, hw, _, _, rfl | ⟨hq, rfl⟩⟩ := hs
  · exact exprWord_word _ _ hw hr
  · have := exprWord_wordquote w q rest hw hq
    simpa using this

theorem statement_head {s : Str} (hs : Statement s) :
    ∃ c r, s = c :: r ∧ c ≠ 32 ∧ c ≠ 40 ∧ c ≠ 34 := by
  obtain ⟨w, q, hw, hne, _, h⟩ := hs
  cases w with
  | nil => exact absurd rfl hne
  | cons c w =>
    have hc := hw c (by simp)
    rcases h with rfl | ⟨_, rfl⟩
    · exact ⟨c, w, rfl, hc.1, hc.2.2.1, hc.2.1⟩
    · exact ⟨c, _, rfl, hc.1, hc.2.2.1, hc.2.1⟩

theorem statement_noparen {s : Str} (hs : Statement s) : ∀ c ∈ s, c ≠ 40 ∧ c ≠ 41 := by
  obtain ⟨w, q, hw, hne, _, rfl | ⟨hq, rfl⟩⟩ := hs
  · intro c hc; exact (hw c hc).2.2
  · intro c hc
    simp at hc
    rcases hc with h | h | h | h
    · exact (hw c h).2.2
    · subst h; decide
    · exact (hq c h).2
    · subst h; decide

theorem lower_32 : ∀ c : UInt8, lower c = 32 → c = 32 := by decide +kernel

theorem map_lower_append_inj {a b c d : Str} (h : a.length = b.length)
    (e : (a ++ c).map lower = (b ++ d).map lower) : a.map lower = b.map lower := by
  simp only [List.map_append] at e
  exact (List.append_inj e (by simp [h])).1

/-- A statement followed by a blank or the end does not look like `NOT `. -/
theorem statement_not_not {s rest : Str} (hs : Statement s) (hr : AtEnd rest) : eqin (s ++ rest) b!"NOT " 4 = false := by
  obtain ⟨w, q, hw, hne, hn, h⟩ := hs
  cases hb : eqin (s ++ rest) b!"NOT " 4 with
  | false => rfl
  | true =>
    exfalso
    have hb : ((s ++ rest).take 4).map lower = [110, 111, 116, 32] := by simpa [eqin, lower] using hb
    -- the first four bytes
    have hs4 : ∀ i, i < w.length → (s ++ rest)[i]? = w[i]? := by
      intro i hi
      rcases h with rfl | ⟨_, rfl⟩
      · rw [List.getElem?_append_left hi]
      · rw [List.getElem?_append_left (by simp; omega), List.getElem?_append_left hi]
    have key : ∀ i, i < 4 → ((s ++ rest)[i]?).map lower = ([110, 111, 116, 32] : Str)[i]? := by
      intro i hi
      rw [← hb, List.getElem?_map, List.getElem?_take, if_pos hi]
    by_cases h3 : 3 < w.length
    · have h' := key 3 (by omega)
      rw [hs4 3 h3, List.getElem?_eq_getElem h3] at h'
      simp at h'
      exact (hw _ (List.getElem_mem h3)).1 (lower_32 _ h')
    · by_cases hl : w.length = 3
      · -- then w is NOT
        have hw3 : w.map lower = [110, 111, 116] := by
          apply List.ext_getElem?
          intro i
          by_cases hi : i < 3
          · have h' := key i (by omega)
            rw [hs4 i (by omega)] at h'
            rw [List.getElem?_map, h']
            match i, hi with
            | 0, _ => rfl
            | 1, _ => rfl
            | 2, _ => rfl
          · rw [List.getElem?_eq_none (by simp; omega), List.getElem?_eq_none (by simp; omega)]
        have : eqi w b!"NOT" = true := by
          simp only [eqi, hw3]; decide
        rw [this] at hn; simp at hn
      · -- the byte at w.length is a quote, a blank or the end
        have hlt : w.length < 3 := by omega
        have h0 : 0 < w.length := List.length_pos_iff.2 hne
        rcases h with rfl | ⟨_, rfl⟩
        · cases rest with
          | nil =>
            have h' := key s.length (by omega)
            simp at h'
            have : s.length = 1 ∨ s.length = 2 := by omega
            rcases this with h'' | h'' <;> simp [h''] at h'
          | cons c r =>
            have hc : c = 32 := by simpa [AtEnd] using hr
            subst hc
            have h' := key s.length (by omega)
            simp at h'
            have : s.length = 1 ∨ s.length = 2 := by omega
            rcases this with h'' | h'' <;> simp [h''] at h' <;> revert h' <;> decide
        · have h' := key w.length (by omega)
          simp at h'
          have : w.length = 1 ∨ w.length = 2 := by omega
          rcases this with h'' | h'' <;> simp [h''] at h' <;> revert h' <;> decide

/-! ## Reading one operand -/

theorem dropBlank {s : Str} {c : UInt8} {r : Str} (h : s = c :: r) (hc : c ≠ 32) :
    s.dropWhile (· == 32) = s := by
  subst h; simp [List.dropWhile_cons, hc]

theorem exprOperand_statement (pre : Str) {s rest : Str} (hs : Statement s) (hr : AtEnd rest) :
    exprOperand pre (s ++ rest) = some (pre ++ s, rest) := by
  obtain ⟨c, r, rfl, _, hc, _⟩ := statement_head hs
  have h := statement_word hs hr
  unfold exprOperand
  split
  · rename_i r' heq
    simp at heq
    exact absurd heq.1 hc
  · rw [h]

theorem exprOperand_group (pre s : Str) :
    exprOperand pre (40 :: s) = (closeParen 1 s).map fun t => (pre ++ t.1, t.2) := rfl

theorem exprGet_not (s : Str) : exprGet (b!"NOT " ++ s) = exprOperand b!"NOT " s := by
  simp [exprGet, eqin, lower, List.dropWhile_cons]

theorem exprGet_statement {s rest : Str} (hs : Statement s) (hr : AtEnd rest) :
    exprGet (s ++ rest) = some (s, rest) := by
  obtain ⟨c, r, hcr, hc, _, _⟩ := statement_head hs
  have hd : (s ++ rest).dropWhile (· == 32) = s ++ rest :=
    dropBlank (c := c) (r := r ++ rest) (by rw [hcr]; rfl) hc
  simp only [exprGet, hd, statement_not_not hs hr]
  have := exprOperand_statement [] hs hr
  simpa using this

theorem exprGet_group (s : Str) :
    exprGet (40 :: s) = (closeParen 1 s).map fun t => (t.1, t.2) := by
  simp [exprGet, eqin, lower, List.dropWhile_cons, exprOperand]

/-- The scan for the closing parenthesis passes over text without parentheses. -/
theorem closeParen_noparen (s : Str) (h : ∀ c ∈ s, c ≠ 40 ∧ c ≠ 41) (n : Nat) (r : Str) :
    closeParen (n + 1) (s ++ r) = (closeParen (n + 1) r).map fun t => (s ++ t.1, t.2) := by
  induction s with
  | nil => simp
  | cons c s ih =>
    have hc := h c (by simp)
    simp only [List.cons_append, closeParen]
    rw [if_neg (by simp [hc.2]), if_neg hc.1, if_neg hc.2, ih (fun c hc => h c (by simp [hc]))]
    cases closeParen (n + 1) r <;> simp

/-- The scan passes over the text of a whole expression. -/
theorem closeParen_text (e : FExp) (he : e.WF) (n : Nat) (r : Str) :
    closeParen (n + 1) (e.text ++ r) = (closeParen (n + 1) r).map fun t => (e.text ++ t.1, t.2) := by
  have hnot : ∀ neg, ∀ c ∈ notText neg, c ≠ 40 ∧ c ≠ 41 := by
    intro neg; cases neg <;> simp [notText]
  induction e generalizing n r with
  | atom neg s =>
    apply closeParen_noparen
    intro c hc
    simp only [text, List.mem_append] at hc
    rcases hc with hc | hc
    · exact hnot neg c hc
    · exact statement_noparen he c hc
  | group neg e ih =>
    have e1 : (FExp.group neg e).text ++ r = notText neg ++ (40 :: (e.text ++ (41 :: r))) := by
      simp [text]
    rw [e1, closeParen_noparen _ (hnot neg)]
    have : closeParen (n + 1) (40 :: (e.text ++ 41 :: r)) =
        (closeParen (n + 1) r).map fun t => (40 :: (e.text ++ 41 :: t.1), t.2) := by
      rw [closeParen, if_neg (by simp), if_pos rfl, ih he (n + 1) (41 :: r), closeParen,
        if_neg (by simp), if_neg (by decide), if_pos rfl]
      cases closeParen (n + 1) r <;> simp
    rw [this]
    cases closeParen (n + 1) r <;> simp [text]
  | chain isAnd l r' ihl ihr =>
    obtain ⟨hl, hr, _⟩ := he
    have e1 : (FExp.chain isAnd l r').text ++ r =
        l.text ++ ((if isAnd then b!" AND " else b!" OR ") ++ (r'.text ++ r)) := by
      simp [text]
    rw [e1, ihl hl, closeParen_noparen (if isAnd then b!" AND " else b!" OR ")
      (by cases isAnd <;> simp), ihr hr]
    cases closeParen (n + 1) r <;> simp [text]

theorem closeParen_one (e : FExp) (he : e.WF) (r : Str) :
    closeParen 1 (e.text ++ 41 :: r) = some (e.text, r) := by
  rw [closeParen_text e he 0, closeParen, if_pos (by simp)]
  simp

/-- What `expr_get` returns for an operand: parentheses are stripped, `NOT ` stays in front. -/
def stripped : FExp → Str
  | .atom neg s => notText neg ++ s
  | .group neg e => notText neg ++ e.text
  | .chain _ _ _ => []

theorem exprGet_operand (o : FExp) (ho : o.WF) (hop : o.isOperand = true) (rest : Str) (hr : AtEnd rest) :
    exprGet (o.text ++ rest) = some (stripped o, rest) := by
  cases o with
  | chain _ _ _ => simp [isOperand] at hop
  | atom neg s =>
    cases neg with
    | false => simpa [text, notText, stripped] using exprGet_statement ho hr
    | true =>
      have := exprGet_not (s ++ rest)
      rw [exprOperand_statement _ ho hr] at this
      simpa [text, notText, stripped] using this
  | group neg e =>
    have hc := closeParen_one e ho rest
    cases neg with
    | false =>
      have := exprGet_group (e.text ++ 41 :: rest)
      rw [hc] at this
      simpa [text, notText, stripped] using this
    | true =>
      have := exprGet_not (40 :: (e.text ++ 41 :: rest))
      rw [exprOperand_group, hc] at this
      simpa [text, notText, stripped] using this

theorem text_ne_nil (e : FExp) (he : e.WF) : e.text ≠ [] := by
  induction e with
  | atom neg s =>
    obtain ⟨c, r, h, _⟩ := statement_head (s := s) he
    simp [text, h]
  | group neg e _ => simp [text]
  | chain isAnd l r _ _ => cases isAnd <;> simp [text]

theorem exprGet_nil : exprGet [] = some ([], []) := by
  simp [exprGet, exprOperand, exprWord, eqin]

theorem text_head (e : FExp) (he : e.WF) : ∃ c r, e.text = c :: r ∧ c ≠ 32 := by
  induction e with
  | atom neg s =>
    obtain ⟨c, r, h, h32, _⟩ := statement_head (s := s) he
    cases neg with
    | false => exact ⟨c, r, by simp [text, notText, h], h32⟩
    | true => exact ⟨78, [79, 84, 32] ++ s, by simp [text, notText], by decide⟩
  | group neg e _ =>
    cases neg with
    | false => exact ⟨40, e.text ++ [41], by simp [text, notText], by decide⟩
    | true => exact ⟨78, [79, 84, 32] ++ ([40] ++ (e.text ++ [41])), by simp [text, notText], by decide⟩
  | chain isAnd l r ihl _ =>
    obtain ⟨c, t, h, h32⟩ := ihl he.1
    exact ⟨c, _, by simp only [text, h]; rfl, h32⟩

theorem exprGet_and (s : Str) : exprGet (32 :: 65 :: 78 :: 68 :: 32 :: s) = some (b!"AND", 32 :: s) := by
  simp [exprGet, exprOperand, exprWord, eqin, lower, List.dropWhile_cons]

theorem exprGet_or (s : Str) : exprGet (32 :: 79 :: 82 :: 32 :: s) = some (b!"OR", 32 :: s) := by
  have : eqin (79 :: 82 :: 32 :: s) b!"NOT " 4 = false := by
    simp [eqin, lower]
  simp [exprGet, exprOperand, exprWord, this, List.dropWhile_cons]

theorem exprRest_text (e : FExp) (he : e.WF) : exprRest (32 :: e.text) = e.text := by
  obtain ⟨c, r, h, h32⟩ := text_head e he
  unfold exprRest
  rw [h]
  simp [List.dropWhile_cons, h32]

end CM
