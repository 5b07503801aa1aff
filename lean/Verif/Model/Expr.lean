import Verif.Base
/-!
# Boolean expressions of the filters (`shared/expr.c`)

`struct expr` is a buffer with a parse position; the model passes the unparsed rest of the buffer.
Error texts and positions are not modelled: `none` stands for the result -1. Memory exhaustion is not
modelled. `strcpy(e1->buf,&e1->buf[4])` (`expr.c` 261) copies between overlapping objects, which the C
standard leaves undefined; the model takes it to move the string as intended.
-/

namespace CM

/-- The text inside a parenthesis and the rest after the one that closes it (`expr.c` 39-48, 77);
`n` parentheses are open. Quotes are not looked at. `none`: the string ended (`expr.c` 83-88). -/
def closeParen : Nat → Str → Option (Str × Str)
  | 0, s => some ([], s)
  | _ + 1, [] => none
  | n + 1, c :: r =>
    if c = 41 ∧ n = 0 then some ([], r)
    else (closeParen (if c = 40 then n + 2 else if c = 41 then n else n + 1) r).map fun t => (c :: t.1, t.2)

/-- A word up to a blank or through the second quotation mark (`expr.c` 91-118). -/
def exprWord : Bool → Str → Str × Str
  | _, [] => ([], [])
  | q, c :: r =>
    if c = 32 ∧ q = false then ([], c :: r)
    else if c = 34 ∧ q = true then ([c], r)
    else
      let t := exprWord (q || c == 34) r
      (c :: t.1, t.2)

/-- The operand after an optional NOT (`expr.c` 33-146); `pre` is `NOT ` or empty. -/
def exprOperand (pre : Str) (s : Str) : Option (Str × Str) :=
  match s with
  | 40 :: r => (closeParen 1 r).map fun t => (pre ++ t.1, t.2)
  | _ => some (pre ++ (exprWord false s).1, (exprWord false s).2)

/-- `expr_get` (`expr.c` 10-147) on the unparsed rest: the operand and the new rest. -/
def exprGet (s : Str) : Option (Str × Str) :=
  let s := s.dropWhile (· == 32)
  if eqin s b!"NOT " 4 then exprOperand b!"NOT " (s.drop 4) else exprOperand [] s

/-- `expr_getrest` (`expr.c` 149-193). -/
def exprRest (s : Str) : Str := s.dropWhile (· == 32)

/-- `NOT` on a result (`expr.c` 266-267). -/
def exprNot : Option Bool → Option Bool
  | some b => some (!b)
  | none => none

/-- AND/OR on two results (`expr.c` 327-350, 376-401): both operands are evaluated unless the first is
in error. -/
def exprBin (op : Bool → Bool → Bool) : Option Bool → Option Bool → Option Bool
  | some a, some b => some (op a b)
  | _, _ => none

/-- Combine the results of both operands (`expr.c` 327-350, 376-401): the second is only evaluated if
the first is not in error. -/
def exprPair (op : Bool → Bool → Bool) (a b : Except UB (Option (Option Bool))) :
    Except UB (Option (Option Bool)) :=
  match a with
  | .error e => .error e
  | .ok none => .ok none
  | .ok (some none) => .ok (some none)
  | .ok (some (some v)) => b.map fun r => r.map (exprBin op (some v))

/-- `expr_eval` (`expr.c` 221-422). `ev` is the evaluation function for a single statement. `.ok none`:
the recursion used up its fuel. -/
def exprEval (ev : Str → Except UB (Option Bool)) : Nat → Str → Except UB (Option (Option Bool))
  | 0, _ => .ok none
  | f + 1, s =>
    match exprGet s with
    | none => .ok (some none)
    | some (e1, s1) =>
      match exprGet s1 with
      | none => .ok (some none)
      | some (e2, s2) =>
        let e3 := exprRest s2
        if e2 = [] then
          if e1 = s then
            if eqin e1 b!"NOT " 4 then (exprEval ev f (e1.drop 4)).map fun r => r.map exprNot
            else (ev e1).map some
          else exprEval ev f e1
        else if eqi e2 b!"AND" then
          if e3 = [] then .ok (some none)
          else exprPair (· && ·) (exprEval ev f e1) (exprEval ev f e3)
        else if eqi e2 b!"OR" then
          if e3 = [] then .ok (some none)
          else exprPair (· || ·) (exprEval ev f e1) (exprEval ev f e3)
        else .ok (some none)

/-- Enough for every string of this length (`exprEval_total`). -/
def exprFuel (s : Str) : Nat := 2 * s.length + 3

/-- `expr_makeexpr` followed by `expr_eval`. `none` is -1; the recursion always ends
(`exprEval_total`). -/
def evalExpr (ev : Str → Except UB (Option Bool)) (s : Str) : Except UB (Option Bool) :=
  (exprEval ev (exprFuel s) s).map fun r => r.getD none

end CM
