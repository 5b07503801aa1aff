import Verif.Base
/-!
# Filter expressions: documented language (`doc/filter.txt`)

Statements joined by AND and OR, NOT before a statement or a parenthesised group.
-/

namespace CM

/-- An expression: a statement or a group, each possibly negated, or a chain `l op r` where `l` is one
of the former. -/
inductive FExp where
  | atom (neg : Bool) (s : Str)
  | group (neg : Bool) (e : FExp)
  | chain (isAnd : Bool) (l r : FExp)
  deriving DecidableEq, Repr

namespace FExp

/-- Prefix of a negated operand. -/
def notText (neg : Bool) : Str := if neg then b!"NOT " else []

/-- How the expression is written in the configuration. -/
def text : FExp → Str
  | atom neg s => notText neg ++ s
  | group neg e => notText neg ++ (b!"(" ++ (text e ++ b!")"))
  | chain isAnd l r => text l ++ ((if isAnd then b!" AND " else b!" OR ") ++ text r)

/-- Not a chain. -/
def isOperand : FExp → Bool
  | chain _ _ _ => false
  | _ => true

/-- A statement: optional text in quotation marks at its end; no blanks, quotation marks or
parentheses elsewhere; not the word NOT. -/
def Statement (s : Str) : Prop :=
  ∃ w q : Str, (∀ c ∈ w, c ≠ 32 ∧ c ≠ 34 ∧ c ≠ 40 ∧ c ≠ 41) ∧ w ≠ [] ∧ eqi w b!"NOT" = false ∧
    (s = w ∨ ((∀ c ∈ q, c ≠ 34 ∧ c ≠ 40 ∧ c ≠ 41) ∧ s = w ++ (b!"\"" ++ (q ++ b!"\""))))

/-- Statements are well formed and the left side of every chain is an operand. -/
def WF : FExp → Prop
  | atom _ s => Statement s
  | group _ e => WF e
  | chain _ l r => WF l ∧ WF r ∧ l.isOperand = true

/-- Truth value of a chain taken from left to right: `acc` is the value so far, `op` the operator in
front of the rest. -/
def step (isAnd : Bool) (acc v : Option Bool) : Option Bool :=
  match acc, v with
  | some a, some b => some (if isAnd then a && b else a || b)
  | _, _ => none

/-- Value of a negated operand. -/
def sign (neg : Bool) (v : Option Bool) : Option Bool := if neg then v.map (!·) else v

/-- Evaluate the chain `e`, given an optional value and operator to its left. -/
def docVal (ev : Str → Option Bool) (left : Option (Option Bool × Bool)) : FExp → Option Bool
  | atom neg s =>
    match left with
    | none => sign neg (ev s)
    | some (a, op) => step op a (sign neg (ev s))
  | group neg e =>
    match left with
    | none => sign neg (docVal ev none e)
    | some (a, op) => step op a (sign neg (docVal ev none e))
  | chain isAnd l r => docVal ev (some (docVal ev left l, isAnd)) r

/-- The documented value: AND and OR from left to right, NOT for the statement or group after it. An
erroneous statement makes the expression erroneous. -/
def value (ev : Str → Option Bool) (e : FExp) : Option Bool := docVal ev none e

/-- All operators on the top level of the chain are `op`. -/
def Uniform (op : Bool) : FExp → Prop
  | chain isAnd _ r => isAnd = op ∧ Uniform op r
  | _ => True

/-- A single operand that is not negated, possibly in parentheses. -/
def Single : FExp → Prop
  | atom n _ => n = false
  | group n e => n = false ∧ Single e
  | chain _ _ _ => False

/-- A negated group holds a single operand that is not itself negated. -/
def NotSimple : FExp → Prop
  | atom _ _ => True
  | group neg e => NotSimple e ∧ (neg = true → Single e)
  | chain _ l r => NotSimple l ∧ NotSimple r

/-- No level mixes AND and OR. -/
def Unmixed : FExp → Prop
  | atom _ _ => True
  | group _ e => Unmixed e
  | chain isAnd l r => Unmixed l ∧ Unmixed r ∧ Uniform isAnd r

/-- The value with AND and OR grouped from the right: `a op (b op (c …))`. -/
def rightVal (ev : Str → Option Bool) : FExp → Option Bool
  | atom neg s => sign neg (ev s)
  | group neg e => sign neg (rightVal ev e)
  | chain isAnd l r => step isAnd (rightVal ev l) (rightVal ev r)

end FExp
end CM
