import Verif.Base
/-! # Specifications for the small string functions -/

namespace CM

/-- Documented meaning of a file name pattern (`doc/filter.txt`): `?` is any one character, `*` any
number of characters, letters match regardless of case. -/
inductive Glob : Str → Str → Prop
  | nil : Glob [] []
  | star_nil {p s} : Glob p s → Glob (42 :: p) s
  | star_cons {p c s} : Glob (42 :: p) s → Glob (42 :: p) (c :: s)
  | any {p c s} : Glob p s → Glob (63 :: p) (c :: s)
  | char {p a c s} : a ≠ 42 → a ≠ 63 → lower a = lower c → Glob p s → Glob (a :: p) (c :: s)

/-- `s` is `p` followed by the ending `e`, letters of the ending in any case. -/
def HasEnding (s e : Str) : Prop := ∃ p q, s = p ++ q ∧ q.map lower = e

/-- What has to be written for a string `s` in a configuration line. -/
def Quoted (s : Str) : Str := [34] ++ s.flatMap (fun c => if c = 34 ∨ c = 92 then [92, c] else [c]) ++ [34]

/-- Blanks at the end of a line: what `striptrail` is meant to remove. -/
def BlankOrControl (c : UInt8) : Prop := c.toNat ≤ 32

end CM
