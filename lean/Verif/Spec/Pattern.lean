import Verif.Model.Pattern
import Verif.Spec.Node4D
/-! # Specification of node patterns -/

namespace CM

/-- Pattern components as documented: `?` stands for one character, `*` for any rest of the number,
everything else for itself. -/
inductive CompMatch : Str → Str → Prop
  | nil : CompMatch [] []
  | star (p t) : CompMatch (42 :: p) t
  | any (p c t) : CompMatch p t → CompMatch (63 :: p) (c :: t)
  | lit (c p t) : c ≠ 42 → c ≠ 63 → CompMatch p t → CompMatch (c :: p) (c :: t)

/-- The usual shell-style wildcard: `*` matches any (possibly empty) sequence and the rest of the
pattern must match the rest of the text. -/
inductive ShellMatch : Str → Str → Prop
  | nil : ShellMatch [] []
  | star (p s t) : ShellMatch p t → ShellMatch (42 :: p) (s ++ t)
  | any (p c t) : ShellMatch p t → ShellMatch (63 :: p) (c :: t)
  | lit (c p t) : c ≠ 42 → c ≠ 63 → ShellMatch p t → ShellMatch (c :: p) (c :: t)

/-- `*` occurs at most as the last character. -/
def StarLast : Str → Prop
  | [] => True
  | c :: cs => (c = 42 → cs = []) ∧ StarLast cs

/-- All parts are nonempty and made of digits, `*`, `?`. -/
def AddrText.PatChars (t : AddrText) : Prop :=
  (∀ d, t.z = some d → d ≠ [] ∧ ∀ c ∈ d, isPatChar c = true) ∧
  (∀ d, t.n = some d → d ≠ [] ∧ ∀ c ∈ d, isPatChar c = true) ∧
  (∀ d, t.f = some d → d ≠ [] ∧ ∀ c ∈ d, isPatChar c = true) ∧
  (t.l ≠ [] ∧ ∀ c ∈ t.l, isPatChar c = true)

/-- Meaning of a pattern text: missing components are `*`, except that a missing point is `0`;
components are cut to 9 characters. -/
def AddrText.patMeaning (ty : PatType) (t : AddrText) : Pat4 :=
  let cut (o : Option Str) : Str := match o with | none => b!"*" | some d => d.take 9
  if t.z.isSome && t.n.isNone then
    ⟨ty, cut t.z, t.l.take 9, cut t.f, if t.f.isSome then [] else b!"*"⟩
  else if t.f.isSome then ⟨ty, cut t.z, cut t.n, cut t.f, t.l.take 9⟩
  else ⟨ty, cut t.z, cut t.n, t.l.take 9, b!"0"⟩

end CM
