import Verif.Spec.ToolArgs

/-! # How a user reads the help of a tool (C122) -/

namespace CM

/-- A text cut at a character. -/
def cutText (c : UInt8) : Str → List Str
  | [] => [[]]
  | x :: t =>
    if x = c then [] :: cutText c t
    else match cutText c t with
      | [] => [[x]]
      | p :: ps => (x :: p) :: ps

/-- A line of the help: the name, in parentheses if it need not be given, then `<string>` if a value follows, then `[Mandatory]` if it has to be specified. -/
def readArg (l : Str) : ToolArg :=
  let ws := cutText 32 l
  let w := ws.headD []
  let paren := w.head? == some 40
  { name := if paren then w.tail.dropLast else w
    kind := if ws.contains b!"<string>" then .string else .bool
    byPlace := paren
    needed := ws.contains b!"[Mandatory]" }

/-- The arguments are in the lines between the second and the third empty line. -/
def readHelp (t : Str) : List ToolArg := (((cutText 10 t).drop 3).takeWhile (· ≠ [])).map readArg

/-- A name without blanks, line ends and parentheses, of ordinary length. -/
def PlainName (n : Str) : Prop := n ≠ [] ∧ n.length ≤ 47 ∧ ∀ c ∈ n, c ≠ 32 ∧ c ≠ 10 ∧ c ≠ 40 ∧ c ≠ 60 ∧ c ≠ 91

instance (n : Str) : Decidable (PlainName n) := inferInstanceAs (Decidable (_ ∧ _))

/-- Switches are given by their names, and can be left out. -/
def SwitchesFree (T : List ToolArg) : Prop := ∀ a ∈ T, a.kind = .bool → a.byPlace = false ∧ a.needed = false

instance (T : List ToolArg) : Decidable (SwitchesFree T) := inferInstanceAs (Decidable (∀ a ∈ T, _))

end CM
