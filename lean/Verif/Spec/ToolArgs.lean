import Verif.Base
import Verif.Model.Search

/-! # What a command line with names and places means -/

namespace CM

/-- An argument of a program: its name, its kind, whether it can be given by its place alone, and whether it has to be given. -/
structure ToolArg where
  name : Str
  kind : ArgType
  byPlace : Bool := false
  needed : Bool := false
  deriving DecidableEq, Repr

/-- The names differ, in whatever case they are written. -/
def DistinctNames (T : List ToolArg) : Prop := T.Pairwise fun a b => a.name.map lower ≠ b.name.map lower

/-- A part of a command line: an argument with its name (and its value, if it has one), or a word alone. -/
inductive CmdPart where
  | named (n : Str) (v : Option Str)
  | word (w : Str)
  deriving DecidableEq, Repr

/-- The parts of a command line. Names may be written in upper or lower case. -/
inductive PartsOf (T : List ToolArg) : List Str → List CmdPart → Prop where
  | nil : PartsOf T [] []
  | switch {w a r p} : a ∈ T → a.kind = .bool → w.map lower = a.name.map lower → PartsOf T r p → PartsOf T (w :: r) (.named a.name none :: p)
  | value {w a v r p} : a ∈ T → a.kind = .string → w.map lower = a.name.map lower → PartsOf T r p → PartsOf T (w :: v :: r) (.named a.name (some v) :: p)
  | word {w r p} : (∀ a ∈ T, w.map lower ≠ a.name.map lower) → PartsOf T r p → PartsOf T (w :: r) (.word w :: p)

/-- The words without a name. -/
def bareWords (p : List CmdPart) : List Str := p.filterMap fun | .word w => some w | .named _ _ => none

/-- The last value an argument is given by name: `none` if it is not named, `some none` for a switch. -/
def namedValue (p : List CmdPart) (n : Str) : Option (Option Str) :=
  (p.filterMap fun | .named m v => if m = n then some v else none | .word _ => none).getLast?

/-- An argument that can be given by its place is named only before the first word without a name. -/
def NamesFirst (T : List ToolArg) : List CmdPart → Prop
  | [] => True
  | .named _ _ :: p => NamesFirst T p
  | .word _ :: p => (∀ a ∈ T, a.byPlace = true → ∀ v, CmdPart.named a.name v ∉ p) ∧ NamesFirst T p

/-- The values of the arguments: those that are named have the value given with the name; the words without a name are for the others
that can be given by their place, in the order of the table. -/
def meant (named : Str → Option (Option Str)) : List ToolArg → List Str → List (Str × Option (Option Str))
  | [], _ => []
  | a :: T, ws =>
    match named a.name with
    | some v => (a.name, some v) :: meant named T ws
    | none =>
      if a.byPlace then
        match ws with
        | [] => (a.name, none) :: meant named T []
        | w :: ws => (a.name, some (some w)) :: meant named T ws
      else (a.name, none) :: meant named T ws

/-- The number of arguments that can take a word. -/
def places (named : Str → Option (Option Str)) (T : List ToolArg) : Nat := (T.filter fun a => a.byPlace && (named a.name).isNone).length

/-- The value of the argument `n`. -/
def Meant (T : List ToolArg) (p : List CmdPart) (n : Str) : Option (Option Str) := ((meant (namedValue p) T (bareWords p)).lookup n).join

/-- The command line makes sense: there are not too many words, and what is needed is given. -/
def Sensible (T : List ToolArg) (p : List CmdPart) : Prop :=
  (bareWords p).length ≤ places (namedValue p) T ∧ ∀ a ∈ T, a.needed = true → (Meant T p a.name).isSome = true

instance (T : List ToolArg) (p : List CmdPart) : Decidable (Sensible T p) := inferInstanceAs (Decidable (_ ∧ _))

end CM
