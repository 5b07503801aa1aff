import Verif.Spec.ToolArgs

/-! # What is wrong with a command line -/

namespace CM

/-- The faults of a command line and the messages about them: the first part that cannot be understood, or, if all can, the first
argument of the table that is needed and not given. The words before the fault have a meaning, and there was a place for each of them. -/
inductive Fault (T : List ToolArg) (argv : List Str) : Str → Prop where
  /-- The last word is the name of an argument with a value. -/
  | noValue {pre p w a} : argv = pre ++ [w] → PartsOf T pre p → (bareWords p).length ≤ places (namedValue p) T → a ∈ T → a.kind = .string →
      w.map lower = a.name.map lower → Fault T argv (b!"No argument for " ++ a.name ++ b!"\n")
  /-- A word is not a name, and all places are taken. -/
  | unknown {pre p w r} : argv = pre ++ w :: r → PartsOf T pre p → (bareWords p).length = places (namedValue p) T →
      (∀ a ∈ T, w.map lower ≠ a.name.map lower) → Fault T argv (b!"Unknown keyword " ++ w ++ b!"\n")
  /-- An argument is needed and not given. -/
  | missing {p l a r} : PartsOf T argv p → (bareWords p).length ≤ places (namedValue p) T → T = l ++ a :: r → a.needed = true →
      Meant T p a.name = none → (∀ b ∈ l, b.needed = true → Meant T p b.name ≠ none) →
      Fault T argv (b!"Mandatory argument " ++ a.name ++ b!" not specified\n")

/-- As far as the command line has a meaning, arguments that can be given by place are named before the words without a name. -/
def NamesEarly (T : List ToolArg) (argv : List Str) : Prop := ∀ pre p, pre <+: argv → PartsOf T pre p → NamesFirst T p

end CM
