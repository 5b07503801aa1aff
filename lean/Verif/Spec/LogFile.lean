import Verif.Model.LogFile

/-! # What the log should contain (C120) -/

namespace CM

/-- What run `i` has written to the log. -/
def logSaid (i : Nat) (evs : List LogEvent) : Data :=
  evs.flatMap fun e => match e with | .say j d => if j = i then d else [] | _ => []

/-- The runs that have opened the log, in this order. -/
def logOpened (evs : List LogEvent) : List Nat := evs.filterMap fun e => match e with | .opens i => some i | _ => none

/-- Run `i` has ended regularly. -/
def LogEnded (i : Nat) (evs : List LogEvent) : Prop := .close i ∈ evs ∨ .shut i ∈ evs

/-- The log consists of what was there before and of what the runs have written, one after the other: all that runs wrote that have ended regularly, and
the beginning of it for the others. -/
def LogComplete (before : Data) (evs : List LogEvent) (log : Data) : Prop :=
  ∃ T : Nat → Data, log = before ++ (logOpened evs).flatMap T ∧ (∀ i, T i <+: logSaid i evs) ∧ ∀ i, LogEnded i evs → T i = logSaid i evs

/-- The user removes the lock only when no run works. -/
def FreedWell (evs : List LogEvent) : Prop :=
  ∀ a b, evs = a ++ .free :: b → ∀ i, .lock i ∈ a → .unlock i ∈ a ∨ .fail i ∈ a ∨ .kill i ∈ a

/-- No run begins between the moment in which another one removes the lock and that in which it ends. -/
def NoneBetween (evs : List LogEvent) : Prop :=
  ∀ a j b, evs = a ++ .opens j :: b → ∀ i, .unlock i ∈ a → .close i ∈ a ∨ .kill i ∈ a

end CM
