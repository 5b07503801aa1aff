import Verif.Model.Handle
/-!
# Running filters: specification

`doc/filter.txt`: the filters are tried in order; the commands of a filter that matches are executed
in order; a killed message is not processed any further.
-/

namespace CM

/-- The filter matches the message (`v = true`) or does not. -/
def Filter.Says (f : Filter) (s : HSt) (m : MemMsg) (v : Bool) : Prop :=
  evalExpr (evalFunc s.cfg m) f.text = .ok (some v)

/-- The filter cannot be evaluated. -/
def Filter.Broken (f : Filter) (s : HSt) (m : MemMsg) : Prop := evalExpr (evalFunc s.cfg m) f.text = .ok none

/-- All these commands are executed, each once and in this order, and none of them kills the message. -/
inductive Exec (env : Env) (gen : MemMsg → M Unit) : List Command → MemMsg → HSt → MemMsg → HSt → Prop
  | nil (m s) : Exec env gen [] m s m s
  | cons {c cs m s m1 s1 m2 s2} : runCommand env gen m c s = .ok m1 s1 → m1.has MMFLAG_KILL = false →
      Exec env gen cs m1 s1 m2 s2 → Exec env gen (c :: cs) m s m2 s2

/-- All these filters are tried in this order, those that match execute all their commands, and none
kills the message. -/
inductive Pass (env : Env) (gen : MemMsg → M Unit) : List Filter → MemMsg → HSt → MemMsg → HSt → Prop
  | nil (m s) : Pass env gen [] m s m s
  | skip {f fs m s m2 s2} : f.Says s m false → Pass env gen fs m s m2 s2 → Pass env gen (f :: fs) m s m2 s2
  | run {f fs m s m1 s1 m2 s2} : f.Says s m true → Exec env gen f.commands m s m1 s1 →
      Pass env gen fs m1 s1 m2 s2 → Pass env gen (f :: fs) m s m2 s2

/-- The message is killed by command `c` of filter `f`; `cs2` and `fs2` are never looked at. -/
structure KilledBy (env : Env) (gen : MemMsg → M Unit) (fs : List Filter) (m : MemMsg) (s : HSt) (m' : MemMsg)
    (t : HSt) (fs1 : List Filter) (f : Filter) (fs2 : List Filter) (cs1 : List Command) (c : Command)
    (cs2 : List Command) (m1 : MemMsg) (s1 : HSt) (m2 : MemMsg) (s2 : HSt) : Prop where
  filters : fs = fs1 ++ f :: fs2
  commands : f.commands = cs1 ++ c :: cs2
  before : Pass env gen fs1 m s m1 s1
  says : f.Says s1 m1 true
  first : Exec env gen cs1 m1 s1 m2 s2
  last : runCommand env gen m2 c s2 = .ok m' t
  killed : m'.has MMFLAG_KILL = true

/-- A filter that cannot be evaluated ends the processing. -/
structure StoppedBy (env : Env) (gen : MemMsg → M Unit) (fs : List Filter) (m : MemMsg) (s : HSt) (m' : MemMsg)
    (t : HSt) (fs1 : List Filter) (f : Filter) (fs2 : List Filter) : Prop where
  filters : fs = fs1 ++ f :: fs2
  before : Pass env gen fs1 m s m' t
  broken : f.Broken t m'

end CM
