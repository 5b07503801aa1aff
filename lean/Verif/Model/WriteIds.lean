import Verif.Model.CrashWrite

/-! # Several runs of CrashWrite

The names and numbers of the packets (`crashwrite.c` 263-272), over runs of CrashWrite one after the other and a tosser that takes packets away. Simplification: a run that
has found a name makes the file before another run looks for it (`osExists` and `osOpen` are two steps in the program). -/

namespace CM

/-- What happens. `time` is the time read in each round of the loop, `fuel` the number of rounds allowed. -/
inductive WriteEvent where
  | write (dir : Str) (time : Nat → UInt32) (fuel : Nat)
  /-- a file is removed -/
  | take (f : Str)

/-- The packet that is made, with its number, and the files afterwards. -/
def writeEvent (there : Str → Bool) : WriteEvent → Option (UInt32 × Str) × (Str → Bool)
  | .write dir time fuel => match cwFile dir there time fuel 0 with
    | none => (none, there)
    | some x => (some x, fun f => f == x.2 || there f)
  | .take f => (none, fun g => g != f && there g)

/-- A history, with the packets made. -/
def writeEvents : List WriteEvent → (Str → Bool) → List (Option (UInt32 × Str))
  | [], _ => []
  | e :: es, there =>
    let x := writeEvent there e
    x.1 :: writeEvents es x.2

end CM
