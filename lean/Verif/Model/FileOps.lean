import Verif.Model.Disk
/-! # Copying and renaming files, locks, bad packets -/

namespace CM

/-! ## Copying and moving (`misc.c` 357-414) -/

/-- `copyfile` (`misc.c` 359-402). `io` is the global variable `ioerror` before; the result contains it
afterwards. The loop reads and writes in turn; here the file is read first. -/
def copyfile (io : Bool) (f g : Str) : Prog (Bool × Bool) := do
  match ← readFile f with
  | none => return (false, io)
  | some d =>
    match ← writeFile g .new (if io then [] else d) with
    | none => return (false, io)
    | some ok =>
      if io || !ok then
        let _ ← osDelete g
        return (false, true)
      return (true, false)

/-- `movefile` (`misc.c` 406-414). -/
def movefile (io : Bool) (f g : Str) : Prog (Bool × Bool) := do
  if ← osRename f g then return (true, io)
  let (ok, io) ← copyfile io f g
  if !ok then return (false, io)
  let _ ← osDelete f
  return (true, io)

/-! ## Bad packets (`misc.c` 282-315) -/

/-- The names tried for a bad packet (`misc.c` 293-300). -/
def badName (inbound file : Str) (num : Nat) : Str :=
  makeFullPath inbound (getFilePart file) 90 ++ b!".bad" ++ if num = 0 then [] else 44 :: dec num

/-- The loop of `BadFile` (`misc.c` 291-304). The buffers are `char destname[100],numbuf[10]`. `num` is
printed with `%d`; numbers from 2^31 on do not fit `numbuf` anyway. -/
def badLoop (inbound file : Str) : Nat → Nat → Prog Str
  | 0, _ => .stuck
  | fuel + 1, num => do
    let dest := badName inbound file num
    if 100 ≤ dest.length ∨ 10 ≤ (dec num).length + 1 then .ub .oobWrite
    else if ← osExists dest then badLoop inbound file fuel (num + 1)
    else return dest

/-- `BadFile` (`misc.c` 282-315). `osSetComment` does nothing. -/
def badFile (fuel : Nat) (io : Bool) (inbound file : Str) : Prog Bool := do
  let dest ← badLoop inbound file fuel 0
  let (_, io) ← movefile io file dest
  return io

/-! ## Locks -/

/-- `LockBasename` (`outbound.c` 7-29). -/
def lockBasename (base : Str) : Prog Bool := do
  if 200 ≤ (lockName base).length then .ub .oobWrite
  else if ← osExists (lockName base) then return false
  else match ← writeFile (lockName base) .new [] with
    | none => return false
    | some _ => return true

/-- `UnlockBasename` (`outbound.c` 31-39). -/
def unlockBasename (base : Str) : Prog Unit := do
  let _ ← osDelete (lockName base)

/-- The lock file of a configuration (`crashmail.c` 483-484, 509-510). -/
def busyName (file : Str) : Str := file ++ b!".busy"

/-- The loop of `LockConfig` (`crashmail.c` 486-494), and the rest of it; at most `fuel` waits. -/
def lockConfigLoop (file : Str) : Nat → Prog Bool
  | 0 => .stuck
  | fuel + 1 => do
    if ← osExists (busyName file) then
      if ← osSleep then return false
      else lockConfigLoop file fuel
    else match ← writeFile (busyName file) .new [] with
      | none => return false
      | some _ => return true

/-- `LockConfig` (`crashmail.c` 478-505). -/
def lockConfig (fuel : Nat) (file : Str) : Prog Bool :=
  if 200 ≤ (busyName file).length then .ub .oobWrite else lockConfigLoop file fuel

/-- `UnlockConfig` (`crashmail.c` 507-515). -/
def unlockConfig (file : Str) : Prog Unit := do
  let _ ← osDelete (busyName file)

/-! ## Several processes -/

/-- One step of one of several programs that run at the same time. -/
inductive MStep (w : World) {α : Type} : List (Prog α) → FS → List (Prog α) → FS → Prop where
  | one (a b : List (Prog α)) (p fs p' fs') : Step w p fs p' fs' → MStep w (a ++ p :: b) fs (a ++ p' :: b) fs'

/-- The states they can reach. -/
inductive MReach (w : World) {α : Type} : List (Prog α) → FS → List (Prog α) → FS → Prop where
  | here (ps fs) : MReach w ps fs ps fs
  | step {ps fs ps' fs' ps'' fs''} : MStep w ps fs ps' fs' → MReach w ps' fs' ps'' fs'' → MReach w ps fs ps'' fs''

/-! ## Replacing files -/

/-- `CloseDupeDB` (`dupe.c` 184-229) on the disk: `new` is the new contents. Write errors are ignored. -/
def replaceDupe (file : Str) (new : Data) : Prog Unit := do
  match ← writeFile (file ++ b!".tmp") .new new with
  | none => return ()
  | some _ =>
    let _ ← osDelete file
    let _ ← osRename (file ++ b!".tmp") file
    return ()

/-- `UpdateConfig` (`config.c` 2241-2374) on the disk: `rewrite` makes the new contents. The buffers for
the names are `char cfgtemp[110],cfgbak[110]`. Write errors are ignored. -/
def replaceConfig (file : Str) (rewrite : Data → Except UB Data) : Prog Bool := do
  if 110 ≤ file.length + 4 then .ub .oobWrite
  else match ← readFile file with
    | none => return false
    | some old =>
      let new ← liftUB (rewrite old)
      match ← writeFile (file ++ b!".tmp") .new new with
      | none => return false
      | some _ =>
        let _ ← osDelete (file ++ b!".bak")
        let _ ← osRename file (file ++ b!".bak")
        let _ ← osRename (file ++ b!".tmp") file
        return true

end CM
