import Verif.Model.Main
/-! # What the command line of CrashMail asks for, and what the lock is for -/

namespace CM

/-- The options that stand alone and those that are followed by a value. -/
def switchNames : List Str := [b!"SCAN", b!"TOSS", b!"VERSION", b!"LOCK", b!"UNLOCK", b!"NOSECURITY"]

def valueNames : List Str := [b!"TOSSFILE", b!"TOSSDIR", b!"SCANAREA", b!"SCANLIST", b!"SCANDOTJAM", b!"RESCAN", b!"RESCANNODE",
  b!"RESCANMAX", b!"SENDQUERY", b!"SENDLIST", b!"SENDUNLINKED", b!"SENDHELP", b!"SENDINFO", b!"REMOVE", b!"SETTINGS"]

/-- The options of a command line, in upper or lower case. -/
inductive Options : List Str → List (Str × Option Str) → Prop where
  | nil : Options [] []
  | switch {w n r o} : n ∈ switchNames → w.map lower = n.map lower → Options r o → Options (w :: r) ((n, none) :: o)
  | value {w n v r o} : n ∈ valueNames → w.map lower = n.map lower → Options r o → Options (w :: v :: r) ((n, some v) :: o)

def hasOption (o : List (Str × Option Str)) (n : Str) : Bool := o.any fun x => x.1 == n

/-- The value of an option: the last one if it is given several times. -/
def optionValue (o : List (Str × Option Str)) (n : Str) : Option Str := (o.reverse.find? fun x => x.1 == n).bind (·.2)

/-- The first of several options that is given, with its value. -/
def firstOption (o : List (Str × Option Str)) (names : List Str) : Option (Str × Str) :=
  (names.find? (hasOption o)).map fun n => (n, (optionValue o n).getD [])

/-- The command an option stands for. -/
def commandOf (o : List (Str × Option Str)) (x : Str × Str) : Option MainCommand :=
  if x.1 = b!"TOSS" then some .toss
  else if x.1 = b!"TOSSFILE" then some (.tossFile x.2)
  else if x.1 = b!"TOSSDIR" then some (.tossDir x.2)
  else if x.1 = b!"SCAN" then some .scan
  else if x.1 = b!"SCANAREA" then some (.scanArea x.2)
  else if x.1 = b!"SCANLIST" then some (.scanList x.2)
  else if x.1 = b!"SCANDOTJAM" then some (.scanDotJam x.2)
  else if x.1 = b!"RESCAN" then
    some (match optionValue o b!"RESCANNODE" with
      | none => .noNode
      | some n => .rescan x.2 n (UInt32.ofInt (atoi ((optionValue o b!"RESCANMAX").getD []))))
  else if x.1 = b!"SENDLIST" then some (.sendList x.2)
  else if x.1 = b!"SENDQUERY" then some (.sendQuery x.2)
  else if x.1 = b!"SENDUNLINKED" then some (.sendUnlinked x.2)
  else if x.1 = b!"SENDHELP" then some (.sendHelp x.2)
  else if x.1 = b!"SENDINFO" then some (.sendInfo x.2)
  else if x.1 = b!"REMOVE" then some (.remove x.2)
  else none

/-- At most two commands are carried out: one of `TOSS` and `TOSSFILE`, then the first of the others in this
order. -/
def commandsAsked (o : List (Str × Option Str)) : List MainCommand :=
  ((firstOption o [b!"TOSS", b!"TOSSFILE"]).bind (commandOf o)).toList ++
  ((firstOption o [b!"TOSSDIR", b!"SCAN", b!"SCANAREA", b!"SCANLIST", b!"SCANDOTJAM", b!"RESCAN", b!"SENDLIST", b!"SENDQUERY",
    b!"SENDUNLINKED", b!"SENDHELP", b!"SENDINFO", b!"REMOVE"]).bind (commandOf o)).toList

/-- The name of the configuration. -/
def configAsked (env : Option Str) (o : List (Str × Option Str)) : Str :=
  (optionValue o b!"SETTINGS").getD (env.getD b!"crashmail.prefs")

/-- `p` never touches the file `f`. -/
def NeverTouches (w : World) {α : Type} (f : Str) (p : Prog α) : Prop := ∀ fs p' fs', Reach w p fs p' fs' → fs' f = fs f

/-- The parts of the program leave the lock file alone. -/
structure LeavesLock (w : World) {κ : Type} (P : MainParts κ) (lock : Str) : Prop where
  read : ∀ c, NeverTouches w lock (P.readConfig c)
  init : ∀ k, NeverTouches w lock (P.init k)
  run : ∀ s k c, NeverTouches w lock (P.run s k c)
  free : ∀ k, NeverTouches w lock (P.free k)

/-- The commands are carried out one after the other, from one state of memory and disk to another. -/
inductive Carried (w : World) {κ : Type} (P : MainParts κ) (nosec : Bool) : κ → FS → List MainCommand → κ → FS → Prop where
  | nil (k fs) : Carried w P nosec k fs [] k fs
  | cons {k fs c k' fs' r k'' fs''} : Reach w (P.run nosec k c) fs (.ret k') fs' → Carried w P nosec k' fs' r k'' fs'' →
      Carried w P nosec k fs (c :: r) k'' fs''

end CM
