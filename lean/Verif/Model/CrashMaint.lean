import Verif.Model.MsgMaint
import Verif.Model.ReadConfig
/-! # CrashMaint: its configuration and the main program (`tools/crashmaint.c`)

What is done for one area is in `Model/MsgMaint.lean` and `Model/JamMaint.lean`; here it is a parameter. Running out of
memory is not modelled. Of the texts printed only `*** User Break ***` is kept, as the result `broken`. -/

namespace CM

/-- `struct Area` (`crashmaint.c` 32-39). -/
structure MaintArea where
  tag : Str
  base : Str
  path : Str
  keepNum : UInt32 := 0
  keepDays : UInt32 := 0
  deriving DecidableEq, Repr

/-- KEEPDAYS and KEEPNUM (`crashmaint.c` 881-891) for the area they are stored in. -/
def mrKeep (w rest : Str) (a : MaintArea) : MaintArea :=
  let t := jbstrcpy 80 rest
  if eqi w b!"KEEPDAYS" ∧ t.2.2 = true then { a with keepDays := UInt32.ofInt (atol t.1) }
  else if eqi w b!"KEEPNUM" ∧ t.2.2 = true then { a with keepNum := UInt32.ofInt (atol t.1) }
  else a

/-- AREA, NETMAIL and LOCALAREA (`crashmaint.c` 893-919): the area that is added, if any. -/
def mrArea (rest : Str) : Option MaintArea :=
  let tag := jbstrcpy 80 rest
  let aka := jbstrcpy 80 tag.2.1
  if !(eqi tag.1 b!"DEFAULT") && !(eqin tag.1 b!"DEFAULT_" 8) then
    let mb := jbstrcpy 20 aka.2.1
    if mb.2.2 then some { tag := tag.1, base := mb.1, path := (jbstrcpy 80 mb.2.1).1 } else none
  else none

/-- KEEPDAYS and KEEPNUM are stored in `LastArea`, the last area of the list (`crashmaint.c` 881, 887, 912-913); it is NULL if
there is none. -/
def mrLast (w rest : Str) (l : List MaintArea) : List MaintArea :=
  match l.getLast? with
  | none => l
  | some a => l.dropLast ++ [mrKeep w rest a]

/-- One line (`crashmaint.c` 876-920). -/
def mrLine (l : List MaintArea) (line : Str) : List MaintArea :=
  let w := jbstrcpy 20 line
  let l := mrLast w.1 w.2.1 l
  if isAreaWord w.1 then
    match mrArea w.2.1 with
    | none => l
    | some a => l ++ [a]
  else l

/-- `ReadConfig` (`crashmaint.c` 858-924) for a file that could be opened. -/
def maintConfig (file : List UInt8) : List MaintArea := (fileLines 4000 file.length file).foldl mrLine []

/-- The entry of `Messagebases` (`crashmaint.c` 56-67, 1010-1011): 0 for MSG and 1 for JAM, as in `baseOf`. -/
def maintBase (s : Str) : Option Nat := if eqi s b!"JAM" then some 1 else if eqi s b!"MSG" then some 0 else none

/-- What `processfunc` is called with: the base, and the area with what is to be done. -/
structure MaintJob where
  base : Nat
  tag : Str
  path : Str
  opt : JamMaintOpt

/-- How the program ends: after all areas, with `*** User Break ***`, or with `OS_EXIT_ERROR`. -/
inductive MaintEnd where
  | done
  | broken
  | failed
  deriving DecidableEq, Repr

/-- The arguments (`crashmaint.c` 69-82). -/
structure MaintArgs where
  maint : Bool
  pack : Bool
  pattern : Option Str := none

/-- Is the area one of those asked for (`crashmaint.c` 1000-1006)? -/
def maintMatch (a : MaintArgs) (tag : Str) : Bool :=
  match a.pattern with
  | none => true
  | some p => osMatchPattern p tag

/-- The loop over the areas (`crashmaint.c` 995-1035). -/
def maintLoop (proc : MaintJob → Prog Bool) (args : MaintArgs) : List MaintArea → Prog MaintEnd
  | [] => return .done
  | a :: t => do
    if ← pollCtrlC then return .broken
    else if maintMatch args a.tag then
      match maintBase a.base with
      | none => maintLoop proc args t
      | some b =>
        if ← proc { base := b, tag := a.tag, path := a.path, opt := { maint := args.maint, pack := args.pack, keepNum := a.keepNum, keepDays := a.keepDays } } then
          maintLoop proc args t
        else return .failed
    else maintLoop proc args t

/-- `main` (`crashmaint.c` 949-1042) once the arguments are parsed; `cfg` is the name of the configuration file. `osCheckPattern`
accepts everything (`ospattern.c` 7-10). -/
def crashMaint (proc : MaintJob → Prog Bool) (args : MaintArgs) (cfg : Str) : Prog MaintEnd :=
  if !args.maint && !args.pack then return .done
  else do
    match ← readFile cfg with
    | none => return .failed
    | some file => maintLoop proc args (maintConfig file)

/-- `processfunc` for areas in the *.msg format: the result is always TRUE (`crashmaint.c` 230-429). JAM areas are left to `jam`. -/
def maintProc (jam : MaintJob → Prog Bool) (today : UInt32) (date : Str) (j : MaintJob) : Prog Bool :=
  if j.base = 0 then do
    let _ ← msgMaint j.opt today date j.path
    return true
  else jam j

end CM
