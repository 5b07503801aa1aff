import Verif.Model.Search
import Verif.Model.Main
import Verif.Model.CrashWrite
import Verif.Model.CrashStats
import Verif.Model.CrashExport
import Verif.Model.CrashMaint
import Verif.Model.CrashList
import Verif.Model.GetNode
import Verif.Model.ListOut

/-! # The command lines of the tools

`main` of CrashStats, CrashListOut, CrashGetNode, CrashExport, CrashMaint and CrashList from the command line on. The text that
is printed for `help` and for a wrong command line is not modelled, nor is a failure of `osInit` (it cannot fail on Linux). -/

namespace CM

/-- How a tool ends: it shows its arguments, refuses the command line, or exits with a code after its work. -/
inductive ToolEnd (α : Type) where
  | help
  | refused
  | ran (code : Nat) (a : α)
  deriving DecidableEq, Repr

/-- The beginning of every `main` (`crashstats.c` 356-373, `crashlistout.c` 617-634, `crashgetnode.c` 45-62, `crashexport.c` 177-194,
`crashmaint.c` 938-955, `crashlist.c` 264-281). -/
def toolStart {α : Type} (table : List Arg) (argv : List Str) (go : List Arg → Except UB (ToolEnd α)) : Except UB (ToolEnd α) :=
  if argv.head?.any helpWords.contains then .ok .help
  else
    match parseArgs table argv with
    | none => .ok .refused
    | some a => go a

/-- `OS_EXIT_OK` and `OS_EXIT_ERROR` (`os_linux.h` 6-7). -/
def exitCode (ok : Bool) : Nat := if ok then 0 else 10

/-- `args` of CrashStats (`crashstats.c` 98-105). -/
def csTableArgs : List Arg :=
  [⟨.string, some b!"FILE", true, true, .none⟩, ⟨.string, some b!"SORT", false, false, .none⟩, ⟨.bool, some b!"LAST7", false, false, .none⟩,
   ⟨.bool, some b!"NOAREAS", false, false, .none⟩, ⟨.bool, some b!"NONODES", false, false, .none⟩, ⟨.string, some b!"GROUP", false, false, .none⟩]

/-- `main` of CrashStats (`crashstats.c` 332-701). `read` opens and reads a file. -/
def crashStatsMain (e : StatEnv) (read : Str → Option Str) (err : Str) (argv : List Str) : Except UB (ToolEnd Str) :=
  toolStart csTableArgs argv fun a =>
    match argStr a 0 with
    | none => .error .nullDeref
    | some f => do
      let r ← crashStats e { file := f, sort := argStr a 1, last7 := argSet a 2, noAreas := argSet a 3, noNodes := argSet a 4, group := argStr a 5 } (read f) err
      .ok (.ran (exitCode r.1) r.2)

/-- `args` of CrashListOut (`crashlistout.c` 68-73). -/
def loTableArgs : List Arg :=
  [⟨.string, some b!"DIRECTORY", true, false, .none⟩, ⟨.string, some b!"ZONE", true, false, .none⟩, ⟨.string, some b!"PATTERN", true, false, .none⟩,
   ⟨.bool, some b!"VERBOSE", false, false, .none⟩]

/-- The exit code of CrashListOut (`crashlistout.c` 673, 696, 723). If the directory cannot be read, `main` returns `FALSE`. -/
def LoEnd.code : LoEnd → Nat
  | .badPattern => 10
  | .noDir => 0
  | .shown _ => 0

/-- `main` of CrashListOut (`crashlistout.c` 609-724); `outbound` and `zone` are the variables `CMOUTBOUND` and `CMOUTBOUNDZONE`. -/
def listOutMain (e : LoEnv) (outbound zone : Option Str) (argv : List Str) : Except UB (ToolEnd LoEnd) :=
  toolStart loTableArgs argv fun a => do
    let r ← listOut e
      { dir := (argStr a 0).getD (outbound.getD b!".")
        zone := match argStr a 1 with
          | some z => UInt32.ofInt (atoi z)
          | none => match zone with
            | some z => UInt32.ofInt (atoi z)
            | none => 2
        pattern := argStr a 2
        verbose := argSet a 3 }
    .ok (.ran r.code r)

/-- `args` of CrashGetNode (`crashgetnode.c` 22-25). -/
def gnTableArgs : List Arg := [⟨.string, some b!"NODE", true, true, .none⟩, ⟨.string, some b!"DIRECTORY", true, false, .none⟩]

/-- The exit code of CrashGetNode (`crashgetnode.c` 80, 86, 98, 154). -/
def GnEnd.code : GnEnd → Nat
  | .shown _ => 0
  | _ => 10

/-- `main` of CrashGetNode (`crashgetnode.c` 35-155); `none` is the message that there is no directory (70-75), `env` the variable
`CMNODELISTDIR`. `lists` and `index` give what is in a directory. -/
def getNodeMain (lists : Str → Str → Option (List UInt8)) (index : Str → Option (List UInt8)) (env : Option Str) (argv : List Str) :
    Except UB (ToolEnd (Option GnEnd)) :=
  toolStart gnTableArgs argv fun a =>
    match (argStr a 1).or env with
    | none => .ok (.ran 10 none)
    | some dir =>
      match argStr a 0 with
      | none => .error .nullDeref
      | some n => do
        let r ← getNode (lists dir) (index dir) n
        .ok (.ran r.code (some r))

/-- `args` of CrashList (`crashlist.c` 29-31). -/
def clTableArgs : List Arg := [⟨.string, some b!"DIRECTORY", true, false, .none⟩]

/-- `main` of CrashList (`crashlist.c` 255-337). -/
def crashListCmd (d : ClDisk) (stale : Nat → List UInt8) (canWrite : Str → Bool) (argv : List Str) : Except UB (ToolEnd (Option (List UInt8) × Str)) :=
  toolStart clTableArgs argv fun a =>
    let dir := (argStr a 0).getD b!"."
    let r := crashListMain d dir stale (canWrite (makeFullPath dir b!"cmnodelist.index" 200))
    .ok (.ran (exitCode r.2.2) (r.1, r.2.1))

/-- `args` of CrashExport (`crashexport.c` 41-46). -/
def cxTableArgs : List Arg :=
  [⟨.string, some b!"PREFSFILE", true, true, .none⟩, ⟨.string, some b!"OUTFILE", true, true, .none⟩, ⟨.string, some b!"FORMAT", true, true, .none⟩,
   ⟨.string, some b!"GROUP", false, false, .none⟩]

/-- How CrashExport ends: the format is unknown (216-221), a file cannot be opened (223-240), or a file is written. -/
inductive CxEnd where
  | badFormat
  | noInput
  | noOutput
  | wrote (file : Str) (content : Except CxErr Str)

/-- The exit code of CrashExport (`crashexport.c` 220, 229, 239, 356). -/
def CxEnd.code : CxEnd → Nat
  | .wrote _ _ => 0
  | _ => 10

/-- `main` of CrashExport (`crashexport.c` 167-357). The file that is written is emptied before the configuration is read. Two names
stand for one file only if they are equal. -/
def crashExportMain (read : Str → Option (List UInt8)) (canWrite : Str → Bool) (now : Str) (argv : List Str) : Except UB (ToolEnd CxEnd) :=
  toolStart cxTableArgs argv fun a =>
    match argStr a 0, argStr a 1, argStr a 2 with
    | some inp, some out, some fmt =>
      let r := match cxFormat fmt with
        | none => CxEnd.badFormat
        | some f =>
          match read inp with
          | none => .noInput
          | some c => if !canWrite out then .noOutput else .wrote out (crashExport f (argStr a 3) now (if inp = out then [] else c))
      .ok (.ran r.code r)
    | _, _, _ => .error .nullDeref

/-- `args` of CrashMaint (`crashmaint.c` 76-82). -/
def cmTableArgs : List Arg :=
  [⟨.bool, some b!"MAINT", false, false, .none⟩, ⟨.bool, some b!"PACK", false, false, .none⟩, ⟨.bool, some b!"VERBOSE", false, false, .none⟩,
   ⟨.string, some b!"SETTINGS", false, false, .none⟩, ⟨.string, some b!"PATTERN", false, false, .none⟩]

/-- The exit code of CrashMaint (`crashmaint.c` 976, 1001, 1024, 1041). -/
def MaintEnd.code : MaintEnd → Nat
  | .failed => 10
  | _ => 0

/-- `main` of CrashMaint (`crashmaint.c` 926-1042); `env` is the variable `CMCONFIGFILE`. -/
def crashMaintMain (proc : MaintJob → Prog Bool) (env : Option Str) (argv : List Str) : Prog (ToolEnd MaintEnd) :=
  if argv.head?.any helpWords.contains then return .help
  else
    match parseArgs cmTableArgs argv with
    | none => return .refused
    | some a => do
      let r ← crashMaint proc { maint := argSet a 0, pack := argSet a 1, pattern := argStr a 4 } ((argStr a 3).getD (env.getD b!"crashmail.prefs"))
      return .ran r.code r

end CM
