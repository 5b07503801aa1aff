import Verif.Model.FileOps
import Verif.Model.Search
/-! # Model of the main program of CrashMail (`main` and what it uses in `crashmail/crashmail.c`)

What the commands do is a parameter here (`MainParts`); the commands themselves are modelled elsewhere. The
texts printed and logged are left out. -/

namespace CM

/-- The names and types of the arguments (`crashmail.c` 66-88). -/
def cmArgNames : List (Str × ArgType) :=
  [(b!"SCAN", .bool), (b!"TOSS", .bool), (b!"TOSSFILE", .string), (b!"TOSSDIR", .string), (b!"SCANAREA", .string),
   (b!"SCANLIST", .string), (b!"SCANDOTJAM", .string), (b!"RESCAN", .string), (b!"RESCANNODE", .string),
   (b!"RESCANMAX", .string), (b!"SENDQUERY", .string), (b!"SENDLIST", .string), (b!"SENDUNLINKED", .string),
   (b!"SENDHELP", .string), (b!"SENDINFO", .string), (b!"REMOVE", .string), (b!"SETTINGS", .string),
   (b!"VERSION", .bool), (b!"LOCK", .bool), (b!"UNLOCK", .bool), (b!"NOSECURITY", .bool)]

/-- `args` (`crashmail.c` 66-88). -/
def cmArgs : List Arg := cmArgNames.map fun x => ⟨x.2, some x.1, false, false, .none⟩

/-- `args[ARG_...].data`. -/
def argData (args : List Arg) (i : Nat) : ArgData := (args[i]?.map (·.data)).getD .none

/-- `args[ARG_...].data` as a string. -/
def ArgData.text : ArgData → Option Str
  | .str s => Option.some s
  | _ => Option.none

/-- What `main` can be asked to do. -/
inductive MainCommand where
  | toss
  | tossFile (f : Str)
  | tossDir (d : Str)
  | scan
  | scanArea (a : Str)
  | scanList (f : Str)
  | scanDotJam (f : Str)
  | rescan (area node : Str) (max : UInt32)
  | sendList (n : Str)
  | sendQuery (n : Str)
  | sendUnlinked (n : Str)
  | sendHelp (n : Str)
  | sendInfo (n : Str)
  | remove (a : Str)
  /-- "No RESCANNODE specified" is logged. -/
  | noNode
  deriving DecidableEq, Repr

/-- The commands (`crashmail.c` 650-703): two chains of `else if`. -/
def mainCommands (a : List Arg) : List MainCommand :=
  (if argData a 1 ≠ .none then [.toss]
   else match (argData a 2).text with
     | some f => [.tossFile f]
     | none => []) ++
  (match (argData a 3).text with
   | some d => [.tossDir d]
   | none =>
     if argData a 0 ≠ .none then [.scan]
     else match (argData a 4).text, (argData a 5).text, (argData a 6).text, (argData a 7).text with
       | some x, _, _, _ => [.scanArea x]
       | none, some x, _, _ => [.scanList x]
       | none, none, some x, _ => [.scanDotJam x]
       | none, none, none, some x =>
         match (argData a 8).text with
         | none => [.noNode]
         | some n => [.rescan x n (match (argData a 9).text with | some m => UInt32.ofInt (atoi m) | none => 0)]
       | none, none, none, none =>
         match (argData a 11).text, (argData a 10).text, (argData a 12).text, (argData a 13).text, (argData a 14).text with
         | some x, _, _, _, _ => [.sendList x]
         | none, some x, _, _, _ => [.sendQuery x]
         | none, none, some x, _, _ => [.sendUnlinked x]
         | none, none, none, some x, _ => [.sendHelp x]
         | none, none, none, none, some x => [.sendInfo x]
         | none, none, none, none, none =>
           match (argData a 15).text with
           | some x => [.remove x]
           | none => [])

/-- The rest of the program: reading and checking the configuration (`crashmail.c` 613-631), `Init`
(111-144), a command, and `Free` (93-109). `κ` is what is in memory;
the first argument of `run` is `no_security` (642-648). -/
structure MainParts (κ : Type) where
  readConfig : Str → Prog (Option κ)
  init : κ → Prog (Option κ)
  run : Bool → κ → MainCommand → Prog κ
  free : κ → Prog Unit

/-- The commands one after the other. -/
def mainRun {κ : Type} (P : MainParts κ) (nosec : Bool) (k : κ) : List MainCommand → Prog κ
  | [] => .ret k
  | c :: r => (P.run nosec k c).bind fun k => mainRun P nosec k r

/-- `CleanUp` (`crashmail.c` 517-535) after the configuration has been locked. `config.filename` is the name
cut to 99 characters (`config.c` 50). -/
def cleanUp {κ : Type} (P : MainParts κ) (cfg : Str) (k : Option κ) (code : Nat) : Prog Nat :=
  (unlockConfig (cfg.take 99)).bind fun _ =>
    match k with
    | none => .ret code
    | some k => (P.free k).bind fun _ => .ret code

/-- `main` from the second `LockConfig` on (`crashmail.c` 603-714). -/
def mainSession {κ : Type} (P : MainParts κ) (fuel : Nat) (cfg : Str) (nosec : Bool) (cmds : List MainCommand) : Prog Nat :=
  (lockConfig fuel cfg).bind fun ok =>
    if !ok then .ret 10
    else (P.readConfig cfg).bind fun k =>
      match k with
      | none => cleanUp P cfg none 10
      | some k => (P.init k).bind fun k' =>
        match k' with
        | none => cleanUp P cfg none 10
        | some k => (mainRun P nosec k cmds).bind fun k => cleanUp P cfg (some k) 0

/-- The words that ask for help (`crashmail.c` 556-562). -/
def helpWords : List Str := [b!"?", b!"-h", b!"--help", b!"help", b!"/h", b!"/?"]

/-- The name of the configuration (`crashmail.c` 577-583); `env` is the environment variable. -/
def configName (env : Option Str) (a : List Arg) : Str :=
  match (argData a 16).text with
  | some s => s
  | none => env.getD b!"crashmail.prefs"

/-- `main` (`crashmail.c` 542-720) on `argv[1..]`: the exit code. -/
def mainProg {κ : Type} (P : MainParts κ) (fuel : Nat) (env : Option Str) (argv : List Str) : Prog Nat :=
  if argv.head?.any helpWords.contains then .ret 0
  else
    match parseArgs cmArgs argv with
    | none => .ret 10
    | some a =>
      if argData a 17 ≠ .none then .ret 0
      else if argData a 18 ≠ .none then
        (lockConfig fuel (configName env a)).bind fun ok => .ret (if ok then 0 else 10)
      else if argData a 19 ≠ .none then (unlockConfig (configName env a)).bind fun _ => .ret 0
      else mainSession P fuel (configName env a) (decide (argData a 20 ≠ .none)) (mainCommands a)

end CM
