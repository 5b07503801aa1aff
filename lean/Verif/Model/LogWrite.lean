import Verif.Model.Date
/-! # The log (`crashmail/logwrite.c`) and the summaries of runs (`toss.c`, `scan.c`) -/

namespace CM

/-- An argument of `LogWrite`. -/
inductive LogArg where
  | str (s : Str)
  | int (i : Int)
  | uint (n : UInt32)
  deriving DecidableEq, Repr

/-- Undefined behaviour of `vprintf`. -/
inductive FmtErr where
  /-- no conversion that C knows, or one that is not modelled -/
  | badDirective
  /-- fewer arguments than conversions -/
  | missing
  /-- the argument has another type than the conversion -/
  | wrongType
  deriving DecidableEq, Repr

/-- What stands between `%` and the letter of a conversion. -/
structure FmtDir where
  zero : Bool := false
  width : Nat := 0
  long : Bool := false
  deriving DecidableEq, Repr

def FmtDir.pad (d : FmtDir) (s : Str) : Str := List.replicate (d.width - s.length) (if d.zero then 48 else 32) ++ s

/-- `vprintf` of the C library for the conversions `%%`, `%s`, `%u`, `%d`, `%c` with width, leading zeros and `l`. -/
def formatGo : Option FmtDir → Str → List LogArg → Except FmtErr Str
  | none, [], _ => .ok []
  | some _, [], _ => .error .badDirective
  | none, c :: r, as => if c = 37 then formatGo (some {}) r as else return c :: (← formatGo none r as)
  | some d, c :: r, as =>
    if c = 37 ∧ d = {} then return 37 :: (← formatGo none r as)
    else if c = 48 ∧ d = {} then formatGo (some { d with zero := true }) r as
    else if isDigit c ∧ d.long = false then formatGo (some { d with width := d.width * 10 + (c.toNat - 48) }) r as
    else if c = 108 ∧ d.long = false then formatGo (some { d with long := true }) r as
    else if c = 115 ∨ c = 117 ∨ c = 100 ∨ c = 99 then
      match as with
      | [] => .error .missing
      | .str s :: as => if c = 115 ∧ d.long = false then return d.pad s ++ (← formatGo none r as) else .error .wrongType
      | .uint n :: as => if c = 117 ∧ d.long = false then return d.pad (dec n.toNat) ++ (← formatGo none r as) else .error .wrongType
      | .int i :: as =>
        if c = 100 ∧ d.long = false then return d.pad (if i < 0 then 45 :: dec (-i).toNat else dec i.toNat) ++ (← formatGo none r as)
        else if c = 99 ∧ d.long = false then return d.pad [UInt8.ofNat (i % 256).toNat] ++ (← formatGo none r as)
        else .error .wrongType
    else .error .badDirective

def format (fmt : Str) (args : List LogArg) : Except FmtErr Str := formatGo none fmt args

/-- Where the log goes: `cfg_LogLevel` and `usesyslog`. -/
structure LogCfg where
  level : UInt32
  syslog : Bool := false
  deriving DecidableEq, Repr

/-- What is written: on the console, at the end of the log file, and to syslog (category and text). -/
structure LogOut where
  console : Str := []
  file : Str := []
  syslog : List (Nat × Str) := []
  deriving DecidableEq, Repr

def LogOut.append (a b : LogOut) : LogOut := ⟨a.console ++ b.console, a.file ++ b.file, a.syslog ++ b.syslog⟩

/-- `categoryletters` (`logwrite.c` 60). -/
def categoryLetters : Str := b!"-%=!/D+^?"

/-- The format with blanks in front (`logwrite.c` 83-93). -/
def indented (nest : Nat) (fmt : Str) : Str :=
  if 1 < nest ∧ nest + fmt.length < 499 then List.replicate (nest - 1) 32 ++ fmt else fmt

/-- `LogWrite` (`logwrite.c` 77-128) behind the test of the level. `nest` is `handle_nesting`, `t` the result of
`localtime`, whose members are not negative and whose `tm_mon` is below 12. -/
def logCore (c : LogCfg) (nest : Nat) (t : Tm) (cat : Nat) (fmt : Str) (args : List LogArg) : Except FmtErr LogOut :=
  if fmt = [] then .ok { console := [10] }
  else do
    let text ← format (indented nest fmt) args
    if c.syslog then return { console := text ++ [10], syslog := [(cat, text)] }
    else
      return { console := text ++ [10],
               file := categoryLetters.getD cat 0 :: b!" " ++ dec2 t.mday.toNat ++ b!"-" ++ (monthNames ++ [b!"???"]).getD t.mon.toNat [] ++ b!"-" ++
                 dec2 (t.year.toNat % 100) ++ b!" " ++ dec2 t.hour.toNat ++ b!":" ++ dec2 t.min.toNat ++ b!":" ++ dec2 t.sec.toNat ++ b!" " ++ text ++ [10] }

/-- `LogWrite` (`logwrite.c` 62-76). -/
def logWrite (c : LogCfg) (nest : Nat) (t : Tm) (level : UInt32) (cat : Nat) (fmt : Str) (args : List LogArg) : Except FmtErr LogOut :=
  if c.level < level then .ok {}
  else if level = 0 ∧ 6 ≤ c.level then do
    let w ← logCore c nest t 5 b!"*** Warning: Loglevel is 0!!! ***" []
    return w.append (← logCore c nest t cat fmt args)
  else logCore c nest t cat fmt args

/-- The numbers of `LogTossResults`. -/
structure TossTotals where
  read : UInt32
  written : UInt32
  imported : UInt32
  routed : UInt32
  bad : UInt32
  dupes : UInt32
  deriving DecidableEq, Repr

/-- A call of `LogWrite`. -/
structure LogCall where
  level : UInt32
  cat : Nat
  fmt : Str
  args : List LogArg
  deriving DecidableEq, Repr

/-- `LogTossResults` (`toss.c` 60-70), the loop, for areas with tag, `NewTexts` and `NewDupes`; Ctrl-C is not pressed. -/
def areaCalls : List (Str × UInt32 × UInt32) → List LogCall
  | [] => []
  | (tag, n, d) :: r =>
    (if d ≠ 0 then [⟨3, 2, b!"Area %s -- %u messages (%u dupes)", [.str tag, .uint n, .uint d]⟩]
     else if n ≠ 0 then [⟨3, 2, b!"Area %s -- %u messages", [.str tag, .uint n]⟩] else []) ++ areaCalls r

/-- `LogTossResults` (`toss.c` 74-76). The variables are `uint32_t` (`crashmail.c` 17-22). -/
def totalCalls (t : TossTotals) : List LogCall :=
  [⟨1, 2, b!"   Total ->     Read messages: %6lu     Written messages: %6lu", [.uint t.read, .uint t.written]⟩,
   ⟨1, 2, b!"Imported -> Imported messages: %6lu      Routed netmails: %6lu", [.uint t.imported, .uint t.routed]⟩,
   ⟨1, 2, b!"     Bad ->      Bad messages: %6lu   Duplicate messages: %6lu", [.uint t.bad, .uint t.dupes]⟩]

/-- `LogScanResults` (`scan.c` 3-17). -/
def scanCall (n : UInt32) : LogCall :=
  if n = 0 then ⟨2, 2, b!"No messages exported", []⟩
  else if n = 1 then ⟨2, 2, b!"1 message exported", []⟩
  else ⟨2, 2, b!"%u messages exported", [.uint n]⟩

/-- `ScanHandle` (`scan.c` 19-43): the call of `LogWrite`; `place` is the address or the area. -/
def exportCall (netmail : Bool) (num : UInt32) (frm to place : Str) : LogCall :=
  ⟨4, 2, if netmail then b!"Exporting message #%u from \"%s\" to \"%s\" at %s" else b!"Exporting message #%u from \"%s\" to \"%s\" in %s",
   [.uint num, .str frm, .str to, .str place]⟩

/-- The call for an error of `UpdateConfig` (`crashmail.c` 216-217, `config.c` 2261): the message is the format. -/
def updateErrorCall (name err : Str) : LogCall := ⟨1, 1, b!"Unable to read file " ++ name ++ b!" (error: " ++ err ++ b!")", []⟩

/-- Calls of `LogWrite`, one after the other, each with its nesting and time. -/
def logAll (c : LogCfg) : List (Nat × Tm × LogCall) → Except FmtErr LogOut
  | [] => .ok {}
  | (nest, t, x) :: r => do
    let a ← logWrite c nest t x.level x.cat x.fmt x.args
    return a.append (← logAll c r)

end CM
