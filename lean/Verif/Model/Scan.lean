import Verif.Model.MbJam
import Verif.Model.ConfigFile
/-! # Export from many areas (`crashmail/scan.c`)

`BeforeScanToss` and `AfterScanToss` are left out: the functions below begin after the first has succeeded, and their result is the
argument that the second is called with, and the value returned. The list of areas does not change while areas are scanned. -/

namespace CM

/-- What the functions call: `exportfunc` of the message base of an area, with its position in the list, and the test of `ctrlc`. -/
structure ScanOps (σ : Type) where
  exp : Nat → Area → σ → Except JErr (Bool × σ)
  ctrlc : σ → Bool × σ

/-- The conditions of `scan.c` 55-59 (and 125-136): all message bases have an `exportfunc`. -/
def scannable (cfg : Config) (a : Area) : Bool :=
  a.base.isSome && (a.type = .echomail || a.type = .netmail) && !(a.type = .netmail && cfg.has CFG_NOEXPORTNETMAIL)

/-- The loop of `Scan` (`scan.c` 54-74): `false` if an export has failed. -/
def scanLoop {σ : Type} (cfg : Config) (ops : ScanOps σ) : List (Nat × Area) → σ → Except JErr (Bool × σ)
  | [], s => .ok (true, s)
  | (i, a) :: r, s =>
    let (stop, s) := ops.ctrlc s
    if stop then .ok (true, s)
    else if scannable cfg a then do
      let (ok, s) ← ops.exp i a s
      if ok then scanLoop cfg ops r s else return (false, s)
    else scanLoop cfg ops r s

/-- The areas with their positions. -/
def Config.numbered (cfg : Config) : List (Nat × Area) := (List.range cfg.areas.length).zip cfg.areas

/-- The test of `ctrlc` at the end (`scan.c` 76-80, 160-164, 247-251). -/
def scanEnd {σ : Type} (ops : ScanOps σ) (x : Bool × σ) : Bool × σ :=
  if x.1 then let (stop, s) := ops.ctrlc x.2; (!stop, s) else x

/-- `Scan` (`scan.c` 45-86). -/
def scanAll {σ : Type} (cfg : Config) (ops : ScanOps σ) (s : σ) : Except JErr (Bool × σ) := do
  return scanEnd ops (← scanLoop cfg ops cfg.numbered s)

/-- A line of the file for `ScanList` (`scan.c` 108-115): the area it names. -/
def scanTag (cfg : Config) (line : Str) : Except UB (Option Nat) := do
  let buf ← striptrail line
  if buf ≠ [] then
    let buf ← striptrail buf
    return cfg.areas.findIdx? fun a => eqi a.tag buf
  else return none

/-- A line of the file for `ScanDotJam` (`scan.c` 192-202). -/
def scanPath (cfg : Config) (line : Str) : Except UB (Option Nat) := do
  let buf ← striptrail line
  if buf ≠ [] then
    let buf ← striptrail buf
    return cfg.areas.findIdx? fun a => eqi a.path (buf.takeWhile (· != 32))
  else return none

/-- The loops of `ScanList` and `ScanDotJam` (`scan.c` 106-156, 190-243); `seen` are the areas with the mark `scanned`. -/
def listLoop {σ : Type} (cfg : Config) (ops : ScanOps σ) (name : Str → Except UB (Option Nat)) : List Str → List Nat → σ → Except JErr (Bool × σ)
  | [], _, s => .ok (true, s)
  | l :: ls, seen, s =>
    let (stop, s) := ops.ctrlc s
    if stop then .ok (true, s)
    else do
      match ← liftJ (name l) with
      | none => listLoop cfg ops name ls seen s
      | some i =>
        if i ∈ seen then listLoop cfg ops name ls seen s
        else match cfg.areas[i]? with
          | none => .error (.ub .nullDeref)
          | some a =>
            if scannable cfg a then
              let (ok, s) ← ops.exp i a s
              if ok then listLoop cfg ops name ls (i :: seen) s else return (false, s)
            else listLoop cfg ops name ls (i :: seen) s

/-- `ScanList` (`scan.c` 88-170): `file` is the contents of the file. -/
def scanList {σ : Type} (cfg : Config) (ops : ScanOps σ) (file : List UInt8) (s : σ) : Except JErr (Bool × σ) := do
  return scanEnd ops (← listLoop cfg ops (scanTag cfg) (fileLines 100 file.length file) [] s)

/-- `ScanDotJam` (`scan.c` 172-257). -/
def scanDotJam {σ : Type} (cfg : Config) (ops : ScanOps σ) (file : List UInt8) (s : σ) : Except JErr (Bool × σ) := do
  return scanEnd ops (← listLoop cfg ops (scanPath cfg) (fileLines 100 file.length file) [] s)

/-- `ScanArea` (`scan.c` 259-305): `none` if the area cannot be scanned. NOEXPORTNETMAIL is not looked at. -/
def scanArea {σ : Type} (cfg : Config) (ops : ScanOps σ) (tag : Str) (s : σ) : Except JErr (Option (Bool × σ)) :=
  match cfg.areas.findIdx? fun a => eqi a.tag tag with
  | none => .ok none
  | some i =>
    match cfg.areas[i]? with
    | none => .error (.ub .nullDeref)
    | some a =>
      if a.base.isSome && (a.type = .echomail || a.type = .netmail) then do return some (← ops.exp i a s)
      else .ok none

/-- All areas in the JAM format. The list, which is not in the program, is what was exported: area, number and message. -/
def jamScanOps (o : JamOpt) (r : JamRun) (handle : JamHandler) (aka : Area → Node4D) : ScanOps (JamW × List (Nat × UInt32 × MemMsg)) where
  exp i a s := do
    let y ← jamExport o r handle i a (aka a) s.1
    return (y.ok, y.w, s.2 ++ y.sent.map fun z => (i, z))
  ctrlc s := (r.ctrlc s.1.tick, s.1.step, s.2)

end CM
