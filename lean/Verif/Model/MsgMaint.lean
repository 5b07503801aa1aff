import Verif.Model.JamMaint
import Verif.Model.MsgBase
import Verif.Model.Sort
/-! # Maintenance of message areas in the *.msg format (`tools/crashmaint.c`, `ProcessAreaMSG`)

`ctrlc` is set by a signal and never reset; it is polled wherever the program looks at it. Running out of
memory is not modelled. Printed messages are left out. -/

namespace CM

/-- `struct Msg` (`crashmaint.c` 95-99); `NewNum` is added below. -/
structure MMsg where
  num : UInt32
  day : UInt32
  deriving DecidableEq, Repr

/-- `scanfunc` (`crashmaint.c` 167-204) for a file whose name ends in `.msg` (`isMsgName`: the tests in lines
174-178 are those of `mb_msg.c`). `osReadDir` stands for `osScanDir` with `osGetFileEntry`; names are
cut to 99 characters. -/
def scanMsg (e : FileEntry) : Option MMsg :=
  if atol e.name < 2 then none else some { num := UInt32.ofInt (atol e.name), day := UInt32.ofInt (e.date.tdiv 86400) }

/-- `Compare` (`crashmaint.c` 103-113). -/
def cmpMsg (a b : MMsg) : Int := if a.num > b.num then 1 else if a.num < b.num then -1 else 0

/-- The high water mark in `1.msg` with the structure that was read (`crashmaint.c` 259-269). -/
def maintMark (dir : Str) : Prog (UInt32 × Data) := do
  match ← readFile (makeFullPath dir b!"1.msg" 200) with
  | none => return (0, [])
  | some f => if f.length < 190 then return (0, []) else return ((wordAt f 184).toUInt32, f.take 190)

/-- `if(msg->Num == highwater) highwater=0` (`crashmaint.c` 289, 325). -/
def dropMark (n hw : UInt32) : UInt32 := if n = hw then 0 else hw

/-- Deleting by number (`crashmaint.c` 271-308); `none` if Ctrl-C was pressed. A message that is deleted gets the number 0. -/
def delByNum (dir : Str) (keep : UInt32) : List MMsg → UInt32 → UInt32 → Prog (Option (List MMsg × UInt32))
  | [], num, hw => if keep < num then do (if ← pollCtrlC then return none else .ub .nullDeref) else return some ([], hw)
  | m :: t, num, hw =>
    if m.num = 0 then do
      match ← delByNum dir keep t num hw with
      | none => return none
      | some r => return some (m :: r.1, r.2)
    else if keep < num then do
      if ← pollCtrlC then return none
      else
        let _ ← osDelete (msgPath dir m.num)
        match ← delByNum dir keep t (num - 1) (dropMark m.num hw) with
        | none => return none
        | some r => return some ({ m with num := 0 } :: r.1, r.2)
    else return some (m :: t, hw)

/-- Deleting by date (`crashmaint.c` 311-349). -/
def delByDay (dir : Str) (today keep : UInt32) : List MMsg → UInt32 → Prog (Option (List MMsg × UInt32))
  | [], hw => return some ([], hw)
  | m :: t, hw => do
    if ← pollCtrlC then return none
    else if today - m.day > keep ∧ m.num ≠ 0 then
      let _ ← osDelete (msgPath dir m.num)
      match ← delByDay dir today keep t (dropMark m.num hw) with
      | none => return none
      | some r => return some ({ m with num := 0 } :: r.1, r.2)
    else
      match ← delByDay dir today keep t hw with
      | none => return none
      | some r => return some (m :: r.1, r.2)

/-- The new numbers (`crashmaint.c` 353-368). If Ctrl-C is pressed here, the next loop ends at once. -/
def newNums : List MMsg → UInt32 → List (MMsg × UInt32)
  | [], _ => []
  | m :: t, n => if m.num = 0 then (m, 0) :: newNums t n else (m, n) :: newNums t (n + 1)

/-- Renaming (`crashmaint.c` 370-386). -/
def renumber (dir : Str) : List (MMsg × UInt32) → UInt32 → Prog (Option UInt32)
  | [], hw => return some hw
  | (m, n) :: t, hw => do
    if ← pollCtrlC then return none
    else if m.num ≠ 0 ∧ m.num ≠ n then
      let _ ← osRename (msgPath dir m.num) (msgPath dir n)
      renumber dir t (if hw = m.num then n else hw)
    else renumber dir t hw

/-- The structure that is written (`crashmaint.c` 400-427) over the one that was read, and the NUL byte behind it. `date` is
the result of `MakeFidoDate`. -/
def markData (d : Data) (date : Str) (hw : UInt32) : Except UB Data :=
  if date.length < 20 then
    .ok (overlay (overlay (overlay (overlay (overlay d 0 (b!"CrashMail II" ++ [0])) 36 (b!"All" ++ [0])) 72 (b!"HighWater mark" ++ [0])) 144 (date ++ [0])) 164
      (le16 0 ++ le16 0 ++ le16 0 ++ le16 0 ++ le16 0 ++ le16 0 ++ le16 0 ++ le16 0 ++ le16 0 ++ le16 0 ++ le16 hw.toUInt16 ++
        le16 (FLAG_SENT ||| FLAG_PVT) ++ le16 0) ++ [0])
  else .error .oobWrite

/-- `none` if Ctrl-C was pressed in or after a loop. -/
def unlessCtrlC {α : Type} (p : Prog (Option α)) : Prog (Option α) := do
  match ← p with
  | none => return none
  | some r => if ← pollCtrlC then return none else return some r

/-- Lines 271-309. -/
def maintByNum (o : JamMaintOpt) (dir : Str) (l : List MMsg) (hw : UInt32) : Prog (Option (List MMsg × UInt32)) :=
  if o.maint && o.keepNum != 0 then unlessCtrlC (delByNum dir o.keepNum l (UInt32.ofNat l.length) hw) else return some (l, hw)

/-- Lines 311-349. -/
def maintByDay (o : JamMaintOpt) (today : UInt32) (dir : Str) (l : List MMsg) (hw : UInt32) : Prog (Option (List MMsg × UInt32)) :=
  if o.maint && o.keepDays != 0 then unlessCtrlC (delByDay dir today o.keepDays l hw) else return some (l, hw)

/-- Lines 351-394. -/
def maintPack (o : JamMaintOpt) (dir : Str) (l : List MMsg) (hw : UInt32) : Prog (Option UInt32) :=
  if o.pack then unlessCtrlC (renumber dir (newNums l 2) hw) else return some hw

/-- Lines 398-430. -/
def maintWrite (date dir : Str) (d : Data) (hw0 hw : UInt32) : Prog Bool :=
  if hw ≠ hw0 then do
    let d ← liftUB (markData d date hw)
    let _ ← writeFile (makeFullPath dir b!"1.msg" 200) .new d
    return true
  else return true

/-- The rest of `ProcessAreaMSG` once the messages are sorted (`crashmaint.c` 259-432): whether it came to the end. -/
def msgMaintRun (o : JamMaintOpt) (today : UInt32) (date : Str) (dir : Str) (l : List MMsg) : Prog Bool := do
  let (hw0, d) ← maintMark dir
  match ← maintByNum o dir l hw0 with
  | none => return false
  | some (l, hw) =>
    match ← maintByDay o today dir l hw with
    | none => return false
    | some (l, hw) =>
      match ← maintPack o dir l hw with
      | none => return false
      | some hw => maintWrite date dir d hw0 hw

/-- `ProcessAreaMSG` after the directory was read (`crashmaint.c` 236-434). `today` is the day by `time(NULL)`. -/
def msgMaintList (o : JamMaintOpt) (today : UInt32) (date : Str) (dir : Str) (es : List FileEntry) : Prog Bool :=
  match isort cmpMsg (es.filterMap scanMsg) with
  | [] => return true
  | l => do if ← pollCtrlC then return false else msgMaintRun o today date dir l

/-- `ProcessAreaMSG` (`crashmaint.c` 207-430). -/
def msgMaint (o : JamMaintOpt) (today : UInt32) (date : Str) (dir : Str) : Prog Bool := do
  match ← osReadDir dir isMsgName with
  | none => return false
  | some es => msgMaintList o today date dir es

end CM
