import Verif.Model.Nodelist
import Verif.Model.Strings
/-! # Model of the choice of nodelists by CrashList (`tools/crashlist.c`)

The index itself is in `Model/Nodelist.lean`. Memory is not exhausted, the disk does not change meanwhile and
all files can be read to the end and written. `strcpy(buf,GetFilePart(buf))` (162) is taken to move the string
to the beginning of the buffer, which the C standard does not promise. The nodelists are never closed. -/

namespace CM

/-- The disk: the names in a directory in the order of `readdir` (`osScanDir`), the date of what has a path
(`osGetFileEntry`, `osExists`), the contents of a file (`osOpen`) and the text for the last error. -/
structure ClDisk where
  scan : Str → Option (List Str)
  date : Str → Option Int
  content : Str → Option (List UInt8)
  error : Str

/-- `isnodelistending` (`crashlist.c` 74-85). -/
def nlEnding (name : Str) : Bool :=
  if name.length < 4 then false
  else
    match name.drop (name.length - 4) with
    | [a, b, c, d] => a == 46 && isDigit b && isDigit c && isDigit d
    | _ => false

/-- `scandirfunc` (`crashlist.c` 87-110): `nlname` and `newest`. -/
def clScanFunc (d : ClDisk) (dir file : Str) (s : Str × Int) (name : Str) : Str × Int :=
  if nlEnding name then
    if eqin name file (name.length - 4) then
      match d.date (makeFullPath dir name 500) with
      | none => s
      | some t =>
        if s.1 = [] ∨ s.2 < t then
          (mystrncpy (mystrncpy (getFilePart (makeFullPath dir name 500)) 100) 100, t)
        else s
    else s
  else s

/-- `FindList` (`crashlist.c` 112-141): the path and the text printed. -/
def findList (d : ClDisk) (dir file : Str) : Option Str × Str :=
  if (d.date (makeFullPath dir file 500)).isSome then (some (makeFullPath dir file 500), [])
  else
    match d.scan dir with
    | none => (none, b!"Failed to scan directory " ++ dir ++ b!"\nError: " ++ d.error ++ b!"\n")
    | some names =>
      let s := names.foldl (clScanFunc d dir file) ([], 0)
      if s.1 = [] then (none, b!"Found no nodelist matching " ++ file ++ b!" in " ++ dir ++ b!"\n")
      else (some (makeFullPath dir s.1 500), [])

/-- `ProcessList` (`crashlist.c` 143-253): the nodelist that is indexed and the text printed. `stale` is what
the buffer holds behind the name. -/
def clProcess (d : ClDisk) (dir file : Str) (stale : List UInt8) (zone : UInt16) : Option NlFile × Str :=
  match findList d dir file with
  | (none, t) => (none, t)
  | (some p, t) =>
    match d.content p with
    | none => (none, t ++ b!"Failed to read " ++ p ++ b!"\nError: " ++ d.error ++ b!"\n")
    | some c => (some ⟨getFilePart p, stale, zone, c⟩, t ++ b!"Processing nodelist " ++ getFilePart p ++ b!"...\n")

/-- A line of `cmnodelist.prefs` (`crashlist.c` 315-328): the name and the zone. -/
def clLine (cfg : Str) : Option (Str × UInt16) :=
  if cfg.head? = some 59 then none
  else
    let w := jbstrcpy 100 cfg
    if w.2.2 then
      let z := jbstrcpy 10 w.2.1
      some (w.1, if z.2.2 then (UInt32.ofInt (atoi z.1)).toUInt16 else 0)
    else none

/-- The loop `crashlist.c` 313-330. `fuel` bounds the number of lines (the length of the file does). The
`k`-th nodelist has `stale k` behind its name. -/
def clLoop (d : ClDisk) (dir : Str) (stale : Nat → List UInt8) : Nat → Nat → List UInt8 → List NlFile × Str
  | 0, _, _ => ([], [])
  | fuel + 1, k, f =>
    match osFGets 200 f with
    | none => ([], [])
    | some (s, r) =>
      if s = [] then ([], [])
      else
        match clLine s with
        | none => clLoop d dir stale fuel k r
        | some (file, zone) =>
          let p := clProcess d dir file (stale k) zone
          let q := clLoop d dir stale fuel (k + 1) r
          (p.1.toList ++ q.1, p.2 ++ q.2)

/-- `main` of CrashList (`crashlist.c` 255-338) for the directory `dir` (283-286), from 288 on: the index file,
if one is written, the text and whether the program succeeds. `canWrite`: the index can be opened. -/
def crashListMain (d : ClDisk) (dir : Str) (stale : Nat → List UInt8) (canWrite : Bool) : Option (List UInt8) × Str × Bool :=
  match d.content (makeFullPath dir b!"cmnodelist.prefs" 200) with
  | none =>
    (none, b!"Failed to open " ++ makeFullPath dir b!"cmnodelist.prefs" 200 ++ b!" for reading\nError: " ++ d.error ++ b!"\n", false)
  | some f =>
    if !canWrite then
      (none, b!"Failed to open " ++ makeFullPath dir b!"cmnodelist.index" 200 ++
        b!" for writing (nodelist in use?)\nError: " ++ d.error ++ b!"\n", false)
    else
      let r := clLoop d dir stale (f.length + 1) 0 f
      (some (crashList r.1), r.2, true)

end CM
