import Verif.Model.CrashList
import Verif.Model.Disk

/-! # CrashList on the disk (`tools/crashlist.c` 255-338) -/

namespace CM

/-- `main` of CrashList from 288 on, for the directory `dir`, as a program on the disk. The result is whether it ends with `OS_EXIT_OK`. `d` is
what is read: the configuration and the nodelists, which nobody changes meanwhile; they are read while the index is written. No result
of a write is looked at. What is written is in the file at once; the buffers of stdio delay it. -/
def clProg (d : ClDisk) (dir : Str) (stale : Nat → List UInt8) : Prog Bool :=
  match (crashListMain d dir stale true).1 with
  | none => .ret false
  | some index => .write (makeFullPath dir b!"cmnodelist.index" 200) .new index fun r => .ret r.isSome

end CM
