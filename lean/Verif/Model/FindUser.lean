import Verif.Model.Jam
/-! # Looking for the messages to a user of a JAM base (`jamlib/mbase.c`, `JAM_FindUser`) -/

namespace CM

/-- The loop of `JAM_FindUser` (`jamlib/mbase.c` 418-434) over the index file. `freadjamindex`
(`jamlib/structrw.c` 154-165) reads eight bytes; a failed read is the end of the file, as errors of the
device are left out. The first number bounds the rounds; one more than the length of the file is never
reached. Numbers have no limit: the file has fewer than 2^32 records. -/
def fuScan (u : UInt32) (f : Data) : Nat → Nat → Option Nat
  | 0, _ => none
  | n + 1, k =>
    if 8 * k + 8 ≤ f.length then
      if get32 f (8 * k) = u then some k else fuScan u f n (k + 1)
    else none

/-- `JAM_FindUser` (`jamlib/mbase.c` 404-438); `none` is `JAM_NO_USER`. -/
def findUser (f : Data) (u : UInt32) (start : Nat) : Option Nat := fuScan u f (f.length + 1) start

/-- What a message reader does to see all messages to a user: it looks for the first one from `k` on, and
goes on after it until there is none. Not code of the library but the use it is made for. -/
def fuWalk (f : Data) (u : UInt32) : Nat → Nat → List Nat
  | 0, _ => []
  | n + 1, k =>
    match findUser f u k with
    | none => []
    | some j => j :: fuWalk f u n (j + 1)

end CM
