import Verif.Base
/-! # Reading text files line by line (`oslib_linux/osfile.c`) -/

namespace CM

/-- C library `fgets` reading at most `n` more bytes: the bytes read, up to and including the first
line feed, and the rest of the file. -/
def fgetsRaw : Nat → List UInt8 → List UInt8 × List UInt8
  | 0, f => ([], f)
  | _ + 1, [] => ([], [])
  | n + 1, c :: r =>
    if c == 10 then ([c], r)
    else
      let p := fgetsRaw n r
      (c :: p.1, p.2)

/-- `osfile.c` 86-92: CRLF at the end of a string becomes LF. -/
def fixCrLf (s : Str) : Str :=
  if 2 ≤ s.length ∧ s.getLast? = some 10 ∧ s.dropLast.getLast? = some 13 then s.dropLast.dropLast ++ [10] else s

/-- `osFGets` (`osfile.c` 78-98): the string in the buffer and the rest of the file. `none`: nothing
left. The result of the C function is the length of the string, so an empty string (a NUL byte at the
beginning of a line) also ends the loops of its callers. Read errors are not modelled. -/
def osFGets (max : Nat) (f : List UInt8) : Option (Str × List UInt8) :=
  if f = [] then none
  else
    let p := fgetsRaw (max - 1) f
    some (fixCrLf (cstr p.1), p.2)

end CM
