import Verif.Base
/-! # Small string functions: `shared/jbstrcpy.c`, `shared/path.c`, `oslib_linux/ospattern.c`,
`WriteSafely`, file name classes, group flags, `striptrail` -/

namespace CM

/-! ## Tokenizer -/

/-- Blank skipped before a token (`shared/jbstrcpy.c` 13, 58). -/
def isBlank (c : UInt8) : Bool := c == 32 || c == 9

/-- Does the copy loop of `jbstrcpy` stop at `c` (`shared/jbstrcpy.c` 15-27). -/
def tokStop (quoted : Bool) (c : UInt8) : Bool :=
  c == 10 || (if quoted then c == 34 else c == 32 || c == 9)

/-- The copy loop of `jbstrcpy` (`shared/jbstrcpy.c` 27-36) on the rest of the source string: `quoted`
selects the stop characters, `d` is the number of bytes already stored. Returns the bytes stored from
here on and the rest of the source at the byte that stopped the loop. `maxlen` is at least 1 in every
call (`maxlen-1` does not wrap). The source string contains no NUL, its end is the terminator. -/
def tokLoop (quoted : Bool) (maxlen : Nat) (d : Nat) : Str → Str × Str
  | [] => ([], [])
  | c :: r =>
    if tokStop quoted c then ([], c :: r)
    else if c = 92 then
      match r with
      | [] => (if d < maxlen - 1 then [92] else [], [])
      | e :: r' =>
        if e = 10 then (if d < maxlen - 1 then [92] else [], e :: r')
        else if d < maxlen - 1 then
          ((e :: (tokLoop quoted maxlen (d + 1) r').1), (tokLoop quoted maxlen (d + 1) r').2)
        else tokLoop quoted maxlen d r'
    else if d < maxlen - 1 then
      ((c :: (tokLoop quoted maxlen (d + 1) r).1), (tokLoop quoted maxlen (d + 1) r).2)
    else tokLoop quoted maxlen d r

/-- One separator after a token is skipped (`shared/jbstrcpy.c` 40-41). -/
def skipSep : Str → Str
  | [] => []
  | c :: r => if c = 9 ∨ c = 32 ∨ c = 34 then r else c :: r

/-- `jbstrcpy` (`shared/jbstrcpy.c` 5-49). The argument is the source string from `*jbc` on; the
result is the string stored in `dest`, the source from the new `*jbc` on, and the return value. -/
def jbstrcpy (maxlen : Nat) (src : Str) : Str × Str × Bool :=
  let s := src.dropWhile isBlank
  let quoted := s.head? == some 34
  let s := if quoted then s.tail else s
  let t := tokLoop quoted maxlen 0 s
  (t.1, skipSep t.2, t.1 ≠ [] || quoted)

/-- `jbstrcpyrest` (`shared/jbstrcpy.c` 52-77), same conventions. -/
def jbstrcpyrest (maxlen : Nat) (src : Str) : Str × Str × Bool :=
  let s := src.dropWhile isBlank
  let d := (s.takeWhile (· != 10)).take (maxlen - 1)
  (d, s.dropWhile (· != 10), d ≠ [])

/-- Escaping loop of `WriteSafely` (`crashmail/config.c` 1985-1991). -/
def escape : Str → Str
  | [] => []
  | c :: r => if c = 34 ∨ c = 92 then 92 :: c :: escape r else c :: escape r

/-- `WriteSafely` (`crashmail/config.c` 1978-1996): the bytes written to the file. The buffer is
`char buf[300]`: a longer escaped string overflows it. -/
def writeSafely (s : Str) : Except UB Str :=
  if (escape s).length < 300 then .ok (b!"\"" ++ escape s ++ b!"\"") else .error .oobWrite

/-! ## Paths -/

/-- `MakeFullPath` (`shared/path.c` 8-30) with `OS_PATH_CHARS` = "/". `destsize` ≥ 1. -/
def makeFullPath (path file : Str) (destsize : Nat) : Str :=
  let dest := mystrncpy path destsize
  let dest :=
    if dest ≠ [] ∧ dest.getLast? ≠ some 47 ∧ dest.length + 1 < destsize then dest ++ [47] else dest
  if destsize - dest.length - 1 > 0 then dest ++ mystrncpy file (destsize - dest.length - 1) else dest

/-- Loop of `GetFilePart` (`shared/path.c` 41-42): `ret` is the current result. -/
def getFilePartLoop (ret : Str) : Str → Str
  | [] => ret
  | c :: r => getFilePartLoop (if c = 47 then r else ret) r

/-- `GetFilePart` (`shared/path.c` 32-45). -/
def getFilePart (s : Str) : Str := getFilePartLoop s s

/-! ## AmigaDOS-like patterns -/

/-- `osMatchPattern` (`oslib_linux/ospattern.c` 12-32). -/
def osMatchPattern : Str → Str → Bool
  | [], s => s.isEmpty
  | p :: ps, s =>
    if p = 42 then true
    else match s with
      | [] => false
      | c :: s => if p ≠ 63 ∧ lower p ≠ lower c then false else osMatchPattern ps s

/-- `osIsPattern` (`oslib_linux/ospattern.c` 34-40). -/
def osIsPattern (p : Str) : Bool := p.contains 63 || p.contains 42

/-! ## File classes -/

/-- Tests of `IsArc` on one name character (`crashmail/misc.c` 189); `char` is signed, so bytes from
128 on fail both ranges. -/
def arcNameChar (c : UInt8) : Bool :=
  (48 ≤ c && c ≤ 57) || (97 ≤ lower c && lower c ≤ 122)

/-- `IsArc` (`crashmail/misc.c` 179-203). -/
def isArc (f : Str) : Bool :=
  f.length == 12 && f[8]? == some 46 && (f.take 8).all arcNameChar &&
  (let ext := (f.drop 9).take 2
   eqi ext b!"MO" || eqi ext b!"TU" || eqi ext b!"WE" || eqi ext b!"TH" || eqi ext b!"FR" ||
   eqi ext b!"SA" || eqi ext b!"SU")

/-- `IsPkt` (`crashmail/misc.c` 205-212). -/
def isPkt (f : Str) : Bool := f.length == 12 && f[8]? == some 46 && eqi (f.drop 9) b!"pkt"

/-- `IsNewPkt` (`crashmail/misc.c` 214-223). -/
def isNewPkt (f : Str) : Bool := !(f.length < 7) && eqi (f.drop (f.length - 7)) b!".newpkt"

/-- `IsPktTmp` (`crashmail/misc.c` 225-234). -/
def isPktTmp (f : Str) : Bool := !(f.length < 7) && eqi (f.drop (f.length - 7)) b!".pkttmp"

/-- `IsOrphan` (`crashmail/misc.c` 236-245). -/
def isOrphan (f : Str) : Bool := !(f.length < 7) && eqi (f.drop (f.length - 7)) b!".orphan"

/-- `IsBad` (`crashmail/misc.c` 247-253). -/
def isBad (f : Str) : Bool := f.length > 4 && eqi (f.drop (f.length - 4)) b!".bad"

/-! ## Group flags -/

/-- Loop of `CheckFlags`/`MatchFlags` (`crashmail/areafix.c` 1605-1616, `crashmail/misc.c` 317-328).
The counter is a `uint8_t`; `none` means the loop never ends (fuel 256 covers one full cycle of the
counter). -/
def checkFlagsLoop (group : UInt8) (node : Str) : Nat → UInt8 → Option Bool
  | 0, _ => none
  | f + 1, c =>
    if c.toNat < node.length then
      if node[c.toNat]? = some group then some true else checkFlagsLoop group node f (c + 1)
    else some false

/-- `CheckFlags`, `MatchFlags`. -/
def checkFlags (group : UInt8) (node : Str) : Option Bool := checkFlagsLoop group node 257 0

/-- `CorrectFlags` (`crashmail/config.c` 5-18): the modified string and the return value. -/
def correctFlags : Str → Str × Bool
  | [] => ([], true)
  | c :: r =>
    if upper c < 65 ∨ upper c > 90 then (upper c :: r, false)
    else let t := correctFlags r; (upper c :: t.1, t.2)

/-! ## Stripping -/

/-- A byte below 33 as a signed `char`: control characters, blank, and every byte from 128 on. -/
def below33 (c : UInt8) : Bool := c < 33 || 128 ≤ c

/-- Loop of `striptrail` (`crashmail/misc.c` 259-260) on the reversed string. When no byte is left,
the loop condition reads `str[-1]` before testing `c>=0`. -/
def striptrailLoop : Str → Except UB Str
  | [] => .error .oobRead
  | c :: r => if below33 c then striptrailLoop r else .ok (c :: r)

/-- `striptrail` (`crashmail/misc.c` 255-261). -/
def striptrail (s : Str) : Except UB Str := (striptrailLoop s.reverse).map List.reverse

/-- `striplead` (`crashmail/misc.c` 264-274). -/
def striplead (s : Str) : Str := s.dropWhile (· == 32)

/-- `stripleadtrail` (`crashmail/misc.c` 276-280). -/
def stripleadtrail (s : Str) : Except UB Str := striptrail (striplead s)

end CM
