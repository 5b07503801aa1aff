/-!
# Bytes and C strings

A C string (`char *`) is modelled by the list of its bytes up to, and not including, the
terminating NUL.
-/

namespace CM

/-- The bytes of a C string, without the terminating NUL. -/
abbrev Str := List UInt8

/-- `b!"ABC"` is the explicit byte list of an ASCII literal. -/
syntax:max "b!" str : term
open Lean in
macro_rules
  | `(b! $s:str) => do
    let cs := s.getString.toList.map (fun c => Syntax.mkNumLit (toString c.toNat))
    `(([$(cs.toArray),*] : List UInt8))

/-- A valid C string contains no NUL byte. -/
def NoNul (s : Str) : Prop := (0 : UInt8) ∉ s

instance (s : Str) : Decidable (NoNul s) := by unfold NoNul; infer_instance

/-- C library `tolower` in the C locale (used by `stricmp`/`strnicmp`, `ospattern.c`, `filter.c`). -/
def lower (c : UInt8) : UInt8 := if 65 ≤ c ∧ c ≤ 90 then c + 32 else c

/-- C library `toupper` in the C locale. -/
def upper (c : UInt8) : UInt8 := if 97 ≤ c ∧ c ≤ 122 then c - 32 else c

/-- `isdigit` in the C locale. -/
def isDigit (c : UInt8) : Bool := 48 ≤ c && c ≤ 57

/-- `stricmp(a,b)==0` (`strcasecmp`) on NUL-free strings: equal up to ASCII case. -/
def eqi (a b : Str) : Bool := a.map lower == b.map lower

/-- `strnicmp(a,b,n)==0` (`strncasecmp`) on NUL-free strings: both strings, cut to `n` bytes,
are equal up to ASCII case. -/
def eqin (a b : Str) (n : Nat) : Bool := (a.take n).map lower == (b.take n).map lower

/-- `shared/mystrncpy.c` 7-11: copy at most `len-1` bytes and terminate.
Precondition of the C code: `len ≥ 1` (for `len = 0` the C code is undefined: `strncpy` with
`SIZE_MAX` and a store at index `UINT32_MAX`); callers that can pass 0 are modelled separately. -/
def mystrncpy (src : Str) (len : Nat) : Str := src.take (len - 1)

/-- The decimal digit of a number below 10. -/
def digit (n : Nat) : UInt8 := UInt8.ofNat (48 + n)

/-- Digits of `n`, least significant first, prepended to `acc` (fuel `f`). -/
def decAux : Nat → Nat → Str → Str
  | 0, _, acc => acc
  | f + 1, n, acc =>
    if n / 10 = 0 then digit (n % 10) :: acc else decAux f (n / 10) (digit (n % 10) :: acc)

/-- `sprintf("%u", n)`: decimal rendering. -/
def dec (n : Nat) : Str := decAux (n + 1) n []

/-- Value of a string of decimal digits. -/
def decVal (s : Str) : Nat := s.foldl (fun a c => a * 10 + (c.toNat - 48)) 0

/-- `isspace` in the C locale. -/
def isSpace (c : UInt8) : Bool := c == 32 || (9 ≤ c && c ≤ 13)

/-- C library `atoi`/`atol` on a NUL-free string: skip white space, optional sign, longest digit
prefix. The result is the mathematical value (the C result is undefined when it overflows). -/
def atoi (s : Str) : Int :=
  let s := s.dropWhile isSpace
  match s with
  | 45 :: r => - (decVal (r.takeWhile isDigit) : Int)
  | 43 :: r => (decVal (r.takeWhile isDigit) : Int)
  | r => (decVal (r.takeWhile isDigit) : Int)

/-- `atol`: glibc returns the nearest `long` when the number does not fit. -/
def atol (s : Str) : Int := max (-2 ^ 63) (min (2 ^ 63 - 1) (atoi s))

/-- Everything before the first NUL of a byte buffer: how C reads a `char[]` as a string. -/
def cstr (b : List UInt8) : Str := b.takeWhile (· != 0)

/-- Outcome of undefined behaviour in the C code, kept apart from ordinary results. -/
inductive UB where
  | oobRead        -- read outside an object
  | oobWrite       -- write outside an object
  | nullDeref
  | uninit         -- use of an uninitialised object
  | overflow       -- overflow of a signed number
  deriving DecidableEq, Repr

end CM
