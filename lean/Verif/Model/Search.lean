import Verif.Base
/-! # Text search of the filters (`crashmail/filter.c` 1-44, 191-233) and `shared/parseargs.c` -/

namespace CM

/-- `bmstep` after the second loop of `bminit` (`crashmail/filter.c` 16-17) for the character `c`:
`len - i - 1` for its last position `i` in the pattern, as a `uint16_t`; 0 if it does not occur. -/
def bmLast (len : Nat) (c : UInt8) : Nat → Str → Nat → Nat
  | _, [], cur => cur
  | i, p :: ps, cur => bmLast len c (i + 1) ps (if lower p = c then (len - i - 1) % 65536 else cur)

/-- `bmstep[c]` after `bminit(pat)` (`crashmail/filter.c` 7-21). The table is indexed by a signed
`char`: see `bminit`. -/
def bmStep (pat : Str) (c : UInt8) : Nat :=
  let v := bmLast pat.length c 0 pat 0
  if v = 0 then pat.length % 65536 else v

/-- `bminit(pat)` is undefined (a store before the table) if the pattern has a byte from 128 on. -/
def bminit (pat : Str) : Except UB (UInt8 → Nat) :=
  if pat.any (fun c => 128 ≤ c) then .error .oobWrite else .ok (bmStep pat)

/-- Inner loop of `bmfind` (`crashmail/filter.c` 34-35): compares downwards from `j-1`; the result is
`none` when everything matched (`j == -1`), else the mismatching index. -/
def bmCompare (pat text : Str) (i : Nat) : Nat → Option Nat
  | 0 => none
  | j + 1 =>
    if (text[i + j]?).map lower ≠ (pat[j]?).map lower then some j else bmCompare pat text i j

/-- Result of `bmfind`. -/
inductive Found where
  | at (i : Nat)
  | no                -- -1
  | ub (e : UB)
  | loop              -- does not terminate within the fuel
  deriving DecidableEq, Repr

/-- `bmfind` (`crashmail/filter.c` 23-44). `step` is the table made by `bminit`; reading it for a text
byte from 128 on is undefined. All indices into `text` are below `textlen` (its length). -/
def bmfindLoop (step : UInt8 → Nat) (pat text : Str) : Nat → Nat → Found
  | 0, _ => .loop
  | f + 1, i =>
    if i + pat.length ≤ text.length then
      match bmCompare pat text i pat.length with
      | none => .at i
      | some j =>
        match text[i + j]? with
        | none => .ub .oobRead
        | some c =>
          if 128 ≤ c then .ub .oobRead
          else bmfindLoop step pat text f (i + step (lower c))
    else .no

/-- `bminit(pat); bmfind(pat,text,textlen,start)`. -/
def bmfind (pat text : Str) (start : Nat) : Found :=
  match bminit pat with
  | .error e => .ub e
  | .ok step => bmfindLoop step pat text (text.length + 2) start

/-! ## Command line -/

/-- `ARGTYPE_*` (`shared/parseargs.h` 7-8). -/
inductive ArgType where
  | string | bool
  deriving DecidableEq, Repr

/-- Value of the `data` pointer. -/
inductive ArgData where
  | none | flag | str (s : Str)
  deriving DecidableEq, Repr

/-- `struct argument` (`shared/parseargs.h` 13-19); the list end replaces the `ARGTYPE_END` entry. -/
structure Arg where
  type : ArgType
  name : Option Str
  auto : Bool
  mandatory : Bool
  data : ArgData
  deriving DecidableEq, Repr

/-- The keyword test (`shared/parseargs.c` 16). -/
def Arg.isKeyword (a : Arg) (w : Str) : Bool :=
  match a.name with
  | some n => eqi w n
  | none => false

/-- The test for a field that takes a bare word (`shared/parseargs.c` 47). -/
def Arg.isFree (a : Arg) : Bool := (a.name.isNone || a.auto) && a.data == .none

/-- Store `d` in the first entry satisfying `p`, if any. -/
def setFirst (p : Arg → Bool) (d : ArgData) : List Arg → Option (List Arg)
  | [] => none
  | a :: as => if p a then some ({ a with data := d } :: as) else (setFirst p d as).map (a :: ·)

/-- Main loop of `parseargs` (`shared/parseargs.c` 13-57) on the words `argv[i..]`. -/
def parseLoop (args : List Arg) : List Str → Option (List Arg)
  | [] => some args
  | w :: ws =>
    match args.find? (·.isKeyword w) with
    | some a =>
      match a.type with
      | .string =>
        match ws with
        | [] => none
        | v :: ws =>
          match setFirst (·.isKeyword w) (.str v) args with
          | none => none
          | some args => parseLoop args ws
      | .bool =>
        match setFirst (·.isKeyword w) .flag args with
        | none => none
        | some args => parseLoop args ws
    | none =>
      match setFirst Arg.isFree (.str w) args with
      | none => none
      | some args => parseLoop args ws

/-- `parseargs` (`shared/parseargs.c` 9-67) on `argv[1..]`; `none` is `return(FALSE)`. -/
def parseArgs (args : List Arg) (argv : List Str) : Option (List Arg) :=
  match parseLoop args argv with
  | none => none
  | some args => if args.any (fun a => a.mandatory && a.data == .none) then none else some args

end CM
