import Verif.Base
/-! # Model of the FidoNet date strings (`crashmail/misc.c`) -/

namespace CM

/-- The members of `struct tm` that are used. -/
structure Tm where
  sec : Int
  min : Int
  hour : Int
  mday : Int
  mon : Int
  year : Int
  deriving DecidableEq, Repr

/-- `mo` and `monthnames` (`misc.c` 343, 492). -/
def monthNames : List Str := [b!"Jan", b!"Feb", b!"Mar", b!"Apr", b!"May", b!"Jun", b!"Jul", b!"Aug",
  b!"Sep", b!"Oct", b!"Nov", b!"Dec"]

/-- `sprintf("%02d")` of a number that is not negative. -/
def dec2 (n : Nat) : Str := if n < 10 then 48 :: dec n else dec n

/-- `MakeFidoDate` (`misc.c` 339-356; the same text in `tools/crashmaint.c` 148-165) on the result of
`localtime`, whose members are not negative and whose `tm_mon` is below 12. -/
def makeFidoDate (t : Tm) : Str :=
  dec2 t.mday.toNat ++ b!" " ++ (monthNames ++ [b!"???"]).getD t.mon.toNat [] ++ b!" " ++
    dec2 (t.year.toNat % 100) ++ b!"  " ++ dec2 t.hour.toNat ++ b!":" ++ dec2 t.min.toNat ++ b!":" ++
    dec2 t.sec.toNat

/-- `&date[k]` as a string; behind the terminating NUL there is only what an earlier string left in
the buffer. -/
def dateAt (d : Str) (k : Nat) : Except UB Str := if k ≤ d.length then .ok (d.drop k) else .error .uninit

/-- `date[k]`. -/
def dateChar (d : Str) (k : Nat) : Except UB UInt8 :=
  if k < d.length then .ok (d.getD k 0) else if k = d.length then .ok 0 else .error .uninit

/-- `for(month=0;month<12;month++) if(strnicmp(mo[month],s,3)==0) break;`. -/
def monthOf (s : Str) : Option Nat := monthNames.findIdx? (fun m => eqin m s 3)

/-- `if(tm.tm_year < 80) tm.tm_year+=100;` -/
def y2k (y : Int) : Int := if y < 80 then y + 100 else y

/-- `FidoToTime` (`misc.c` 486-553) up to the call of `mktime`: the broken-down time, or `none` if the
month is not recognised and the current time is returned. `atoi` overflow is not modelled. -/
def fidoTm (d : Str) : Except UB (Option Tm) := do
  let c2 ← dateChar d 2
  let std ← (if c2 == 32 then do
      let c6 ← dateChar d 6
      pure (c6 == 32)
    else pure false : Except UB Bool)
  if std then
    match monthOf (← dateAt d 3) with
    | none => .ok none
    | some m =>
      .ok (some { sec := atoi (← dateAt d 17)
                  min := atoi (← dateAt d 14)
                  hour := atoi (← dateAt d 11)
                  mday := atoi d
                  mon := m
                  year := y2k (atoi (← dateAt d 7)) })
  else
    match monthOf (← dateAt d 7) with
    | none => .ok none
    | some m =>
      .ok (some { sec := 0
                  min := atoi (← dateAt d 17)
                  hour := atoi (← dateAt d 14)
                  mday := atoi (← dateAt d 4)
                  mon := m
                  year := y2k (atoi (← dateAt d 11)) })

/-- `FidoToTime` (`misc.c` 486-553): `mktime` is the C library's (`none` for -1), `now` what
`time(NULL)` returns. -/
def fidoToTime (mktime : Tm → Option Int) (now : Int) (d : Str) : Except UB Int := do
  match ← fidoTm d with
  | none => .ok now
  | some t => match mktime t with
    | none => .ok now
    | some s => .ok s

end CM
