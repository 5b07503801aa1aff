import Verif.Model.CrashStats
import Verif.Model.Areafix
/-! # The traffic of an area in the lists AreaFix sends (`crashmail/areafix.c`) -/

namespace CM

/-- A `long` stored in an `int`. -/
def intOf (x : Int) : Int := if x % 4294967296 < 2147483648 then x % 4294967296 else x % 4294967296 - 4294967296

/-- The sum of 970-971: `for(c=1;c<days+1;c++) sum+=area->Last8Days[c]`; `days` is at most 7. -/
def weekTotal (last8 : Days) (days : Int) : Nat := ((List.range days.toNat).map fun c => (last8.getD (c + 1) 0).toNat).sum

/-- `CalculateWeekKB` (955-986), as stored in the `uint32_t` of a `StatsNode` (887). A negative number of days is converted to the
unsigned type of the dividend. -/
def calcWeek (dsw : UInt32) (x : AreaStat) : UInt32 :=
  if x.firstTime = 0 ∨ dsw = 0 then 4294967295
  else
    let all := intOf (dsw.toNat - (timeInt x.firstTime).tdiv 86400)
    let days := if all > 7 then 7 else all
    let sum := weekTotal x.last8 days
    if sum = 0 ∧ x.texts ≠ 0 then x.texts / UInt32.ofInt (if all = 0 then 1 else all)
    else UInt32.ofNat (sum / (UInt64.ofInt (if days = 0 then 1 else days)).toNat)

/-- What is printed (1256-1260). -/
def weekText (dsw : UInt32) (x : AreaStat) : Str := if calcWeek dsw x = 4294967295 then b!"?" else sdec (calcWeek dsw x)

end CM
