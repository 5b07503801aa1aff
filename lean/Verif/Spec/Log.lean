import Verif.Base
import Verif.Model.Date
import Verif.Spec.CrashStats
/-! # What the log shows, from outside -/

namespace CM

/-- A part of a record: fixed text, a name or other string, a number. -/
inductive Piece where
  | lit (s : Str)
  | str (s : Str)
  | num (n : UInt32)
  deriving DecidableEq, Repr

/-- What is to be read in the log. -/
def Piece.text : Piece → Str
  | .lit s => s
  | .str s => s
  | .num n => dec n.toNat

def piecesText (ps : List Piece) : Str := ps.flatMap Piece.text

/-- What a record is about. -/
inductive LogKind where
  | systemInfo | systemErr | tossingInfo | tossingErr | miscInfo | debug | areafix | actionInfo | userErr
  deriving DecidableEq, Repr

def LogKind.letter : LogKind → Str
  | .systemInfo => b!"-"
  | .systemErr => b!"%"
  | .tossingInfo => b!"="
  | .tossingErr => b!"!"
  | .miscInfo => b!"/"
  | .debug => b!"D"
  | .areafix => b!"+"
  | .actionInfo => b!"^"
  | .userErr => b!"?"

/-- Numbers of the kinds in the program. -/
def LogKind.number : LogKind → Nat
  | .systemInfo => 0 | .systemErr => 1 | .tossingInfo => 2 | .tossingErr => 3 | .miscInfo => 4 | .debug => 5 | .areafix => 6
  | .actionInfo => 7 | .userErr => 8

/-- A time of the calendar. -/
structure ClockTime (t : Tm) : Prop where
  sec : 0 ≤ t.sec ∧ t.sec ≤ 60
  min : 0 ≤ t.min ∧ t.min ≤ 59
  hour : 0 ≤ t.hour ∧ t.hour ≤ 23
  mday : 1 ≤ t.mday ∧ t.mday ≤ 31
  mon : 0 ≤ t.mon ∧ t.mon ≤ 11
  year : 0 ≤ t.year

/-- Date and time as they are shown. -/
def timeShown (t : Tm) : Str :=
  twoDigits t.mday.toNat ++ b!"-" ++ months.getD t.mon.toNat [] ++ b!"-" ++ twoDigits (t.year.toNat % 100) ++ b!" " ++
    twoDigits t.hour.toNat ++ b!":" ++ twoDigits t.min.toNat ++ b!":" ++ twoDigits t.sec.toNat

/-- A record: how important it is (1 most), what it is about, when it is made, how deeply the handling of messages is nested, its text. -/
structure LogRecord where
  level : UInt32
  kind : LogKind
  time : Tm
  nest : Nat
  pieces : List Piece

/-- The line of a record. Records of messages that arise from handling others are indented. -/
def LogRecord.line (r : LogRecord) : Str :=
  r.kind.letter ++ b!" " ++ timeShown r.time ++ b!" " ++ List.replicate (r.nest - 1) 32 ++ piecesText r.pieces

end CM
