import Verif.Model.Stats
/-! # What the statistics are supposed to remember -/

namespace CM

/-- Areas whose counters are kept from run to run. -/
def Kept (a : AreaStat) : Prop :=
  (a.type = .bad ∨ a.type = .echomail ∨ a.type = .netmail) ∧ a.flags &&& 1 = 0

/-- Two areas have the same counters. -/
def SameCounts (a b : AreaStat) : Prop :=
  a.texts = b.texts ∧ a.dupes = b.dupes ∧ a.last8 = b.last8 ∧ a.firstTime = b.firstTime ∧
    a.lastTime = b.lastTime

/-- `b` is `a` except for the counters. -/
def SameArea (a b : AreaStat) : Prop :=
  a.tag = b.tag ∧ a.type = b.type ∧ a.flags = b.flags ∧ a.aka = b.aka ∧ a.group = b.group ∧
    a.newTexts = b.newTexts ∧ a.newDupes = b.newDupes

/-- Tags are equal if they differ in case only. -/
def SameTag (a b : Str) : Prop := a.map lower = b.map lower

/-- The counter of day `i` (0 is today) after `gap` days and `new` messages. -/
def dayAfter (gap : Nat) (new : UInt32) (old : Days) (i : Nat) : UInt16 :=
  (if i < gap then 0 else old[i - gap]?.getD 0) + (if i = 0 then UInt16.ofNat new.toNat else 0)

end CM
