import Verif.Spec.MsgBase
import Verif.Model.MsgMaint
/-! # Maintenance of message areas in the *.msg format, from outside -/

namespace CM

/-- All files that count as messages have the names that CrashMail gives them: the number and `.msg`. -/
def ProperNames (fs : FS) (dir : Str) : Prop :=
  ∀ f, (47 : UInt8) ∉ f → isMsgName f = true → fs (makeFullPath dir f 200) ≠ none → 2 ≤ atol f ∨ 2 ≤ atol (f.take 99) →
    ∃ n < 2 ^ 32, f = dec n ++ b!".msg"

/-- The day of a date in seconds, as a 32-bit number. -/
def dayNr (t : Int) : Nat := (UInt32.ofInt (t.tdiv 86400)).toNat

/-- `ms` are the messages of a directory (numbers with days) in the order of their numbers; message 1 is the high
water mark and does not count. -/
structure Messages (es : List FileEntry) (ms : List (Nat × Nat)) : Prop where
  sorted : ms.Pairwise (fun a b => a.1 < b.1)
  all : ∀ n d, (n, d) ∈ ms ↔ ∃ e ∈ es, e.name = dec n ++ b!".msg" ∧ 2 ≤ n ∧ dayNr e.date = d

/-- The last `keep` messages; the others are surplus. -/
def newest (keep : Nat) (ms : List (Nat × Nat)) : List (Nat × Nat) := ms.drop (ms.length - keep)

/-- The messages that are left: the newest ones, without those that are too old. -/
def surviving (o : JamMaintOpt) (old : Nat → Bool) (ms : List (Nat × Nat)) : List (Nat × Nat) :=
  let ms := if o.maint = true ∧ o.keepNum ≠ 0 then newest o.keepNum.toNat ms else ms
  if o.maint = true ∧ o.keepDays ≠ 0 then ms.filter (fun m => !old m.2) else ms

/-- A moment of the renumbering: the first `j` of the messages `ns` have been moved to 2, 3, …, and the others are where
they were. No two of them share a file, as numbers only get smaller (`Messages.sorted`). -/
structure Moved (dir : Str) (fs fs' : FS) (ns : List Nat) (j : Nat) : Prop where
  new : ∀ i n, i < j → ns[i]? = some n → fs' (msgFile dir (2 + i)) = fs (msgFile dir n)
  old : ∀ i n, j ≤ i → ns[i]? = some n → fs' (msgFile dir n) = fs (msgFile dir n)

/-- No files are touched but those of the messages and of the high water mark. -/
def OnlyMessages (dir : Str) (fs fs' : FS) : Prop := ∀ f, (∀ n, 1 ≤ n → n < 2 ^ 32 → f ≠ msgFile dir n) → fs' f = fs f

/-- The high water mark after maintenance: it follows its message; if that was deleted, it is 0. -/
def newMark (pack : Bool) (all ns : List Nat) (h : Nat) : Nat :=
  if h ∈ ns then (if pack then 2 + ns.idxOf h else h) else if h ∈ all then 0 else h

/-- What holds at every moment of a maintenance run. -/
def MaintNow (dir : Str) (pack : Bool) (fs fs' : FS) (ns : List Nat) : Prop :=
  (∃ j, (pack = false → j = 0) ∧ Moved dir fs fs' ns j) ∧ OnlyMessages dir fs fs'

/-- What holds when it has come to the end. -/
structure MaintDone (w : World) (dir : Str) (pack : Bool) (fs fs' : FS) (all ns : List Nat) : Prop where
  /-- the messages that are left are there -/
  left : Moved dir fs fs' ns (if pack then ns.length else 0)
  /-- and there are no others -/
  others : ¬ w.deleteFails → ∀ n, 2 ≤ n → n < 2 ^ 32 → (if pack then 2 + ns.length ≤ n else n ∉ ns) → fs' (msgFile dir n) = none
  /-- the high water mark -/
  mark : w.Reliable → ∀ h, highWater { highwater := true } fs dir h → highWater { highwater := true } fs' dir (newMark pack all ns h)

end CM
