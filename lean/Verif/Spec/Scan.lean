import Verif.Spec.JamScan
import Verif.Model.Config
/-! # Export from many areas, from outside -/

namespace CM

/-- The areas that are exported: echomail areas, and netmail areas unless NOEXPORTNETMAIL is set, that have a message base. -/
def ToExport (cfg : Config) (i : Nat) : Prop :=
  ∃ a, cfg.areas[i]? = some a ∧ a.base ≠ none ∧ (a.type = .echomail ∨ (a.type = .netmail ∧ cfg.flags &&& 134217728 = 0))

/-- A text of lines. -/
def scanFile (ls : List Str) : Str := (ls.map (· ++ [10])).flatten

/-- A line of a list of areas: it has at most 98 characters and does not end in a blank or in a character that is not in ASCII. -/
structure ListLine (l : Str) : Prop where
  len : l.length ≤ 98
  noLf : 10 ∉ l
  noNul : NoNul l
  last : ∃ t c, l = t ++ [c] ∧ 32 < c ∧ c < 128

/-- The first area with the property. -/
def FirstArea (cfg : Config) (p : Area → Prop) (i : Nat) : Prop :=
  (∃ a, cfg.areas[i]? = some a ∧ p a) ∧ ∀ j, j < i → ∀ a, cfg.areas[j]? = some a → ¬ p a

/-- An area in a run: its base holds `ms`, there is room for `k` messages of `c` bytes, and what is known about it in this run, or will be when it is first used,
is `x`. -/
def JamFine (c k : Nat) (start : UInt32) (x : JamRec) (ms : List (Option JamMsg)) (i : Nat) (w : JamW) : Prop :=
  ∃ b, w.base i = some b ∧ JamHolds b start ms ∧ JamSpace c k b ms ∧
    ((w.recs i = none ∧ x.baseNum = start ∧ x.oldNum = UInt32.ofNat ms.length ∧ x.hw = 0 ∧ x.oldHW = 0) ∨
      ∃ y, w.recs i = some y ∧ y.baseNum = x.baseNum ∧ y.oldNum = x.oldNum ∧ y.hw = x.hw ∧ y.oldHW = x.oldHW)

/-- Handling a message may add messages of at most `c` bytes to the areas `L`. -/
def JamKeepsAll (Fit : MemMsg → Prop) (L : List Nat) (c : Nat) (handle : JamHandler) : Prop :=
  ∀ m w k (start : Nat → UInt32) (x : Nat → JamRec) (ms : Nat → List (Option JamMsg)), Fit m → (∀ i ∈ L, JamFine c (k + 1) (start i) (x i) (ms i) i w) →
    ∃ ok w', handle m w = .ok (ok, w') ∧ ∀ i ∈ L, (∃ new, JamFine c k (start i) (x i) (ms i ++ new) i w') ∧ (w.recs i ≠ none → w'.recs i ≠ none) ∧ w'.hwFile i = w.hwFile i

end CM
