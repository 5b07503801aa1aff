import Verif.Base
import Verif.Model.Bundle
/-! # Specification: recognising and keeping bundles (C91, C92) -/

namespace CM

/-! ## Patterns -/

/-- A hexadecimal digit and its value. -/
def HexIs (c : UInt8) (v : Nat) : Prop :=
  v < 16 ∧ (c.toNat = 48 + v ∧ v < 10 ∨ c.toNat = 65 + (v - 10) ∧ 10 ≤ v ∨ c.toNat = 97 + (v - 10) ∧ 10 ≤ v)

/-- A pattern for the beginning of a file, and for how many bytes: `?` stands for any byte, `$` with two
hexadecimal digits for the byte with that number, any other character for itself. -/
inductive FilePattern : Str → Nat → Prop where
  | nil : FilePattern [] 0
  | any {r n} : FilePattern r n → FilePattern (63 :: r) (n + 1)
  | hex {a b r n} (v w : Nat) : HexIs a v → HexIs b w → FilePattern r n → FilePattern (36 :: a :: b :: r) (n + 1)
  | lit {c r n} : c ≠ 36 → c ≠ 63 → FilePattern r n → FilePattern (c :: r) (n + 1)

/-- The beginning of a file fits a pattern. -/
inductive FitsPattern : Str → Data → Prop where
  | nil {d} : FitsPattern [] d
  | any {r x d} : FitsPattern r d → FitsPattern (63 :: r) (x :: d)
  | hex {a b r x d} (v w : Nat) : HexIs a v → HexIs b w → x.toNat = 16 * v + w → FitsPattern r d →
      FitsPattern (36 :: a :: b :: r) (x :: d)
  | lit {c r d} : c ≠ 36 → c ≠ 63 → FitsPattern r d → FitsPattern (c :: r) (c :: d)

/-- The first of the packers, in the order of the configuration, whose pattern the file fits; `none`: it
fits none. -/
inductive FirstFit (d : Data) : List Packer → Option Packer → Prop where
  | none : FirstFit d [] none
  | here {p ps} : FitsPattern p.recog d → FirstFit d (p :: ps) (some p)
  | later {p ps r} : ¬ FitsPattern p.recog d → FirstFit d ps r → FirstFit d (p :: ps) r

/-! ## Files -/

/-- A name for bad files in the inbound: a file name, cut if it is too long, with `.bad` and perhaps a comma
and a number. -/
def BadPlace (inbound f : Str) : Prop := ∃ g n, f = badName inbound g n

/-- The contents are in a bad file that was made for this file. -/
def SavedAsBad (inbound file : Str) (d : Data) (fs : FS) : Prop := ∃ m, fs (badName inbound file m) = some d

/-- Files can be moved, by renaming or by copying. -/
def CanMove (w : World) : Prop := ¬ w.renameFails ∨ (¬ w.openFails ∧ ¬ w.writeFails)

/-- The commands that are run leave these files alone. -/
def LeavesAlone (w : World) (P : Str → Prop) : Prop :=
  ∀ c fs fs', (w.during c fs fs' ∨ ∃ n, w.exec c fs n fs') → ∀ f, P f → fs' f = fs f

/-- What was done with the packets of a bundle, given what was unpacked: every one, but for those that are to be deleted anyway, was
opened and handled to the end, or has been put with the bad files. -/
def PacketsDone {σ : Type} (t : InCfg σ) (unpacked : FS) (log : PktLog) (fs : FS) : Prop :=
  ∀ n, (47 : UInt8) ∉ n → isPkt n = true → ∀ x, unpacked (makeFullPath t.tempDir n 200) = some x →
    makeFullPath t.tempDir n 200 ∉ t.dels →
    (makeFullPath t.tempDir n 200, some (x, PktEnd.done)) ∈ log ∨ SavedAsBad t.inbound (makeFullPath t.tempDir n 200) x fs

end CM
