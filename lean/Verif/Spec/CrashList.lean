import Verif.Model.CrashList
import Verif.Spec.ListOut
/-! # Which nodelists CrashList is to index

`cmnodelist.prefs` has a line for each nodelist with its name and the zone that holds before the first zone
line. The name is that of a file, or that of a nodelist which comes in issues: `NODELIST.310`,
`NODELIST.317`, … -/

namespace CM

def Blanks (s : Str) : Prop := ∀ c ∈ s, c = 32 ∨ c = 9

/-- The name of a nodelist, as it can be written without quotes. -/
structure ListName (s : Str) : Prop where
  some : s ≠ []
  plain : ∀ c ∈ s, c ≠ 32 ∧ c ≠ 9 ∧ c ≠ 34 ∧ c ≠ 92 ∧ c ≠ 10 ∧ c ≠ 13 ∧ c ≠ 0 ∧ c ≠ 47
  noComment : s.head? ≠ Option.some 59
  short : s.length ≤ 90

/-- What a line asks for: a comment or a blank line for nothing, others for a name and a zone. -/
inductive PrefLine : Str → Option (Str × UInt16) → Prop where
  | comment (r : Str) : NoNul r → (10 : UInt8) ∉ r → (13 : UInt8) ∉ r → PrefLine (59 :: r) none
  | blank (ws : Str) : Blanks ws → PrefLine ws none
  | name (ws n ws' : Str) : Blanks ws → ListName n → Blanks ws' → PrefLine (ws ++ n ++ ws') (some (n, 0))
  | zone (ws n ws' z r : Str) : Blanks ws → ListName n → Blanks ws' → ws' ≠ [] →
      z ≠ [] → (∀ c ∈ z, 48 ≤ c ∧ c ≤ 57) → z.length ≤ 9 → decVal z < 65536 →
      (r = [] ∨ ∃ c t, r = c :: t ∧ (c = 32 ∨ c = 9)) → NoNul r → (10 : UInt8) ∉ r → (13 : UInt8) ∉ r →
      PrefLine (ws ++ n ++ ws' ++ z ++ r) (some (n, UInt16.ofNat (decVal z)))

/-- A text file with these lines. -/
def prefsText (crlf : Bool) (ls : List Str) : List UInt8 := ls.flatMap fun l => l ++ if crlf then [13, 10] else [10]

/-- `f` is an issue of the nodelist `name`: a point and three digits follow the name. -/
def IsIssue (name f : Str) : Prop :=
  ∃ p x y z, f = p ++ [46, x, y, z] ∧ p.map lower = name.map lower ∧ (48 ≤ x ∧ x ≤ 57) ∧ (48 ≤ y ∧ y ≤ 57) ∧ (48 ≤ z ∧ z ≤ 57)

/-- The file in the directory to use for a name: the one with that name, or else an issue such that no
other issue is newer; nothing if there is none. -/
inductive Chosen (names : List Str) (date : Str → Option Int) (name : Str) : Option Str → Prop where
  | file : (date name).isSome → Chosen names date name (some name)
  | issue (f : Str) (t : Int) : date name = none → f ∈ names → IsIssue name f → date f = some t →
      (∀ g ∈ names, ∀ u, IsIssue name g → date g = some u → u ≤ t) → Chosen names date name (some f)
  | none : date name = none → (∀ g ∈ names, IsIssue name g → date g = none) → Chosen names date name none

/-- The nodelists to index for what is asked for, in this order, and what is said about each. Those that
cannot be read are left out. -/
inductive ListsFor (dir err : Str) (names : List Str) (date : Str → Option Int) (content : Str → Option (List UInt8)) :
    List (Str × UInt16) → List (Str × UInt16 × List UInt8) → List Str → Prop where
  | nil : ListsFor dir err names date content [] [] []
  | absent {n z r fs ts} : Chosen names date n none → ListsFor dir err names date content r fs ts →
      ListsFor dir err names date content ((n, z) :: r) fs
        ((b!"Found no nodelist matching " ++ n ++ b!" in " ++ dir ++ b!"\n") :: ts)
  | unread {n z r fs f ts} : Chosen names date n (some f) → content f = none →
      ListsFor dir err names date content r fs ts →
      ListsFor dir err names date content ((n, z) :: r) fs
        ((b!"Failed to read " ++ pathIn dir f ++ b!"\nError: " ++ err ++ b!"\n") :: ts)
  | take {n z r fs f c ts} : Chosen names date n (some f) → content f = some c →
      ListsFor dir err names date content r fs ts →
      ListsFor dir err names date content ((n, z) :: r) ((f, z, c) :: fs)
        ((b!"Processing nodelist " ++ f ++ b!"...\n") :: ts)

/-- No nodelist has a name that is only the beginning of `name`. -/
def NoShorterList (names : List Str) (name : Str) : Prop :=
  ∀ g ∈ names, ∀ p, IsIssue p g → p.map lower <+: name.map lower → p.length = name.length

end CM
