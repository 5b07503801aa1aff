import Verif.Model.ReadConfig
/-! # Lines of the configuration file that make the program write or read outside its variables -/

namespace CM

/-- The words of a line, read with these limits; a word that is missing is empty. -/
def fieldsAt : List Nat → Str → List Str
  | [], _ => []
  | n :: ns, s => (jbstrcpy n s).1 :: fieldsAt ns (jbstrcpy n s).2.1

/-- The part of a pattern before its first separator is missing. -/
def NoFirstPart (s : Str) : Prop := s = [] ∨ s.head? = some 58 ∨ s.head? = some 47 ∨ s.head? = some 46

/-- The same for a pattern that may begin with a word (ZONE, REGION, NET, HUB, NODE). -/
def NoFirstPart' (s : Str) : Prop :=
  NoFirstPart s ∨ (eqin s b!"ZONE " 5 = true ∧ NoFirstPart (s.drop 5)) ∨ (eqin s b!"REGION " 7 = true ∧ NoFirstPart (s.drop 7)) ∨
  (eqin s b!"NET " 4 = true ∧ NoFirstPart (s.drop 4)) ∨ (eqin s b!"HUB " 4 = true ∧ NoFirstPart (s.drop 4)) ∨
  (eqin s b!"NODE " 5 = true ∧ NoFirstPart (s.drop 5))

/-- A number of kilobytes that is too large for the number of bytes to be an `int`. -/
def TooBig (s : Str) : Prop := atoi s < -2097152 ∨ 2097151 < atoi s

/-- The hazardous lines: a domain of 20 bytes or more; a list of groups of 30 bytes or more; the name of
the group `""`; a pattern without its first part; a size of 2 gigabytes or more. `w` is the first word,
`r` the rest of the line. -/
def HazardWords (w r : Str) : Prop :=
  (eqi w b!"DOMAIN" = true ∧ ∃ d ∈ fieldsAt [200] r, 20 ≤ d.length) ∨
  (eqi w b!"AREAFIXINFO" = true ∧ ∃ g ∈ (fieldsAt [40, 70, 70, 70] r).tail, 30 ≤ g.length) ∨
  (eqi w b!"GROUPNAME" = true ∧ fieldsAt [2] r = [[]]) ∨
  (eqi w b!"REMNODE" = true ∧ ∃ p ∈ rdWords 100 r, NoFirstPart p) ∨
  (eqi w b!"FILEATTACH" = true ∧ ∃ p ∈ rdWords 100 r, NoFirstPart' p) ∨
  (eqi w b!"BOUNCE" = true ∧ ∃ p ∈ rdWords 100 r, NoFirstPart' p) ∨
  (eqi w b!"ROUTE" = true ∧ ∃ p ∈ fieldsAt [200, 200] r, NoFirstPart' p) ∨
  (eqi w b!"CHANGE" = true ∧ ∃ p ∈ (fieldsAt [200, 200] r).tail, NoFirstPart' p) ∨
  ((eqi w b!"REMAPMSG" = true ∨ eqi w b!"MASQUERADE" = true) ∧ ∃ p ∈ (fieldsAt [200, 200] r).tail, NoFirstPart' p) ∨
  ((eqi w b!"MAXPKTSIZE" = true ∨ eqi w b!"MAXBUNDLESIZE" = true) ∧ ∃ v ∈ fieldsAt [200] r, TooBig v)

def Hazard (l : Str) : Prop := HazardWords (jbstrcpy 30 l).1 (jbstrcpy 30 l).2.1

end CM
