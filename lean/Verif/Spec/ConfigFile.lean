import Verif.Model.ConfigFile
/-! # What a rewritten configuration file looks like

The lines of the file are given with the lines before them (`pre`). -/

namespace CM

/-- The lines of a text, each with its line feed. -/
def linesOf : Str → List Str
  | [] => []
  | c :: r =>
    if c = 10 then [10] :: linesOf r
    else match linesOf r with
      | [] => [[c]]
      | l :: ls => (c :: l) :: ls

/-- The first word of a line. -/
def keyword (l : Str) : Str := (jbstrcpy 30 l).1

/-- There is no word in the line. -/
def BlankLine (l : Str) : Prop := (jbstrcpy 30 l).2.2 = false

/-- The second word of a line. -/
def argument (l : Str) : Option Str :=
  if (jbstrcpy 100 (jbstrcpy 30 l).2.1).2.2 then some (jbstrcpy 100 (jbstrcpy 30 l).2.1).1 else none

/-- Lines that begin an area. -/
def AreaLine (l : Str) : Prop :=
  eqi (keyword l) b!"AREA" = true ∨ eqi (keyword l) b!"NETMAIL" = true ∨ eqi (keyword l) b!"LOCALAREA" = true

/-- Lines that begin a node. -/
def NodeLine (l : Str) : Prop := eqi (keyword l) b!"NODE" = true

/-- The area meant by the tag `t`: the first with that tag. -/
def TagOf (cfg : Config) (t : Str) (i : Nat) : Prop :=
  ∃ a, cfg.areas[i]? = some a ∧ eqi t a.tag = true ∧ ∀ j b, j < i → cfg.areas[j]? = some b → eqi t b.tag = false

/-- The node meant by the address `d`: the first with that address. -/
def AddrOf (cfg : Config) (d : Node4D) (i : Nat) : Prop :=
  ∃ n, cfg.nodes[i]? = some n ∧ compare4D d n.node = 0 ∧ ∀ j b, j < i → cfg.nodes[j]? = some b → compare4D d b.node ≠ 0

/-- A kind of sections: the lines that begin one, which area or node such a line means, whether the area
is not in the configuration any more, and which areas or nodes have been changed. -/
structure SectionKind where
  head : Str → Prop
  means : Str → Nat → Prop
  removed : Str → Prop
  changed : Nat → Prop

def areaKind (cfg : Config) : SectionKind where
  head := AreaLine
  means l i := ∃ t, argument l = some t ∧ TagOf cfg t i
  removed l := ∃ t, argument l = some t ∧ ∀ a ∈ cfg.areas, eqi t a.tag = false
  changed i := ∃ a, cfg.areas[i]? = some a ∧ a.changed = true

def nodeKind (cfg : Config) : SectionKind where
  head := NodeLine
  means l i := ∃ t d, argument l = some t ∧ parse4D t = some d ∧ AddrOf cfg d i
  removed _ := False
  changed i := ∃ n, cfg.nodes[i]? = some n ∧ n.changed = true

/-- One of the lines begins a section of this area or node. -/
def SectionKind.HasSection (k : SectionKind) (ls : List Str) (i : Nat) : Prop := ∃ h ∈ ls, k.head h ∧ k.means h i

/-- The line `l` is the first that begins the section of a changed area or node. -/
def SectionKind.Begins (k : SectionKind) (pre : List Str) (l : Str) (i : Nat) : Prop :=
  k.head l ∧ k.means l i ∧ k.changed i ∧ ¬ k.HasSection pre i

/-- The last line of `pre` is in the section of a changed or removed area or node. -/
def SectionKind.InChanged (k : SectionKind) (pre : List Str) : Prop :=
  ∃ p h q, pre = p ++ h :: q ∧ k.head h ∧ (∀ x ∈ q, ¬ k.head x) ∧ ((∃ i, k.Begins p h i) ∨ k.removed h)

/-- Words that describe an area (the word LOCALAREA is missing in the program). -/
def areaWords : List Str :=
  [b!"AREA", b!"NETMAIL", b!"EXPORT", b!"IMPORT", b!"BANNED", b!"DESCRIPTION", b!"GROUP", b!"KEEPNUM", b!"KEEPDAYS",
    b!"UNCONFIRMED", b!"MANDATORY", b!"DEFREADONLY", b!"IGNOREDUPES", b!"IGNORESEENBY"]

/-- Words that describe a node. -/
def nodeWords : List Str := [b!"NODE", b!"PKTFROM", b!"AREAFIXINFO", b!"REMOTEAF", b!"REMOTESYSOP", b!"DEFAULTGROUP"]

/-- Lines that are not copied: those that describe a changed area or node, and empty lines among them. -/
def Dropped (cfg : Config) (pre : List Str) (l : Str) : Prop :=
  ((areaKind cfg).InChanged (pre ++ [l]) ∧ ((∃ w ∈ areaWords, eqi (keyword l) w = true) ∨ BlankLine l)) ∨
  ((nodeKind cfg).InChanged (pre ++ [l]) ∧ ((∃ w ∈ nodeWords, eqi (keyword l) w = true) ∨ BlankLine l))

/-- What is written before a line: the new text of the changed area or node it begins. -/
def Inserted (cfg : Config) (pre : List Str) (l : Str) (t : Str) : Prop :=
  ((∀ i, ¬ (areaKind cfg).Begins pre l i) ∧ (∀ i, ¬ (nodeKind cfg).Begins pre l i) ∧ t = []) ∨
  (∃ i a x, (areaKind cfg).Begins pre l i ∧ cfg.areas[i]? = some a ∧ areaText cfg a = .ok x ∧ t = x ++ [10]) ∨
  (∃ i n x, (nodeKind cfg).Begins pre l i ∧ cfg.nodes[i]? = some n ∧ nodeText cfg n = .ok x ∧ t = x ++ [10])

/-- The text made from the lines `ls` that come after `pre`. -/
inductive Rewritten (cfg : Config) : List Str → List Str → Str → Prop
  | nil (pre) : Rewritten cfg pre [] []
  | keep {pre l ls t out} (hi : Inserted cfg pre l t) (hk : ¬ Dropped cfg pre l) (r : Rewritten cfg (pre ++ [l]) ls out) :
      Rewritten cfg pre (l :: ls) (t ++ l ++ out)
  | drop {pre l ls t out} (hi : Inserted cfg pre l t) (hd : Dropped cfg pre l) (r : Rewritten cfg (pre ++ [l]) ls out) :
      Rewritten cfg pre (l :: ls) (t ++ out)

/-- The text at the end of the file: the changed areas without a section, from position `i` on. -/
inductive Appended (cfg : Config) (ls : List Str) : Nat → List Area → Str → Prop
  | nil (i) : Appended cfg ls i [] []
  | new {i a q x out} (hc : a.changed = true) (hn : ¬ (areaKind cfg).HasSection ls i) (ht : areaText cfg a = .ok x)
      (r : Appended cfg ls (i + 1) q out) : Appended cfg ls i (a :: q) ([10] ++ x ++ out)
  | old {i a q out} (ho : a.changed = false ∨ (areaKind cfg).HasSection ls i) (r : Appended cfg ls (i + 1) q out) :
      Appended cfg ls i (a :: q) out

end CM
