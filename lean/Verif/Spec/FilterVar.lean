import Verif.Spec.Says
import Verif.Spec.Strings
import Verif.Spec.Expr
import Verif.Model.Filter
/-!
# What the statements of filters mean

`doc/filter.txt`: a statement is a variable, an operator and a pattern.
-/

namespace CM

/-- The word occurs somewhere in the text, in upper or lower case. -/
def Has (pat text : Str) : Prop := ∃ u d v, text = u ++ d ++ v ∧ Ci d pat

/-- No characters from 128 on. -/
def Ascii (s : Str) : Prop := ∀ c ∈ s, c < 128

/-- A text in ASCII whose last character occurs nowhere else in it. -/
def Findable (pat : Str) : Prop := ∃ p x, pat = p ++ [x] ∧ (∀ c ∈ p, lower c ≠ lower x) ∧ Ascii pat

/-- Every `*` of the pattern is its last character. -/
def OneStar (p : Str) : Prop := ∀ a b, p = a ++ 42 :: b → b = []

/-- A pattern as it is written in a statement: in quotes or without. -/
inductive WrittenPat : Str → Str → Prop
  | plain (v : Str) : v.head? ≠ some 34 → v.getLast? ≠ some 34 → v.length ≤ 99 → WrittenPat v v
  | quoted (v : Str) : v.length ≤ 98 → WrittenPat (b!"\"" ++ v ++ b!"\"") v

/-- String variables. -/
inductive StrVar where
  | fromName | toName | subject | area | type | source
  deriving DecidableEq

def StrVar.name : StrVar → Str
  | .fromName => b!"FROMNAME"
  | .toName => b!"TONAME"
  | .subject => b!"SUBJECT"
  | .area => b!"AREA"
  | .type => b!"TYPE"
  | .source => b!"SOURCE"

/-- Where the message came from. -/
inductive SourceIs (m : MemMsg) : Str → Prop
  | tossed : m.has MMFLAG_TOSSED = true → SourceIs m b!"TOSSED"
  | crashmail : m.has MMFLAG_TOSSED = false → m.has MMFLAG_AUTOGEN = true → SourceIs m b!"CRASHMAIL"
  | exported : m.has MMFLAG_TOSSED = false → m.has MMFLAG_AUTOGEN = false → m.has MMFLAG_EXPORTED = true →
      SourceIs m b!"EXPORTED"
  | other : m.has MMFLAG_TOSSED = false → m.has MMFLAG_AUTOGEN = false → m.has MMFLAG_EXPORTED = false →
      SourceIs m b!"OTHER"

/-- The value of a string variable. -/
inductive StrVar.Is (m : MemMsg) : StrVar → Str → Prop
  | fromName : Is m .fromName m.frm
  | toName : Is m .toName m.to
  | subject : Is m .subject m.subject
  | area : Is m .area m.area
  | netmail : m.area = [] → Is m .type b!"NETMAIL"
  | echomail : m.area ≠ [] → Is m .type b!"ECHOMAIL"
  | source (s : Str) : SourceIs m s → Is m .source s

/-- Who has written the message: the address in its header, for echomail that of its origin line. -/
inductive FromIs (m : MemMsg) : Node4D → Prop
  | netmail : m.area = [] → FromIs m m.orig
  | echomail : m.area ≠ [] → FromIs m m.origin4D

/-- Node variables. -/
inductive NodeVar where
  | fromAddr | toAddr
  deriving DecidableEq

def NodeVar.name : NodeVar → Str
  | .fromAddr => b!"FROMADDR"
  | .toAddr => b!"TOADDR"

inductive NodeVar.Is (m : MemMsg) : NodeVar → Node4D → Prop
  | fromAddr (n : Node4D) : FromIs m n → Is m .fromAddr n
  | toAddr : Is m .toAddr m.dest

/-- One part of a pattern accepts a number. -/
def PartFits (pat : Str) (k : UInt16) : Prop := pat = [] ∨ CompMatch pat (dec k.toNat)

/-- A node pattern accepts a node. -/
def PatFits (nl : Nodelist) (p : Pat4) (n : Node4D) : Prop :=
  match p.type with
  | .zone => PartFits p.zone n.zone
  | .net => (n.zone = 0 ∨ PartFits p.zone n.zone) ∧ PartFits p.net n.net
  | .node => (n.zone = 0 ∨ PartFits p.zone n.zone) ∧ PartFits p.net n.net ∧ PartFits p.node n.node
  | .pattern => (n.zone = 0 ∨ PartFits p.zone n.zone) ∧ PartFits p.net n.net ∧ PartFits p.node n.node ∧
      PartFits p.point n.point
  | .region => nl.isOpen = true ∧ nl.region ⟨n.zone, n.net, n.node, 0⟩ ≠ -1 ∧
      (n.zone = 0 ∨ PartFits p.zone n.zone) ∧ PartFits p.net (toU16 (nl.region ⟨n.zone, n.net, n.node, 0⟩))
  | .hub => nl.isOpen = true ∧ nl.hub ⟨n.zone, n.net, n.node, 0⟩ ≠ -1 ∧
      (n.zone = 0 ∨ PartFits p.zone n.zone) ∧ PartFits p.net n.net ∧
      PartFits p.node (toU16 (nl.hub ⟨n.zone, n.net, n.node, 0⟩))

/-- The same address; zone 0 stands for any. -/
def SameNode (a b : Node4D) : Prop :=
  a.net = b.net ∧ a.node = b.node ∧ a.point = b.point ∧ (a.zone = b.zone ∨ a.zone = 0 ∨ b.zone = 0)

/-- Boolean variables, but for those about the nodelist. -/
inductive BoolVar where
  | fileAttach | toAka | fromAka | toPoint | fromPoint | cfgFrom | cfgFromBoss | cfgTo | cfgToBoss
  deriving DecidableEq

def BoolVar.name : BoolVar → Str
  | .fileAttach => b!"FILEATTACH"
  | .toAka => b!"TOLOCALAKA"
  | .fromAka => b!"FROMLOCALAKA"
  | .toPoint => b!"TOLOCALPOINT"
  | .fromPoint => b!"FROMLOCALPOINT"
  | .cfgFrom => b!"EXISTSCFG_FROMADDR"
  | .cfgFromBoss => b!"EXISTSCFG_FROMBOSS"
  | .cfgTo => b!"EXISTSCFG_TOADDR"
  | .cfgToBoss => b!"EXISTSCFG_TOBOSS"

/-- The node a point belongs to. -/
def bossOf (n : Node4D) : Node4D := ⟨n.zone, n.net, n.node, 0⟩

/-- One of the addresses of this system. -/
def OwnAddress (cfg : Config) (n : Node4D) : Prop := ∃ a ∈ cfg.akas, SameNode n a.node

/-- A point of this system. -/
def OwnPoint (cfg : Config) (n : Node4D) : Prop := n.point ≠ 0 ∧ ∃ a ∈ cfg.akas, SameNode a.node (bossOf n)

/-- Configured as NODE. -/
def Configured (cfg : Config) (n : Node4D) : Prop := ∃ k ∈ cfg.nodes, SameNode k.node n

/-- What a boolean variable tells. -/
inductive BoolVar.Tells (cfg : Config) (m : MemMsg) : BoolVar → Prop → Prop
  | fileAttach : Tells cfg m .fileAttach (m.attr &&& FLAG_FILEATTACH ≠ 0)
  | toAka : Tells cfg m .toAka (OwnAddress cfg m.dest)
  | fromAka (n : Node4D) : FromIs m n → Tells cfg m .fromAka (OwnAddress cfg n)
  | toPoint : Tells cfg m .toPoint (OwnPoint cfg m.dest)
  | fromPoint (n : Node4D) : FromIs m n → Tells cfg m .fromPoint (OwnPoint cfg n)
  | cfgFrom (n : Node4D) : FromIs m n → Tells cfg m .cfgFrom (Configured cfg n)
  | cfgFromBoss (n : Node4D) : FromIs m n → Tells cfg m .cfgFromBoss (Configured cfg (bossOf n))
  | cfgTo : Tells cfg m .cfgTo (Configured cfg m.dest)
  | cfgToBoss : Tells cfg m .cfgToBoss (Configured cfg (bossOf m.dest))

/-- Boolean variables about the nodelist. -/
inductive NlVar where
  | nlFrom | nlFromBoss | nlTo | nlToBoss
  deriving DecidableEq

def NlVar.name : NlVar → Str
  | .nlFrom => b!"EXISTSNL_FROMADDR"
  | .nlFromBoss => b!"EXISTSNL_FROMBOSS"
  | .nlTo => b!"EXISTSNL_TOADDR"
  | .nlToBoss => b!"EXISTSNL_TOBOSS"

/-- The address that is looked up. -/
inductive NlVar.Is (m : MemMsg) : NlVar → Node4D → Prop
  | nlFrom (n : Node4D) : FromIs m n → Is m .nlFrom n
  | nlFromBoss (n : Node4D) : FromIs m n → Is m .nlFromBoss (bossOf n)
  | nlTo : Is m .nlTo m.dest
  | nlToBoss : Is m .nlToBoss (bossOf m.dest)

/-- `l` is a line of the text. -/
def IsLine (l text : Str) : Prop :=
  ∃ a b, text = a ++ l ++ b ∧ 13 ∉ l ∧ (a = [] ∨ a.getLast? = some 13) ∧ (b = [] ∨ b.head? = some 13)

/-- Byte 1 only occurs at the beginning of lines. -/
def KludgesApart (text : Str) : Prop := ∀ i, text[i + 1]? = some 1 → text[i]? = some 13

/-- Text variables: the lines that begin with byte 1, and all the others. -/
def textVar (kludges : Bool) : Str := if kludges then b!"KLUDGES" else b!"TEXT"

/-- The text has such a line (a kludge or not) with the pattern in it. -/
def LineHas (kludges : Bool) (pat text : Str) : Prop :=
  ∃ l, IsLine l text ∧ (l.head? = some 1 ↔ kludges = true) ∧ Has pat l

/-- What a statement means. -/
inductive StmtSays (cfg : Config) (m : MemMsg) : Str → Prop → Prop
  | matches (v : StrVar) (w t pat x : Str) : Ci w v.name → WrittenPat t pat → OneStar pat → v.Is m x →
      StmtSays cfg m (w ++ b!"=" ++ t) (Glob pat x)
  | finds (v : StrVar) (w t pat x : Str) : Ci w v.name → WrittenPat t pat → Findable pat → v.Is m x → Ascii x →
      StmtSays cfg m (w ++ b!"|" ++ t) (Has pat x)
  | node (v : NodeVar) (w t pat : Str) (p : Pat4) (n : Node4D) : Ci w v.name → WrittenPat t pat → PatSays pat p →
      (cfg.nlConfigured = true ∨ p.type ≠ .hub ∧ p.type ≠ .region) → v.Is m n →
      StmtSays cfg m (w ++ b!"=" ++ t) (PatFits cfg.nl p n)
  | plain (v : BoolVar) (w : Str) (P : Prop) : Ci w v.name → v.Tells cfg m P → StmtSays cfg m w P
  | yes (v : BoolVar) (w t pat : Str) (P : Prop) : Ci w v.name → WrittenPat t pat → Ci pat b!"TRUE" → v.Tells cfg m P →
      StmtSays cfg m (w ++ b!"=" ++ t) P
  | no (v : BoolVar) (w t pat : Str) (P : Prop) : Ci w v.name → WrittenPat t pat → Ci pat b!"FALSE" → v.Tells cfg m P →
      StmtSays cfg m (w ++ b!"=" ++ t) (¬ P)
  | nodelist (v : NlVar) (w : Str) (n : Node4D) : Ci w v.name → v.Is m n → cfg.nlConfigured = true → cfg.nl.isOpen = true →
      StmtSays cfg m w (cfg.nlCheck n = true)
  | nodelistYes (v : NlVar) (w t pat : Str) (n : Node4D) : Ci w v.name → WrittenPat t pat → Ci pat b!"TRUE" → v.Is m n →
      cfg.nlConfigured = true → cfg.nl.isOpen = true → StmtSays cfg m (w ++ b!"=" ++ t) (cfg.nlCheck n = true)
  | text (kludges : Bool) (w t pat : Str) : Ci w (textVar kludges) → WrittenPat t pat → Findable pat → 13 ∉ pat →
      (∀ c ∈ m.text, Ascii c ∧ KludgesApart c) →
      StmtSays cfg m (w ++ b!"|" ++ t) (∃ c ∈ m.text, LineHas kludges pat c)

/-- The statements of an expression. -/
def FExp.atoms : FExp → List Str
  | .atom _ s => [s]
  | .group _ e => atoms e
  | .chain _ l r => atoms l ++ atoms r

end CM
