import Verif.Model.CrashExport
import Verif.Props.Areafix
/-! # Lists of areas for other programs: what is expected (C90) -/

namespace CM

/-- The areas that are listed: they have a name, they are confirmed, they are not templates for new areas,
and they are in one of the groups asked for. -/
structure InList (grp : Option Str) (a : Area) : Prop where
  named : a.tag ≠ []
  confirmed : a.has AREA_UNCONFIRMED = false
  real : a.type ≠ .default
  group : ∀ g, grp = some g → ∃ c ∈ g, upper c = a.group

/-- The addresses `ns` are those of the nodes `ts` (the zone may be left out). -/
inductive NodeAddrs (nodes : List Node4D) : List TossNode → List Node4D → Prop
  | nil : NodeAddrs nodes [] []
  | cons {t ts n ns} (m : Node4D) (h : nodes[t.node]? = some m) (e : SameAddr n m) (r : NodeAddrs nodes ts ns) :
      NodeAddrs nodes (t :: ts) (n :: ns)

/-- The strings with a space between them. -/
def spaced : List Str → Str
  | [] => []
  | [w] => w
  | w :: ws => w ++ 32 :: spaced ws

/-- Where the messages of an area are, for AREAS.BBS. -/
def bbsPlace (a : Area) : Str :=
  match a.base with
  | none => b!"#" ++ a.tag
  | some 0 => a.path
  | some _ => b!"!" ++ a.path

/-- The word is the address of the area. -/
def AddressOf (akas : List Node4D) (a : Area) (w : Str) : Prop :=
  ∃ n k m, parse4D w = some n ∧ a.aka = some k ∧ akas[k]? = some m ∧ SameAddr n m

/-- Quotes in a description become apostrophes. -/
def unquoted (d : Str) : Str := d.map fun c => if c = 34 then 39 else c

/-- The line for an area that is listed. -/
def ExportLine (fmt : XFormat) (akas nodes : List Node4D) (a : Area) (row : Str) : Prop :=
  match fmt with
  | .areasBbs =>
    if a.type = .netmail ∨ a.type = .local then row = []
    else ∃ ns, NodeAddrs nodes a.tossNodes ns ∧ row = bbsPlace a ++ b!" " ++ a.tag ++ b!" " ++ spaced (ns.map print4D) ++ b!"\n"
  | .forward =>
    if a.type = .echomail then row = a.tag ++ (if a.description = [] then [] else b!" " ++ a.description) ++ b!"\n" else row = []
  | .forwardNoDesc => if a.type = .echomail then row = a.tag ++ b!"\n" else row = []
  | .golded =>
    if a.path = [] ∨ a.base = none then row = []
    else ∃ w g, AddressOf akas a w ∧ upper g = a.group ∧
      row = b!"AREADEF " ++ a.tag ++ b!" \"" ++ unquoted a.description ++ b!"\" " ++ (if a.group = 0 then b!"0" else [g]) ++ b!" " ++
        (if a.type = .netmail then b!"NET" else if a.type = .local then b!"LOCAL" else b!"ECHO") ++ b!" " ++
        (if a.base = some 0 then b!"FTS1" else b!"JAM") ++ b!" " ++ a.path ++ b!" " ++ w ++ b!" " ++
        (if a.type = .netmail then b!"(Loc Pvt)" else b!"(Loc)") ++ b!"\n"
  | .timed =>
    if a.path = [] ∨ a.base = none then row = []
    else ∃ w, AddressOf akas a w ∧
      row = (if a.type = .netmail then b!"NetArea" else if a.type = .local then b!"LocalArea" else b!"EchoArea") ++ b!" \"" ++
        unquoted a.description ++ b!"\" " ++ a.tag ++ b!" " ++ a.path ++ b!" -P" ++ w ++ (if a.base = some 0 then [] else b!" -J") ++ b!"\n"

/-- What is written for each area, in the order of the configuration. -/
inductive ExportLines (fmt : XFormat) (grp : Option Str) (akas nodes : List Node4D) : List Area → List Str → Prop
  | nil : ExportLines fmt grp akas nodes [] []
  | cons {a as r rs} (h : InList grp a → ExportLine fmt akas nodes a r) (h' : ¬ InList grp a → r = [])
      (t : ExportLines fmt grp akas nodes as rs) : ExportLines fmt grp akas nodes (a :: as) (r :: rs)

/-- What is before the areas. -/
def exportHead (fmt : XFormat) (sysop now : Str) : Str :=
  b!"; Generated by CrashExport 1.5.1\n; " ++ now ++ b!"\n" ++
    (if fmt = .areasBbs then b!"Default origin ! " ++ sysop ++ b!"\n" else [])

/-- An area both programs read alike: no name, path or description that fills its field, no marks on the
nodes and not more than forty of them. -/
structure Modest (a : Area) : Prop where
  tag : a.tag.length < 79
  path : a.path.length < 79
  desc : a.description.length < 79
  marks : ∀ t ∈ a.tossNodes, t.flags = 0
  few : a.tossNodes.length ≤ 40

/-- The third word of a line: in the line of an area, its address. -/
def thirdWord (l : Str) : Str := (jbstrcpy 200 (jbstrcpy 80 (jbstrcpy 30 l).2.1).2.1).1

end CM
