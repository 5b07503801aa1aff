import Verif.Spec.AreaList
import Verif.Spec.Echo
/-!
# New areas: specification

What an area looks like that the program adds to its configuration, for a message in an unknown area or for one that has
been ordered.
-/

namespace CM

/-- A letter of a tag in a path; others become an underline. -/
def pathLetter (c : UInt8) : UInt8 := if 33 ≤ c ∧ c ≤ 126 ∧ c ∉ b!"\"#'`()*,./:;<>|" then c else 95

/-- The path after `%a`, `%l` and `%8` have been replaced (code 24 counts as the digit 8). -/
def fillPath (name serial : Str) : Str → Str
  | [] => []
  | [c] => [c]
  | c :: x :: r =>
    if c = 37 ∧ (x = 97 ∨ x = 65) then name ++ fillPath name serial r
    else if c = 37 ∧ (x = 108 ∨ x = 76) then name.map lower ++ fillPath name serial r
    else if c = 37 ∧ (x = 56 ∨ x = 24) then serial ++ fillPath name serial r
    else c :: fillPath name serial (x :: r)

/-- The first position of the list whose element has the property, if there is one. -/
def FirstAt {α : Type} (p : α → Prop) (l : List α) : Option Nat → Prop
  | some k => (∃ x, l[k]? = some x ∧ p x) ∧ ∀ (j : Nat) (x : α), j < k → l[j]? = some x → ¬ p x
  | none => ∀ x ∈ l, ¬ p x

/-- The group of areas created for a node. -/
def newGroup (c : Config) (k : Option Nat) : UInt8 := ((k.bind (c.nodes[·]?)).map (·.defaultGroup)).getD 0

/-- The area whose settings are used: the first one for the group, `DEFAULT_` followed by groups, or else the area `DEFAULT`. -/
def templateFor (c : Config) (g : UInt8) : Option Area :=
  ((if g = 0 then [] else c.areas.filter fun a => (a.tag.take 8).map lower = b!"default_" ∧ g ∈ (a.tag.drop 8).take 49) ++
    c.areas.filter fun a => a.tag.map lower = b!"default").head?

/-- The descriptions of a tag in the lists of a node that have descriptions. -/
def listedDescs (env : Env) (log : List Effect) (c : Config) (k : Option Nat) (tag : Str) : List Str :=
  (c.arealists.filter fun al => some al.node = k ∧ al.flags &&& 1 ≠ 0).flatMap fun al =>
    (((env.areaFile log al.file).getD []).filter fun l => (tagWord l).map lower = tag.map lower ∧ descText l ≠ []).map descText

/-- The flags of the link of node `j`, if it gets one: those it has in the area whose settings are used; it is the feed if the area is
created for it; and the nodes that get all areas of the group are linked. -/
def linkWanted (c : Config) (k : Option Nat) (readOnly : Bool) (d : Option Area) (j : Nat) : Option UInt16 :=
  match (d.map (·.tossNodes)).getD [] |>.find? fun t => t.node == j with
  | some t => some t.flags
  | none =>
    if k = some j then some TOSSNODE_FEED
    else match k, c.nodes[j]? with
      | some _, some n =>
        if newGroup c k ∈ n.addGroups then some (if readOnly = true ∨ newGroup c k ∈ n.readOnlyGroups then TOSSNODE_READONLY else 0) else none
      | _, _ => none

/-- A new area, created for a node. -/
structure SetUp (env : Env) (log : List Effect) (c : Config) (tag : Str) (node me : Node4D) (active passThru : Bool) (a : Area) : Prop where
  name : a.tag = tag
  echo : a.type = .echomail
  marked : a.changed = true
  banned : a.banned = []
  imports : a.importNodes = []
  /-- The address of the system in the area: that one the message was for, or else the first one. -/
  aka : ∃ o, FirstAt (fun x : Aka => SameSystem x.node me) c.akas o ∧
    a.aka = match o with
      | some i => some i
      | none => if c.akas = [] then none else some 0
  settings : ∃ k, FirstAt (fun n : ConfigNode => SameSystem n.node node) c.nodes k ∧
    a.group = newGroup c k ∧
    (∃ d, d = templateFor c (newGroup c k) ∧
      a.path = (d.map fun d => (fillPath (tag.map pathLetter) (env.serial log) d.path).take 79).getD [] ∧
      a.base = (if passThru = true then none else d.bind (·.base)) ∧
      a.keepDays = (d.map (·.keepDays)).getD 0 ∧ a.keepNum = (d.map (·.keepNum)).getD 0 ∧
      a.flags = (if active = true then (d.map (·.flags)).getD 0 &&&
        (AREA_MANDATORY ||| AREA_DEFREADONLY ||| AREA_IGNOREDUPES ||| AREA_IGNORESEENBY) else AREA_UNCONFIRMED) ∧
      a.description = (listedDescs env log c k tag).head?.getD ((d.map (·.description)).getD []) ∧
      a.OneLink ∧
      ∀ j, (a.tossNodes.find? fun t => t.node == j).map (·.flags) = linkWanted c k (a.has AREA_DEFREADONLY) d j)

end CM
