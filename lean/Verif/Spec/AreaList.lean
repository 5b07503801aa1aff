import Verif.Model.Areafix
import Verif.Spec.Areafix
/-!
# Lists of areas: specification

`ci` is the position of the node that gets the list, `cn` its settings.
-/

namespace CM

/-- The node is linked to the area. -/
def IsLinked (ci : Nat) (a : Area) : Prop := ∃ t ∈ a.tossNodes, t.node = ci

instance (ci : Nat) (a : Area) : Decidable (IsLinked ci a) := by unfold IsLinked; infer_instance

/-- The node has access to the group. -/
def CanSee (cn : ConfigNode) (g : UInt8) : Prop := g ∈ cn.groups ∨ g ∈ cn.readOnlyGroups

instance (cn : ConfigNode) (g : UInt8) : Decidable (CanSee cn g) := by unfold CanSee; infer_instance

/-- The areas a list is about. -/
def Listed (type : ListType) (ci : Nat) (cn : ConfigNode) (a : Area) : Prop :=
  a.type = .echomail ∧
  match type with
  | .query => IsLinked ci a
  | .unlinked => ¬ IsLinked ci a ∧ CanSee cn a.group
  | .full => IsLinked ci a ∨ CanSee cn a.group

instance (type : ListType) (ci : Nat) (cn : ConfigNode) (a : Area) : Decidable (Listed type ci cn a) := by
  unfold Listed; cases type <;> infer_instance

/-- An entry is about an area. -/
structure About (env : Env) (ci : Nat) (a : Area) (e : ListEntry) : Prop where
  tag : e.tag = a.tag
  desc : e.desc = a.description
  group : e.group = a.group
  kb : e.kb = env.weekKB a
  attached : e.attached = true ↔ IsLinked ci a
  feed : a.OneLink → (e.feed = true ↔ Feeds ci a)

/-- The first word of a line. -/
def tagWord (l : Str) : Str := l.takeWhile fun x => 33 ≤ x ∧ x < 128

/-- The text behind the first word: it begins with the next character from 33 to 127 and goes to the end of the line, 77
characters at most. -/
def descText (l : Str) : Str :=
  (((l.drop ((tagWord l).length + 1)).dropWhile fun x => ¬ (33 ≤ x ∧ x < 128)).takeWhile fun x => x ≠ 13 ∧ x ≠ 10).take 77

/-- The lines of the lists of other systems the node may order areas from. -/
def OfferedBy (env : Env) (log : List Effect) (als : List Arealist) (cn : ConfigNode) (al : Arealist) (l : Str) : Prop :=
  al ∈ als ∧ al.flags &&& 2 ≠ 0 ∧ al.group ∈ cn.groups ∧
    ∃ lines, env.areaFile log al.file = some lines ∧ l ∈ lines ∧ tagWord l ≠ []

/-- Entries for areas on offer elsewhere: each only once, and none that exists here. -/
structure Offers (env : Env) (log : List Effect) (c : Config) (cn : ConfigNode) (fw : List ListEntry) : Prop where
  source : ∀ e ∈ fw, ∃ al l, OfferedBy env log c.arealists cn al l ∧ e.group = al.group ∧ e.tag = tagWord l ∧
    e.desc = (if al.flags &&& 1 ≠ 0 then descText l else []) ∧ e.kb = b!"?" ∧ e.attached = false ∧ e.feed = false
  new : ∀ e ∈ fw, ∀ a ∈ c.areas, eqi e.tag a.tag = false
  once : fw.Pairwise fun x y => eqi y.tag x.tag = false
  all : ∀ al l, OfferedBy env log c.arealists cn al l → (∃ a ∈ c.areas, eqi (tagWord l) a.tag = true) ∨
    ∃ e ∈ fw, eqi (tagWord l) e.tag = true

/-- By group, then by tag in any case. -/
def InOrder (a b : ListEntry) : Prop :=
  a.group < b.group ∨ (a.group = b.group ∧ ¬ b.tag.map lower < a.tag.map lower)

/-- The entries of a list. -/
structure IsList (env : Env) (log : List Effect) (c : Config) (type : ListType) (ci : Nat) (cn : ConfigNode)
    (es : List ListEntry) : Prop where
  sorted : es.Pairwise InOrder
  exact : ∃ (f : Area → ListEntry) (fw : List ListEntry), (∀ a, About env ci a (f a)) ∧
    es.Perm ((c.areas.filter fun a => Listed type ci cn a).map f ++ fw) ∧
    (c.has CFG_INCLUDEFORWARD = true ∧ type ≠ .query ∧ cn.has NODE_FORWARDREQ = true → Offers env log c cn fw) ∧
    (¬ (c.has CFG_INCLUDEFORWARD = true ∧ type ≠ .query ∧ cn.has NODE_FORWARDREQ = true) → fw = [])

/-- What is printed before the tag. -/
def entryMark (type : ListType) (e : ListEntry) : UInt8 :=
  if e.feed = true then 37 else if type = .full ∧ e.attached = true then 42 else 32

/-- A column of `n` characters. -/
def inColumn (n : Nat) (s : Str) : Str := s.take n ++ List.replicate (n - s.length) 32

/-- The lines for an entry: one, or two if the tag is long; tags are cut after 70 characters, descriptions after 33. The traffic is
in the last column, to the right. -/
def Row (type : ListType) (e : ListEntry) (ls : List Str) : Prop :=
  ∃ rest, rest = b!"  " ++ inColumn 33 e.desc ++ b!"  " ++ List.replicate (8 - e.kb.length) 32 ++ e.kb.take 8 ∧
  ((e.tag.length ≤ 28 ∧ ls = [entryMark type e :: (inColumn 28 e.tag ++ rest)]) ∨
   (28 < e.tag.length ∧ ls = [entryMark type e :: inColumn 70 e.tag, 32 :: (List.replicate 28 32 ++ rest)]))

/-- The first line of a list. -/
def listTitle (type : ListType) (aka : Node4D) : Str :=
  b!"This is a list of all " ++ (match type with
    | .query => b!"connected"
    | .full => b!"available"
    | .unlinked => b!"unlinked") ++ b!" areas at " ++ addr4 aka ++ b!":"

/-- The name of a group. -/
def groupTitle (c : Config) (g : UInt8) : Str := if g = 0 then b!"<No group>" else c.groupNames (g.toNat - 65)

/-- The lines for the entries, with a heading whenever the group changes. -/
inductive Table (c : Config) (type : ListType) : Option UInt8 → List ListEntry → List Str → Prop where
  | nil (g : Option UInt8) : Table c type g [] []
  | same {e : ListEntry} {es : List ListEntry} {r ls : List Str} (hr : Row type e r) (h : Table c type (some e.group) es ls) :
      Table c type (some e.group) (e :: es) (r ++ ls)
  | head {g : Option UInt8} {e : ListEntry} {es : List ListEntry} {r ls : List Str} (hg : g ≠ some e.group) (hr : Row type e r)
      (h : Table c type (some e.group) es ls) :
      Table c type g (e :: es) ((if g = none then [] else [[]]) ++ [b!" Group: " ++ groupTitle c e.group, [],
        b!" Tagname                       Description                         KB/week",
        b!" ----------------------------  ---------------------------------   -------"] ++ (r ++ ls))

/-- The last lines of a list. -/
def footer (type : ListType) (es : List ListEntry) : List Str :=
  match type with
  | .query => [13 :: dec es.length ++ b!" linked areas.", b!"A '%' means that you are the feed for the area."]
  | .unlinked => [13 :: dec es.length ++ b!" unlinked areas."]
  | .full => [13 :: b!"Totally " ++ dec es.length ++ b!" areas, you are connected to " ++
      dec (es.countP (·.attached)) ++ b!" of them.",
      b!"A '*' means that you are connected to the area.", b!"A '%' means that you are the feed for the area."]

end CM
