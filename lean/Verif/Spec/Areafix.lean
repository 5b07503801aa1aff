import Verif.Model.Config
/-!
# What AreaFix may do to the configuration

Written without reference to the model of AreaFix. `ci` is the position of the requesting node in the
list of nodes.
-/

namespace CM

/-- The areas that are not marked for removal. -/
def Config.live (c : Config) : List Area := c.areas.filter fun a => a.type ≠ .deleted

/-- The links of all other nodes. -/
def Area.others (a : Area) (ci : Nat) : List TossNode := a.tossNodes.filter fun t => t.node ≠ ci

/-- No node is linked twice. -/
def Area.OneLink (a : Area) : Prop := (a.tossNodes.map (·.node)).Nodup

/-- The node may have this new link: its group is one of the node's groups, the node is not banned,
and the link is read-only exactly when the area is read-only by default or its group is one the node
has read-only access to. -/
def Granted (c : Config) (ci : Nat) (a : Area) (t : TossNode) : Prop :=
  ∃ cn, c.nodes[ci]? = some cn ∧ (a.group ∈ cn.groups ∨ a.group ∈ cn.readOnlyGroups) ∧ ci ∉ a.banned ∧
    ((a.has AREA_DEFREADONLY = true ∨ a.group ∈ cn.readOnlyGroups) → t.flags = TOSSNODE_READONLY) ∧
    (¬ (a.has AREA_DEFREADONLY = true ∨ a.group ∈ cn.readOnlyGroups) → t.flags = 0)

/-- What the node can make of an area: only its own links change, they are granted, and a mandatory
area is left only by its feed. A changed area is marked, so that it will be written to the configuration
file. -/
structure Evo (c : Config) (ci : Nat) (a a' : Area) : Prop where
  rest : a' = { a with
    tossNodes := a'.tossNodes
    changed := a'.changed }
  others : a'.others ci = a.others ci
  own : ∀ t ∈ a'.tossNodes, t.node = ci → t ∈ a.tossNodes ∨ Granted c ci a t
  mandatory : a.has AREA_MANDATORY = true → ∀ t ∈ a.tossNodes, t.node = ci → t.has TOSSNODE_FEED = false →
    t ∈ a'.tossNodes
  one : a.OneLink → a'.OneLink
  echo : a.type ≠ .echomail → a' = a
  marked : a' = a ∨ a'.changed = true

/-- The node has a link to the area as its feed. -/
def Feeds (ci : Nat) (a : Area) : Prop := ∃ t ∈ a.tossNodes, t.node = ci ∧ t.has TOSSNODE_FEED = true

/-- The node can cause the removal of the area: because it is the feed and areas without feed go, or
because areas that nobody uses go: without message base, and the other nodes linked are nobody or one
feed. -/
def Removable (c : Config) (ci : Nat) (a : Area) : Prop :=
  a.type = .echomail ∧ (a.has AREA_MANDATORY = true → Feeds ci a) ∧
  ((c.has CFG_REMOVEWHENFEED = true ∧ Feeds ci a) ∨
   (c.has CFG_AREAFIXREMOVE = true ∧ a.base = none ∧
    (a.others ci = [] ∨ ∃ t, a.others ci = [t] ∧ t.has TOSSNODE_FEED = true)))

/-- What becomes of an area. -/
def Fate (c : Config) (ci : Nat) (a : Area) : Option Area → Prop
  | some a' => Evo c ci a a'
  | none => Removable c ci a

/-- What becomes of each area of a list. -/
inductive Fates (c : Config) (ci : Nat) : List Area → List (Option Area) → Prop
  | nil : Fates c ci [] []
  | cons {a : Area} {f : Option Area} {as : List Area} {fs : List (Option Area)} :
    Fate c ci a f → Fates c ci as fs → Fates c ci (a :: as) (f :: fs)

/-- An area created by a forward request of the node: it may make such requests, and the tag is in a
list of areas of another node, for a group the node has full access to. -/
def Forwarded (env : Env) (c : Config) (ci : Nat) (a : Area) : Prop :=
  ∃ cn al log, c.nodes[ci]? = some cn ∧ cn.has NODE_FORWARDREQ = true ∧
    al ∈ c.arealists ∧ al.flags &&& 2 ≠ 0 ∧ al.group ∈ cn.groups ∧ a.group = al.group ∧
    (∃ lines, env.areaFile log al.file = some lines ∧
      ∃ l ∈ lines, eqi (l.takeWhile fun x => 33 ≤ x ∧ x < 128) a.tag = true) ∧
    a.type = .echomail ∧ a.banned = [] ∧ a.OneLink ∧ (c.has CFG_FORWARDPASSTHRU = true → a.base = none) ∧
    a.changed = true

/-- What AreaFix may do to a node: nothing but the queue of commands for it; the requesting node may
change its password, packer, and whether it is passive. A changed node is marked. -/
def NodeEvo (ci : Nat) (i : Nat) (n n' : ConfigNode) : Prop :=
  (i ≠ ci → n' = { n with remoteAF := n'.remoteAF }) ∧
  n' = { n with
    remoteAF := n'.remoteAF
    areafixPW := n'.areafixPW
    packer := n'.packer
    changed := n'.changed
    flags := n'.flags } ∧
  n'.flags &&& ~~~NODE_PASSIVE = n.flags &&& ~~~NODE_PASSIVE ∧
  (n' = { n with remoteAF := n'.remoteAF } ∨ n'.changed = true)

/-- What a request of a node may do to the configuration. If an area or a node changes, then the
configuration as a whole is marked as changed, so that the file will be rewritten. -/
structure Allowed (env : Env) (ci : Nat) (c c' : Config) : Prop where
  rest : c' = { c with
    areas := c'.areas
    nodes := c'.nodes
    changed := c'.changed }
  len : c'.nodes.length = c.nodes.length
  nodes : ∀ i n n', c.nodes[i]? = some n → c'.nodes[i]? = some n' → NodeEvo ci i n n'
  areas : ∃ fates new, Fates c ci c.live fates ∧ c'.live = fates.filterMap id ++ new ∧
    ∀ a ∈ new, ∃ a0, Forwarded env c ci a0 ∧ Evo c ci a0 a
  keeps : c.changed = true → c'.changed = true
  noted : c'.changed = true ∨ (c'.live = c.live ∧
    ∀ (i : Nat) (n n' : ConfigNode), c.nodes[i]? = some n → c'.nodes[i]? = some n' → n' = { n with remoteAF := n'.remoteAF })

end CM
