import Verif.Spec.ConfigFile
import Verif.Spec.ReadConfig
import Verif.Spec.ReadBack
/-! # The configuration in memory after it has been changed -/

namespace CM

/-- An area as it is after the file has been read: it carries no mark. -/
def unmarkA (a : Area) : Area := { a with changed := false }

/-- A node as it is after the file has been read. -/
def unmarkN (n : ConfigNode) : ConfigNode := { n with changed := false, remoteAF := [] }

/-- What has become of the areas: each is the same, or changed and marked, or removed. -/
inductive AreasNow : List Area → List Area → Prop
  | nil : AreasNow [] []
  | same (a) {as bs} (h : AreasNow as bs) : AreasNow (a :: as) (a :: bs)
  | changed (a b) {as bs} (ht : b.tag = a.tag) (hk : b.aka = a.aka) (hc : b.changed = true) (hl : a.type ≠ .local) (h : AreasNow as bs) :
      AreasNow (a :: as) (b :: bs)
  | removed (a) {as bs} (hl : a.type ≠ .local) (h : AreasNow as bs) : AreasNow (a :: as) bs

/-- The tags differ in more than case. -/
def DistinctTags (l : List Area) : Prop := l.Pairwise fun a b => eqi a.tag b.tag = false

instance (l : List Area) : Decidable (DistinctTags l) := inferInstanceAs (Decidable (List.Pairwise _ _))

/-- A configuration that was read and then changed: the nodes and areas that differ are marked, new areas
stand at the end and are marked. -/
structure Altered (old new : Config) : Prop where
  rest : { new with areas := old.areas, nodes := old.nodes, changed := old.changed } = old
  count : new.nodes.length = old.nodes.length
  nodes : ∀ (i : Nat) n m, old.nodes[i]? = some n → new.nodes[i]? = some m →
    m.node = n.node ∧ (m.changed = false → unmarkN m = n)
  areas : ∃ kept added, new.areas = kept ++ added ∧ AreasNow old.areas kept ∧ (∀ a ∈ added, a.changed = true) ∧
    DistinctTags (old.areas ++ added)

/-- What is marked can be written so that it is read back: see `area_reads_back_partial` and
`node_reads_back_partial`. -/
structure Writable (c : Config) : Prop where
  areas : ∀ a ∈ c.areas, a.changed = true → AreaOk c.akas.length c.nodes.length (unmarkA a) ∧ a.type ≠ .netmail ∧
    NoNul a.tag ∧ NoNul a.description ∧ NoNul a.path
  nodes : ∀ n ∈ c.nodes, n.changed = true → NodeOk c.packers.length (unmarkN n) ∧ PackerOk c.packers n ∧ RemoteOk n ∧
    NoNul n.packetPW ∧ NoNul n.areafixPW ∧ NoNul n.sysopName ∧ NoNul n.remoteAFName ∧ NoNul n.remoteAFPw
  packers : ∀ p ∈ c.packers, NoNul p.name
  akas : Distinct4D (c.akas.map (·.node))
  addresses : Distinct4D (c.nodes.map (·.node))

/-- The number of lines that begin a node. -/
def nodeLines (ls : List Str) : Nat := ls.countP fun m => eqi (keyword m) b!"NODE"

/-- What the lines of the file must be like: no tag is cut when it is read, no address is longer than the
buffer used when the file is rewritten, a changed area is linked only to nodes that stand before it, and a
node that has got another packer stands after the packers. -/
structure LinesFit (old c : Config) (ls : List Str) : Prop where
  tags : ∀ l ∈ ls, AreaLine l → ∀ w, argument l = some w → w.length < 80
  addresses : ∀ l ∈ ls, NodeLine l → ∀ w, argument l = some w → w.length < 99
  links : ∀ pre l post w b, ls = pre ++ l :: post → AreaLine l → argument l = some w → b ∈ c.areas → eqi w b.tag = true →
    b.changed = true → (∀ t ∈ b.tossNodes, t.node < nodeLines pre) ∧ ∀ x ∈ b.banned, x < nodeLines pre
  packers : ∀ pre l post n m, ls = pre ++ l :: post → NodeLine l → old.nodes[nodeLines pre]? = some n → c.nodes[nodeLines pre]? = some m →
    m.packer ≠ n.packer → ∀ x ∈ post, eqi (keyword x) b!"PACKER" = false

end CM
