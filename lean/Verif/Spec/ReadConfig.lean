import Verif.Model.ReadConfig
/-! # What a configuration in memory looks like after the file has been read -/

namespace CM

/-- A group: a letter A-Z, or none. -/
def GroupLetter (g : UInt8) : Prop := g = 0 ∨ (65 ≤ g ∧ g ≤ 90)

/-- A list of groups that fits its array of 30 bytes. -/
def GroupList (s : Str) : Prop := s.length < 30 ∧ ∀ c ∈ s, 65 ≤ c ∧ c ≤ 90

/-- The tags that have a meaning of their own. -/
def BadTag (t : Str) : Prop := eqi t b!"BAD" = true
def DefaultTag (t : Str) : Prop := eqi t b!"DEFAULT" = true ∨ eqin t b!"DEFAULT_" 8 = true

/-- What each kind of area must and must not have. -/
def KindOk (a : Area) : Prop :=
  match a.type with
  | .netmail => a.base ≠ none ∧ a.tossNodes = []
  | .local => a.base ≠ none ∧ a.tossNodes = [] ∧ a.importNodes = []
  | .bad => BadTag a.tag ∧ a.path ≠ [] ∧ a.tossNodes = [] ∧ a.importNodes = []
  | .default => DefaultTag a.tag ∧ a.importNodes = []
  | .echomail => ¬ BadTag a.tag ∧ ¬ DefaultTag a.tag ∧ a.importNodes = []
  | .deleted => False

/-- The strings of an area fit their arrays (`config.h` 70-103), and it refers to existing addresses and
nodes; `akas` and `nodes` are the numbers of these. -/
structure AreaOk (akas nodes : Nat) (a : Area) : Prop where
  tag : a.tag.length < 80
  description : a.description.length < 80
  path : a.path.length < 80
  aka : ∃ i, a.aka = some i ∧ i < akas
  base : a.base = none ∨ a.base = some 0 ∨ a.base = some 1
  passThru : a.base = none → a.path = []
  links : ∀ t ∈ a.tossNodes, t.node < nodes ∧ (t.flags = 0 ∨ t.flags = 1 ∨ t.flags = 2 ∨ t.flags = 4)
  banned : ∀ b ∈ a.banned, b < nodes
  group : GroupLetter a.group
  kind : KindOk a
  oneLine : 10 ∉ a.tag ∧ 10 ∉ a.description ∧ 10 ∉ a.path
  flags : a.flags &&& 31 = a.flags
  unmarked : a.changed = false

/-- The same for a node (`config.h` 155-195); `packers` is the number of packers. -/
structure NodeOk (packers : Nat) (n : ConfigNode) : Prop where
  packetPW : n.packetPW.length < 9
  areafixPW : n.areafixPW.length < 40
  groups : GroupList n.groups
  readOnly : GroupList n.readOnlyGroups
  add : GroupList n.addGroups
  defaultGroup : GroupLetter n.defaultGroup
  sysop : n.sysopName.length < 36
  remoteName : n.remoteAFName.length < 36
  remotePw : n.remoteAFPw.length < 72
  pri : 1 ≤ n.echomailPri ∧ n.echomailPri ≤ 4
  packer : ∀ i, n.packer = some i → i < packers
  oneLine : 10 ∉ n.packetPW ∧ 10 ∉ n.areafixPW ∧ 10 ∉ n.sysopName ∧ 10 ∉ n.remoteAFName ∧ 10 ∉ n.remoteAFPw
  flags : n.flags &&& 4095 = n.flags
  pktFrom : n.has NODE_PKTFROM = false → n.pktFrom = ⟨0, 0, 0, 0⟩
  unmarked : n.changed = false ∧ n.remoteAF = []

/-- The packer of a node has a name, and is the first one with it. -/
def PackerOk (packers : List Packer) (n : ConfigNode) : Prop :=
  ∀ i, n.packer = some i → ∃ p, packers[i]? = some p ∧ p.name ≠ [] ∧ ∀ q ∈ packers.take i, eqi p.name q.name = false

/-- The parts of a pattern fit their arrays of 10 bytes. -/
def PatOk (p : Pat4) : Prop := p.zone.length < 10 ∧ p.net.length < 10 ∧ p.node.length < 10 ∧ p.point.length < 10

/-- The text of a command of a filter comes from a buffer of 200 bytes. -/
def CommandOk : Command → Prop
  | .kill | .twit => True
  | .copy s | .execute s | .writeLog s | .writeBad s | .bounce _ s => s.length < 200
  | .remap s p | .masquerade s p => s.length < 200 ∧ PatOk p

/-- A configuration all parts of which fit together. -/
structure ConfigOk (c : Config) : Prop where
  akas : ∀ k ∈ c.akas, k.domain.length < 20 ∧ ∀ r ∈ k.remList, r.net.length < 10 ∧ r.node.length < 10
  nodes : ∀ n ∈ c.nodes, NodeOk c.packers.length n
  areas : ∀ a ∈ c.areas, AreaOk c.akas.length c.nodes.length a
  packers : ∀ p ∈ c.packers, (p.name.length < 10 ∧ 10 ∉ p.name) ∧ p.cmd.length < 80 ∧ p.unpacker.length < 80 ∧
    p.recog.length < 80
  packing : ∀ n ∈ c.nodes, PackerOk c.packers n
  routes : ∀ r ∈ c.routes, PatOk r.pattern ∧ PatOk r.destPat ∧ ∃ k ∈ c.akas, k.node = r.aka
  changes : ∀ r ∈ c.changes, PatOk r.pattern
  filters : ∀ f ∈ c.filters, f.text ≠ [] ∧ f.text.length < 400 ∧ ∀ x ∈ f.commands, CommandOk x
  arealists : ∀ l ∈ c.arealists, l.node < c.nodes.length ∧ l.file.length < 80 ∧ GroupLetter l.group
  bounce : ∀ p ∈ c.bounceList, PatOk p
  attach : ∀ p ∈ c.fileAttachList, PatOk p
  names : ∀ s ∈ c.areafixNames, s.length < 36
  groupNames : ∀ i, (c.groupNames i).length < 80
  modes : c.dupeMode ≤ 2 ∧ c.loopMode ≤ 2
  paths : c.sysop.length < 36 ∧ c.inbound.length < 100 ∧ c.packetDir.length < 100
  unmarked : c.changed = false

/-- The other settings. -/
structure SettingsOk (s : Settings) : Prop where
  dirs : s.outbound.length < 100 ∧ s.tempDir.length < 100 ∧ s.packetCreate.length < 100
  files : s.logFile.length < 100 ∧ s.statsFile.length < 100 ∧ s.dupeFile.length < 100 ∧ s.areafixHelp.length < 100 ∧
    s.nodelist.length < 100
  commands : s.beforeToss.length < 80 ∧ s.beforePack.length < 80
  logLevel : 1 ≤ s.logLevel ∧ s.logLevel ≤ 6

end CM
