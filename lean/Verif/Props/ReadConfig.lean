import Verif.Lemmas.ReadHazard
import Verif.Props.ConfigFile
/-! # C70, C71: the configuration file -/
set_option linter.unusedSimpArgs false

namespace CM

theorem rdInit_ok (nl : Nodelist) (chk : Node4D → Bool) : RdOk (rdInit nl chk) := by
  refine ⟨⟨?_, ?_, ?_, ?_, ?_, ?_, ?_, ?_, ?_, ?_, ?_, ?_, ?_, ?_, ?_, rfl⟩, ⟨?_, ?_, ?_, ?_⟩⟩ <;> first | (intro x h; cases h) | simp [rdInit]

/-- **C70.** Whatever the file contains: if it is accepted, every string fits the array it is kept in, every
reference to an address, a node or a packer is to one that exists, every group is a letter, every area
has what its kind needs and nothing its kind cannot have, and nothing is marked as changed. -/
theorem read_config_ok (nl : Nodelist) (chk : Node4D → Bool) (file : List UInt8) (s : RdSt) (h : readConfig nl chk file = .ok s) :
    ConfigOk s.cfg ∧ SettingsOk s.set :=
  efoldlM_inv (P := RdOk) (fun _ _ _ hs ht => rdLine_ok hs ht) _ _ _ (rdInit_ok nl chk) h

/-- The references of an accepted configuration, spelled out: the number kept in an area leads to an
address, the numbers of its links lead to nodes, and the packer of a node to a packer. -/
theorem read_config_refs (nl : Nodelist) (chk : Node4D → Bool) (file : List UInt8) (s : RdSt) (h : readConfig nl chk file = .ok s) :
    (∀ a ∈ s.cfg.areas, (∃ i k, a.aka = some i ∧ s.cfg.akas[i]? = some k) ∧ (∀ t ∈ a.tossNodes, ∃ n, s.cfg.nodes[t.node]? = some n) ∧
      ∀ b ∈ a.banned, ∃ n, s.cfg.nodes[b]? = some n) ∧
    (∀ n ∈ s.cfg.nodes, ∀ i, n.packer = some i → ∃ p, s.cfg.packers[i]? = some p) ∧
    (∀ l ∈ s.cfg.arealists, ∃ n, s.cfg.nodes[l.node]? = some n) ∧ ∀ r ∈ s.cfg.routes, ∃ k ∈ s.cfg.akas, k.node = r.aka := by
  have ok := (read_config_ok nl chk file s h).1
  have get : ∀ {α : Type} (l : List α) (i : Nat), i < l.length → ∃ a, l[i]? = some a := fun l i hi => ⟨_, List.getElem?_eq_getElem hi⟩
  refine ⟨fun a ha => ⟨?_, fun t ht => get _ _ ((ok.areas a ha).links t ht).1, fun b hb => get _ _ ((ok.areas a ha).banned b hb)⟩,
    fun n hn i hi => get _ _ ((ok.nodes n hn).packer i hi), fun l hl => get _ _ (ok.arealists l hl).1, fun r hr => (ok.routes r hr).2.2⟩
  obtain ⟨i, h1, h2⟩ := (ok.areas a ha).aka
  obtain ⟨k, hk⟩ := get _ _ h2
  exact ⟨i, k, h1, hk⟩

/-- **C71 (partial).** A file without hazardous lines is either accepted or rejected with a message: nothing
is read or written outside the variables, and no arithmetic overflows. What is missing: the hazardous
lines (below). -/
theorem read_config_defined_partial (nl : Nodelist) (chk : Node4D → Bool) (file : List UInt8)
    (hz : ∀ l ∈ fileLines 4000 file.length file, ¬ Hazard l) : ∀ u, readConfig nl chk file ≠ .error (.ub u) := by
  have key : ∀ (ls : List Str) (s : RdSt), (∀ l ∈ ls, ¬ Hazard l) → NoUb (ls.foldlM rdLine s) := by
    intro ls
    induction ls with
    | nil => intro s _; rw [List.foldlM_nil]; exact .pure _
    | cons l ls ih =>
      intro s h
      rw [List.foldlM_cons]
      exact .bind (rdLine_noUb (h l (by simp))) fun t _ => ih t fun l' hl => h l' (by simp [hl])
  exact key _ _ hz

/-- Nor does it matter what follows a line that is rejected. -/
theorem read_config_stops (nl : Nodelist) (chk : Node4D → Bool) (file : List UInt8) (a : List Str) (l : Str) (r : List Str)
    (hf : fileLines 4000 file.length file = a ++ l :: r) (s : RdSt) (h1 : rdLines (rdInit nl chk) a = .ok s) (e : RdErr)
    (h2 : rdLine s l = .error e) : readConfig nl chk file = .error e := by
  unfold readConfig
  rw [hf]
  unfold rdLines at h1 ⊢
  rw [List.foldlM_append, h1]
  show List.foldlM rdLine s (l :: r) = _
  rw [List.foldlM_cons, h2]
  rfl

namespace Ex

def rdFile : Str :=
  b!"SYSOP \"Any One\"\nLOGLEVEL 3\nAKA 1:2/3\nDOMAIN fidonet\nPACKER ZIP \"zip %a %f\" \"unzip %a\" \"PK\"\n; a comment\n\nNODE 1:2/4 ZIP pw AUTOADD\nAREAFIXINFO afpw ABC\nNODE 1:2/5 \"\" \"\"\nNETMAIL MAIL 1:2/3 MSG mail\nIMPORT 1:2/3.1\nAREA BAD 1:2/3 MSG bad\nAREA ONE 1:2/3 JAM one\nEXPORT !1:2/4 5\nGROUP A\nAREA DEFAULT_A 1:2/3 MSG all/%l\nROUTE \"2:*/*\" 1:2/4 1:2/3\nFILTER \"FROMNAME=\\\"Some One\\\"\"\nTWIT\n"

def rdNl : Nodelist := ⟨false, fun _ => -1, fun _ => -1⟩

/-- What is read from a file. -/
def rdView {α : Type} (f : Config → List α) (file : Str) : Option (List α) :=
  match readConfig rdNl (fun _ => true) file with
  | .ok s => some (f s.cfg)
  | .error _ => none

set_option synthInstance.maxSize 1000 in
set_option synthInstance.maxHeartbeats 200000 in
theorem rd_areas : rdView (fun c => c.areas.map fun a => (a.tag, a.type, a.path, a.tossNodes.map (fun t => (t.node, t.flags)), a.group)) rdFile =
    some [(b!"MAIL", .netmail, b!"mail", [], 0), (b!"BAD", .bad, b!"bad", [], 0),
      (b!"ONE", .echomail, b!"one", [(0, TOSSNODE_READONLY), (1, 0)], 65), (b!"DEFAULT_A", .default, b!"all/%l", [], 0)] := by
  decide +kernel

set_option synthInstance.maxSize 1000 in
set_option synthInstance.maxHeartbeats 200000 in
theorem rd_nodes : rdView (fun c => c.nodes.map fun n => (n.node, n.packer, n.packetPW, n.areafixPW, n.groups)) rdFile =
    some [(⟨1, 2, 4, 0⟩, some 0, b!"pw", b!"afpw", b!"ABC"), (⟨1, 2, 5, 0⟩, none, [], [], [])] := by
  decide +kernel

/-- So the configuration read from this file has all the parts `read_config_ok` speaks of. -/
example : ∃ s, readConfig rdNl (fun _ => true) rdFile = .ok s ∧ s.cfg.areas.length = 4 ∧ ConfigOk s.cfg := by
  have h := rd_areas
  unfold rdView at h
  cases hr : readConfig rdNl (fun _ => true) rdFile with
  | error e => rw [hr] at h; cases h
  | ok s =>
    rw [hr] at h
    refine ⟨s, rfl, ?_, (read_config_ok _ _ _ _ hr).1⟩
    have := congrArg (fun x => x.length) (Option.some.inj h)
    simpa using this

instance (s : Str) : Decidable (NoFirstPart s) := by unfold NoFirstPart; infer_instance
instance (s : Str) : Decidable (NoFirstPart' s) := by unfold NoFirstPart'; infer_instance
instance (s : Str) : Decidable (TooBig s) := by unfold TooBig; infer_instance
instance (l : Str) : Decidable (Hazard l) := by unfold Hazard HazardWords; infer_instance

/-- The lines of this file are of the kinds that can be hazardous, but are not. -/
def rdSafe : Str := b!"DOMAIN fidonet\nAREAFIXINFO pw ABC DEF \"\"\nGROUPNAME A x\nREMNODE 5/*\nROUTE 1:*/*.* 1:2/3 1:2/3\nMAXPKTSIZE 2000\n"

example : ∀ l ∈ fileLines 4000 rdSafe.length rdSafe, ¬ Hazard l := by decide +kernel
example : ∀ l ∈ fileLines 4000 rdFile.length rdFile, ¬ Hazard l := by decide +kernel

def rdErr (file : Str) : Option RdErr :=
  match readConfig rdNl (fun _ => true) file with
  | .ok _ => none
  | .error e => some e

/-- A rejected file: a link to a node that is not configured. -/
example : rdErr b!"AKA 1:2/3\nAREA ONE 1:2/3\nEXPORT 1:2/9\n" = some .invalid := by decide +kernel

/-- **C71, violated.** The program that reads the configuration file writes or reads outside its variables, uses
a variable that has no value, or overflows, for a line of each of these kinds: a domain of 20 characters; a
list of 30 groups; the name of the group `""`; a pattern without its first part in REMNODE, ROUTE, CHANGE,
BOUNCE, FILEATTACH, REMAPMSG and MASQUERADE; and a maximum size of 2 gigabytes. -/
theorem read_config_undefined :
    rdErr b!"AKA 1:2/3\nDOMAIN abcdefghijklmnopqrst\n" = some (.ub .oobWrite) ∧
    rdErr b!"NODE 1:2/4 \"\" \"\"\nAREAFIXINFO pw ABCDEFGHIJKLMNOPQRSTUVWXYZABCD\n" = some (.ub .oobWrite) ∧
    rdErr b!"GROUPNAME \"\" x\n" = some (.ub .oobWrite) ∧
    rdErr b!"AKA 1:2/3\nREMNODE /5\n" = some (.ub .uninit) ∧
    rdErr b!"AKA 1:2/3\nROUTE \":2/*\" 1:2/4 1:2/3\n" = some (.ub .uninit) ∧
    rdErr b!"CHANGE * \"ZONE \" CRASH\n" = some (.ub .uninit) ∧
    rdErr b!"BOUNCE .1\n" = some (.ub .uninit) ∧
    rdErr b!"FILEATTACH /1\n" = some (.ub .uninit) ∧
    rdErr b!"FILTER \"TYPE=NETMAIL\"\nREMAPMSG \"x\" :1/1\n" = some (.ub .uninit) ∧
    rdErr b!"MAXPKTSIZE 2097152\n" = some (.ub .overflow) := by
  refine ⟨?_, ?_, ?_, ?_, ?_, ?_, ?_, ?_, ?_, ?_⟩ <;> decide +kernel

end Ex

end CM
