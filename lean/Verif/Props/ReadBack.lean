import Verif.Lemmas.ReadNode
import Verif.Props.ReadConfig
/-! # C72: what is written for an area or a node is read back -/
set_option linter.unusedSimpArgs false

namespace CM

/-- **C72 (areas, partial).** The lines written for an area, read after the own addresses and the nodes it
refers to, add exactly this area, without the mark `changed`, and change nothing else. What is missing:
netmail areas (`Ex.netmail_unreadable`). -/
theorem area_reads_back_partial (s : RdSt) (cfg : Config) (a : Area) (txt : Str) (h : areaText cfg a = .ok txt)
    (ok : AreaOk s.cfg.akas.length s.cfg.nodes.length { a with changed := false }) (hn : a.type ≠ .netmail)
    (hd : Distinct4D (s.cfg.akas.map (·.node))) (hp : s.cfg.akas.map (·.node) <+: cfg.akas.map (·.node))
    (hd' : Distinct4D (s.cfg.nodes.map (·.node))) (hp' : s.cfg.nodes.map (·.node) <+: cfg.nodes.map (·.node)) :
    rdLines s (linesOf txt) = .ok { s with cfg := { s.cfg with areas := s.cfg.areas ++ [{ a with changed := false }] } } :=
  (reads_area s cfg { a with changed := false } h ok hn hd hp hd' hp').2

/-- **C72 (nodes, partial).** The lines written for a node, read after the packers, add exactly this node,
without the mark `changed` and the commands collected for its AreaFix. What is missing: the password
and the plus of a remote AreaFix without a name (`Ex.remote_lost`). -/
theorem node_reads_back_partial (s : RdSt) (cfg : Config) (n : ConfigNode) (txt : Str) (h : nodeText cfg n = .ok txt)
    (ok : NodeOk s.cfg.packers.length { n with changed := false, remoteAF := [] }) (hp : PackerOk s.cfg.packers n)
    (hs : s.cfg.packers.map (·.name) = cfg.packers.map (·.name)) (hl : ∀ p ∈ s.cfg.packers, p.name.length < 10 ∧ 10 ∉ p.name)
    (hr : RemoteOk n) :
    rdLines s (linesOf txt) =
      .ok { s with cfg := { s.cfg with nodes := s.cfg.nodes ++ [{ n with changed := false, remoteAF := [] }] } } := by
  refine (reads_node s cfg { n with changed := false, remoteAF := [] } h ok ?_ hr).2
  intro i hi
  obtain ⟨p, h1, h2, h3⟩ := hp i hi
  have e : (cfg.packers.map (·.name))[i]? = some p.name := by rw [← hs, List.getElem?_map, h1]; rfl
  rw [List.getElem?_map] at e
  cases hq : cfg.packers[i]? with
  | none => rw [hq] at e; cases e
  | some q =>
    rw [hq] at e
    have e : q.name = p.name := Option.some.inj e
    have hm := hl p (List.mem_of_getElem? h1)
    refine ⟨q, p, rfl, h1, e, by rw [e]; exact h2, by rw [e]; exact hm.2, by rw [e]; exact hm.1, ?_⟩
    rw [e]; exact h3

/-- An area that refers to existing addresses and nodes can always be written. -/
theorem area_written (cfg : Config) (a : Area) (ok : AreaOk cfg.akas.length cfg.nodes.length a) : ∃ txt, areaText cfg a = .ok txt := by
  obtain ⟨i, hi, hlt⟩ := ok.aka
  have hadr : ∀ i, i < cfg.nodes.length → nodeAddr cfg i = .ok (addrAt cfg.nodes i) := by
    intro i hi
    simp [nodeAddr, addrAt, hi]
  have h1 : ∃ t, areaHead cfg a = .ok t := by
    obtain ⟨t, ht⟩ := writeSafely_ok_partial a.tag (by have := ok.tag; omega)
    obtain ⟨p, hp⟩ := writeSafely_ok_partial a.path (by have := ok.path; omega)
    unfold areaHead
    rw [hi]
    dsimp only [Option.bind_some]
    rw [List.getElem?_eq_getElem hlt]
    dsimp only
    cases hb : a.base with
    | none => exact ⟨_, ebind_ok.2 ⟨_, rfl, ebind_ok.2 ⟨_, ht, rfl⟩⟩⟩
    | some b => exact ⟨_, ebind_ok.2 ⟨_, rfl, ebind_ok.2 ⟨_, ht, ebind_ok.2 ⟨_, hp, rfl⟩⟩⟩⟩
  have h2 : ∃ t, areaLinks cfg a = .ok t := by
    unfold areaLinks
    split
    · exact ⟨_, rfl⟩
    · split
      · have : a.tossNodes.mapM (exportWord cfg) = .ok (a.tossNodes.map (linkWord cfg.nodes)) := by
          apply mapM_eq
          intro t htm
          unfold exportWord
          rw [hadr _ (ok.links t htm).1]
          rfl
        exact ⟨_, ebind_ok.2 ⟨_, this, rfl⟩⟩
      · exact ⟨_, rfl⟩
  have h3 : a.banned.mapM (nodeAddr cfg) = .ok (a.banned.map (addrAt cfg.nodes)) := mapM_eq fun b hb => hadr b (ok.banned b hb)
  have h4 : ∃ t, areaRest a = .ok t := by
    obtain ⟨t, ht⟩ := writeSafely_ok_partial a.description (by have := ok.description; omega)
    unfold areaRest
    dsimp only
    split
    · exact ⟨_, rfl⟩
    · exact ⟨_, ebind_ok.2 ⟨_, ht, rfl⟩⟩
  obtain ⟨t1, h1⟩ := h1
  obtain ⟨t2, h2⟩ := h2
  obtain ⟨t4, h4⟩ := h4
  exact ⟨_, ebind_ok.2 ⟨_, h1, ebind_ok.2 ⟨_, h2, ebind_ok.2 ⟨_, h3, ebind_ok.2 ⟨_, h4, rfl⟩⟩⟩⟩⟩

/-- So can a node. -/
theorem node_written (cfg : Config) (n : ConfigNode) (ok : NodeOk cfg.packers.length { n with changed := false, remoteAF := [] })
    (hl : ∀ p ∈ cfg.packers, p.name.length < 10) : ∃ txt, nodeText cfg n = .ok txt := by
  have w : ∀ x : Str, x.length < 100 → ∃ o, writeSafely x = .ok o := fun x hx => writeSafely_ok_partial x (by omega)
  obtain ⟨x1, h1⟩ := w ((n.packer.bind (cfg.packers[·]?)).elim [] (·.name)) (by
    cases hp : n.packer with
    | none => simp
    | some i =>
      have hi := ok.packer i hp
      have := hl cfg.packers[i] (by simp)
      simp only [Option.bind_some, List.getElem?_eq_getElem hi, Option.elim_some]
      omega)
  obtain ⟨x2, h2⟩ := w n.packetPW (by have := ok.packetPW; dsimp only at this; omega)
  obtain ⟨x3, h3⟩ := w n.areafixPW (by have := ok.areafixPW; dsimp only at this; omega)
  obtain ⟨x4, h4⟩ := w n.groups (by have := ok.groups.1; dsimp only at this; omega)
  obtain ⟨x5, h5⟩ := w n.readOnlyGroups (by have := ok.readOnly.1; dsimp only at this; omega)
  obtain ⟨x6, h6⟩ := w n.addGroups (by have := ok.add.1; dsimp only at this; omega)
  obtain ⟨x7, h7⟩ := w n.remoteAFName (by have := ok.remoteName; dsimp only at this; omega)
  obtain ⟨x8, h8⟩ := w n.remoteAFPw (by have := ok.remotePw; dsimp only at this; omega)
  obtain ⟨x9, h9⟩ := w n.sysopName (by have := ok.sysop; dsimp only at this; omega)
  have B : ∀ {α β : Type} {x : Except UB α} {f : α → Except UB β} {a : α}, x = .ok a → (∃ b, f a = .ok b) → ∃ b, (x >>= f) = .ok b := by
    rintro α β x f a rfl h; exact h
  have I : ∀ {α : Type} {c : Prop} [Decidable c] {x y : Except UB α}, (∃ b, x = .ok b) → (∃ b, y = .ok b) → ∃ b, (if c then x else y) = .ok b := by
    intro α c _ x y hx hy; split <;> assumption
  unfold nodeText
  refine B h1 (B h2 ?_)
  dsimp only
  have S : ∀ g : Str → Except UB Str, (∀ x, ∃ b, g x = .ok b) →
      ∃ b, (if n.sysopName ≠ [] then writeSafely n.sysopName >>= fun o => pure (b!"REMOTESYSOP " ++ o ++ [10]) >>= g else pure [] >>= g) = .ok b :=
    fun g hg => I (B h9 (hg _)) (hg _)
  have R : ∀ g : Str → Except UB Str, (∀ x, ∃ b, g x = .ok b) →
      ∃ b, (if n.remoteAFName ≠ [] then writeSafely n.remoteAFName >>= fun x => writeSafely n.remoteAFPw >>= fun o =>
        pure (b!"REMOTEAF " ++ x ++ [32] ++ o ++ (if n.has NODE_AFNEEDSPLUS then b!" NEEDSPLUS" else []) ++ [10]) >>= g else pure [] >>= g) = .ok b :=
    fun g hg => I (B h7 (B h8 (hg _))) (hg _)
  refine I (B h3 (B h4 (B h5 (B h6 ?_)))) ?_
  · exact R _ fun x => S _ fun y => ⟨_, rfl⟩
  · exact R _ fun x => S _ fun y => ⟨_, rfl⟩

/-- **C72.** For every file that is accepted: each of its areas, except netmail areas, can be written, and
what is written is read as the same area. -/
theorem accepted_area_back (nl : Nodelist) (chk : Node4D → Bool) (file : List UInt8) (s : RdSt) (h : readConfig nl chk file = .ok s)
    (hk : Distinct4D (s.cfg.akas.map (·.node))) (hn : Distinct4D (s.cfg.nodes.map (·.node))) (a : Area) (ha : a ∈ s.cfg.areas)
    (ht : a.type ≠ .netmail) :
    ∃ txt, areaText s.cfg a = .ok txt ∧ rdLines s (linesOf txt) = .ok { s with cfg := { s.cfg with areas := s.cfg.areas ++ [a] } } := by
  have ok := (read_config_ok nl chk file s h).1.areas a ha
  obtain ⟨txt, hx⟩ := area_written s.cfg a ok
  exact ⟨txt, hx, (reads_area s s.cfg a hx ok ht hk (List.prefix_refl _) hn (List.prefix_refl _)).2⟩

/-- The same for the nodes, with the exception named above. -/
theorem accepted_node_back (nl : Nodelist) (chk : Node4D → Bool) (file : List UInt8) (s : RdSt) (h : readConfig nl chk file = .ok s)
    (n : ConfigNode) (ha : n ∈ s.cfg.nodes) (hr : RemoteOk n) :
    ∃ txt, nodeText s.cfg n = .ok txt ∧ rdLines s (linesOf txt) = .ok { s with cfg := { s.cfg with nodes := s.cfg.nodes ++ [n] } } := by
  have okc := (read_config_ok nl chk file s h).1
  have ok := okc.nodes n ha
  have e : { n with changed := false, remoteAF := [] } = n := by
    have := ok.unmarked
    cases n
    simp_all
  obtain ⟨txt, hx⟩ := node_written s.cfg n (by rw [e]; exact ok) fun p hp => (okc.packers p hp).1.1
  have := node_reads_back_partial s s.cfg n txt hx (by rw [e]; exact ok) (okc.packing n ha) rfl (fun p hp => (okc.packers p hp).1) hr
  rw [e] at this
  exact ⟨txt, hx, this⟩

namespace Ex

/-- What is read when the text of the area at this position is read after the file. -/
def areaAgain (i : Nat) (file : Str) : Except RdErr (Option Area) :=
  match readConfig rdNl (fun _ => true) file with
  | .error e => .error e
  | .ok s =>
    match s.cfg.areas[i]? with
    | none => .ok none
    | some a =>
      match areaText s.cfg a with
      | .error u => .error (.ub u)
      | .ok t => (rdLines s (linesOf t)).map fun s => s.cfg.areas.getLast?

/-- The same for nodes. -/
def nodeAgain (i : Nat) (file : Str) : Except RdErr (Option ConfigNode) :=
  match readConfig rdNl (fun _ => true) file with
  | .error e => .error e
  | .ok s =>
    match s.cfg.nodes[i]? with
    | none => .ok none
    | some a =>
      match nodeText s.cfg a with
      | .error u => .error (.ub u)
      | .ok t => (rdLines s (linesOf t)).map fun s => s.cfg.nodes.getLast?

def backFile : Str :=
  b!"AKA 1:2/3\nAKA 1:2/3.1\nPACKER ZIP \"zip %a %f\" \"unzip %a\" \"PK\"\nNODE 1:2/4 zip pw AUTOADD CRASH\nPKTFROM 2:3/4\nAREAFIXINFO \"a \\\"b\" abc \"\" C\nREMOTEAF AreaFix secret NEEDSPLUS\nDEFAULTGROUP d\nNODE 1:2/5 \"\" \"\"\nREMOTEAF \"\" secret\nNETMAIL MAIL 1:2/3 MSG mail\nAREA ONE 1:2/3.1 JAM \"one \\\\ two\"\nEXPORT !1:2/4 %5\nBANNED 1:2/4\nGROUP A\nKEEPNUM 4294967295\nMANDATORY\nIGNOREDUPES\nDESCRIPTION \"first \\\"area\\\"\"\n"

/-- The hypotheses of the theorems are met, and the area and the node are not trivial. -/
theorem area_back : areaAgain 1 backFile = .ok (some
    { tag := b!"ONE", description := b!"first \"area\"", path := b!"one \\ two", type := .echomail, aka := some 1, base := some 1,
      flags := AREA_MANDATORY ||| AREA_IGNOREDUPES, group := 65, tossNodes := [⟨0, TOSSNODE_READONLY⟩, ⟨1, TOSSNODE_FEED⟩],
      banned := [0], keepNum := 4294967295 }) := by decide +kernel

theorem node_back : nodeAgain 0 backFile = .ok (some
    { node := ⟨1, 2, 4, 0⟩, packetPW := b!"pw", areafixPW := b!"a \"b", groups := b!"ABC", addGroups := b!"C", defaultGroup := 68,
      flags := NODE_AUTOADD ||| NODE_PKTFROM ||| NODE_AFNEEDSPLUS, echomailPri := 4, pktFrom := ⟨2, 3, 4, 0⟩,
      remoteAFName := b!"AreaFix", remoteAFPw := b!"secret", packer := some 0 }) := by decide +kernel

example : rdView (fun c => [decide (Distinct4D (c.akas.map (·.node))), decide (Distinct4D (c.nodes.map (·.node)))]) backFile =
    some [true, true] := by decide +kernel

/-- What is written for a netmail area is refused. -/
theorem netmail_unreadable : areaAgain 0 backFile = .error .invalid := by decide +kernel

/-- The password of a remote AreaFix without a name is lost. -/
theorem remote_lost : rdView (fun c => c.nodes.map (·.remoteAFPw)) backFile = some [b!"secret", b!"secret"] ∧
    (nodeAgain 1 backFile).map (Option.map (·.remoteAFPw)) = .ok (some []) := by decide +kernel

end Ex

end CM
