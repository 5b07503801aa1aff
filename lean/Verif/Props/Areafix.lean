import Verif.Lemmas.AreafixCfg
import Verif.Lemmas.Example
import Verif.Props.Bounce
/-!
# Properties of AreaFix

C22 with the real AreaFix, C24, C25, C26, C27 and C66. AreaFix sends its messages through the message
handler of the same system, `handleMessage env (areaFix env) n`.
-/
set_option linter.unusedSimpArgs false

namespace CM

/-- The computation ended in this state, normally or with `FALSE`. -/
def EndsIn {α : Type} (x : M α) (s t : HSt) : Prop := (∃ a, x s = .ok a t) ∨ x s = .fail t

/-- The same address; an unknown zone is any zone. -/
def SameAddr (a b : Node4D) : Prop :=
  a.net = b.net ∧ a.node = b.node ∧ a.point = b.point ∧ (a.zone = b.zone ∨ a.zone = 0 ∨ b.zone = 0)

/-- The message comes from the configured node `ci` and has its password: `ci` is the first node with
the address the message comes from, and the first word of the subject is its password, except for
case. -/
def Authorised (c : Config) (m : MemMsg) (ci : Nat) : Prop :=
  ∃ cn, c.nodes[ci]? = some cn ∧ SameAddr cn.node m.orig ∧
    (∀ j n, j < ci → c.nodes[j]? = some n → ¬ SameAddr n.node m.orig) ∧
    eqi (jbstrcpy 100 m.subject).1 cn.areafixPW = true

/-- AreaFix of this system. -/
def runAreafix (env : Env) (n : Nat) (m : MemMsg) : M Unit := areaFix env (handleMessage env (areaFix env) n) m

theorem compare4D_beq (a b : Node4D) : (compare4D a b == 0) = true ↔ SameAddr a b := by
  rw [beq_iff_eq]; exact compare4D_eq_zero_iff a b

/-- Everything AreaFix does to the configuration: nothing, or what the authorised node may do. -/
theorem areafix_allowed (env : Env) (n : Nat) (m : MemMsg) (s t : HSt) (h : EndsIn (runAreafix env n m) s t) :
    t.cfg = s.cfg ∨ ∃ ci, Authorised s.cfg m ci ∧ Allowed env ci s.cfg t.cfg := by
  have hs := handleMessage_tame env (areaFix env) n
  have key : Ends (fun t => t.cfg = s.cfg ∨ ∃ ci, Authorised s.cfg m ci ∧ Allowed env ci s.cfg t.cfg)
      (runAreafix env n m) s := by
    unfold runAreafix areaFix
    refine Ends.get ?_
    split
    · exact Ends.pure (.inl rfl)
    · next rt hrt =>
      refine Ends.bind (fun t h => .inl (by rw [((afInit_quiet _ _ _ _ _) s).2 _ h])) fun r u h => ?_
      have e := (afInit_quiet _ _ _ _ _).noFail h
      have g := afInit_gen h
      subst e
      split
      · exact (afRefuse_cfg hs env g _).ends fun t h => .inl h
      · next ci hci =>
        rw [List.findIdx?_eq_some_iff_getElem] at hci
        obtain ⟨hl, h1, h2⟩ := hci
        rw [List.getElem?_eq_getElem hl]
        dsimp only
        split
        · exact (afRefuse_cfg hs env g _).ends fun t h => .inl h
        · next hp =>
          refine (afRun_afx hs env m rt.aka ci _ g).ends fun t h => .inr ⟨ci, ⟨_, List.getElem?_eq_getElem hl, ?_, ?_, ?_⟩, h⟩
          · exact (compare4D_beq _ _).1 h1
          · intro j x hj hx
            have := h2 j hj
            obtain ⟨hj', e⟩ := List.getElem?_eq_some_iff.1 hx
            rw [e] at this
            exact fun hsame => this ((compare4D_beq _ _).2 hsame)
          · simpa using hp
  rcases h with ⟨a, h⟩ | h
  · exact key.1 _ _ h
  · exact key.2 _ h

/-! ## C24 -/

/-- C24. A request from a node that is not configured leaves the configuration as it is. -/
theorem areafix_unknown_node (env : Env) (n : Nat) (m : MemMsg) (s t : HSt) (h : EndsIn (runAreafix env n m) s t)
    (hn : ∀ x ∈ s.cfg.nodes, ¬ SameAddr x.node m.orig) : t.cfg = s.cfg := by
  rcases areafix_allowed env n m s t h with h | ⟨ci, ⟨cn, h1, h2, _⟩, _⟩
  · exact h
  · exact absurd h2 (hn cn (List.mem_of_getElem? h1))

/-- C24. A request with a password other than that of each node with this address leaves the
configuration as it is. -/
theorem areafix_wrong_password (env : Env) (n : Nat) (m : MemMsg) (s t : HSt) (h : EndsIn (runAreafix env n m) s t)
    (hn : ∀ x ∈ s.cfg.nodes, SameAddr x.node m.orig → eqi (jbstrcpy 100 m.subject).1 x.areafixPW = false) : t.cfg = s.cfg := by
  rcases areafix_allowed env n m s t h with h | ⟨ci, ⟨cn, h1, h2, _, h4⟩, _⟩
  · exact h
  · rw [hn cn (List.mem_of_getElem? h1) h2] at h4; cases h4

/-! ## C25, C26, C27, C66 -/

theorem fates_mem {c : Config} {ci : Nat} {as : List Area} {fs : List (Option Area)} (h : Fates c ci as fs) :
    (∀ a' ∈ fs.filterMap id, ∃ a ∈ as, Evo c ci a a') ∧
    ∀ a ∈ as, Removable c ci a ∨ ∃ a' ∈ fs.filterMap id, Evo c ci a a' := by
  induction h with
  | nil => simp
  | @cons a f as fs h _ ih =>
    cases f with
    | none =>
      refine ⟨fun a' h' => ?_, fun b hb => ?_⟩
      · obtain ⟨x, h1, h2⟩ := ih.1 a' h'
        exact ⟨x, List.mem_cons_of_mem _ h1, h2⟩
      · rcases List.mem_cons.1 hb with rfl | hb
        · exact .inl h
        · exact ih.2 b hb
    | some d =>
      simp only [List.filterMap_cons, id]
      refine ⟨fun a' h' => ?_, fun b hb => ?_⟩
      · rcases List.mem_cons.1 h' with rfl | h'
        · exact ⟨a, List.mem_cons_self, h⟩
        · obtain ⟨x, h1, h2⟩ := ih.1 a' h'
          exact ⟨x, List.mem_cons_of_mem _ h1, h2⟩
      · rcases List.mem_cons.1 hb with rfl | hb
        · exact .inr ⟨d, List.mem_cons_self, h⟩
        · rcases ih.2 b hb with h | ⟨a', h1, h2⟩
          · exact .inl h
          · exact .inr ⟨a', List.mem_cons_of_mem _ h1, h2⟩

/-- Where the areas come from. -/
theorem Allowed.origin {env : Env} {ci : Nat} {c c' : Config} (h : Allowed env ci c c') {a' : Area} (ha : a' ∈ c'.live) :
    (∃ a ∈ c.live, Evo c ci a a') ∨ ∃ a0, Forwarded env c ci a0 ∧ Evo c ci a0 a' := by
  obtain ⟨fs, new, h1, h2, h3⟩ := h.areas
  rw [h2] at ha
  rcases List.mem_append.1 ha with ha | ha
  · exact .inl ((fates_mem h1).1 _ ha)
  · exact .inr (h3 _ ha)

/-- Where they go. -/
theorem Allowed.future {env : Env} {ci : Nat} {c c' : Config} (h : Allowed env ci c c') {a : Area} (ha : a ∈ c.live) :
    Removable c ci a ∨ ∃ a' ∈ c'.live, Evo c ci a a' := by
  obtain ⟨fs, new, h1, h2, h3⟩ := h.areas
  rcases (fates_mem h1).2 a ha with h | ⟨a', h4, h5⟩
  · exact .inl h
  · exact .inr ⟨a', by rw [h2]; exact List.mem_append_left _ h4, h5⟩

/-- C25. Every area after a request is one of before, where each new link belongs to the requesting
node, which has access to the group and is not banned, and which is read-only exactly if it should
be; or it is an area created by a forward request, for a group the node has full access to.

Missing: that the node's link in a forwarded area is read-only when the area is read-only by default
(`forward_ignores_readonly`) or when the node also has read-only access to the group. -/
theorem areafix_links_permitted_partial (env : Env) (n : Nat) (m : MemMsg) (s t : HSt)
    (h : EndsIn (runAreafix env n m) s t) (a' : Area) (ha : a' ∈ t.cfg.live) :
    (∃ a ∈ s.cfg.live, a'.tag = a.tag ∧ ∀ l ∈ a'.tossNodes, l ∈ a.tossNodes ∨
      ∃ cn, Authorised s.cfg m l.node ∧ s.cfg.nodes[l.node]? = some cn ∧
        (a.group ∈ cn.groups ∨ a.group ∈ cn.readOnlyGroups) ∧ l.node ∉ a.banned ∧
        (l.flags = TOSSNODE_READONLY ↔ (a.has AREA_DEFREADONLY = true ∨ a.group ∈ cn.readOnlyGroups)) ∧
        (l.flags = 0 ↔ ¬ (a.has AREA_DEFREADONLY = true ∨ a.group ∈ cn.readOnlyGroups))) ∨
    (∃ ci cn, Authorised s.cfg m ci ∧ s.cfg.nodes[ci]? = some cn ∧ cn.has NODE_FORWARDREQ = true ∧
      a'.group ∈ cn.groups ∧ a'.banned = []) := by
  rcases areafix_allowed env n m s t h with h | ⟨ci, hauth, h⟩
  · rw [show t.cfg.live = s.cfg.live by rw [h]] at ha
    exact .inl ⟨a', ha, rfl, fun l hl => .inl hl⟩
  · rcases h.origin ha with ⟨a, h1, h2⟩ | ⟨a0, ⟨cn, al, log, h1, h2, h3, h4, h5, h6, _, _, h7, _⟩, h8⟩
    · refine .inl ⟨a, h1, h2.fields.1, fun l hl => ?_⟩
      by_cases hn : l.node = ci
      · rcases h2.own l hl hn with h3 | ⟨cn, h3, h4, h5, h6, h7⟩
        · exact .inl h3
        · refine .inr ⟨cn, hn ▸ hauth, hn ▸ h3, h4, hn ▸ h5, ⟨fun h => ?_, h6⟩, ⟨fun h h' => ?_, h7⟩⟩
          · apply Classical.byContradiction
            intro hc
            rw [h7 hc] at h; exact absurd h (by decide)
          · rw [h6 h'] at h; exact absurd h (by decide)
      · left
        have : l ∈ a'.others ci := by
          unfold Area.others; rw [List.mem_filter]; exact ⟨hl, by simpa using hn⟩
        rw [h2.others] at this
        exact (List.mem_filter.1 this).1
    · exact .inr ⟨ci, cn, hauth, h1, h2, by rw [h8.fields.2.2.2.2.1, h6]; exact h5, by rw [h8.fields.2.2.2.2.2]; exact h7⟩

/-- C26. No node is linked twice to an area. -/
theorem areafix_one_link (env : Env) (n : Nat) (m : MemMsg) (s t : HSt) (h : EndsIn (runAreafix env n m) s t)
    (hone : ∀ a ∈ s.cfg.live, (a.tossNodes.map (·.node)).Nodup) :
    ∀ a ∈ t.cfg.live, (a.tossNodes.map (·.node)).Nodup := by
  intro a' ha
  rcases areafix_allowed env n m s t h with h | ⟨ci, _, h⟩
  · rw [show t.cfg.live = s.cfg.live by rw [h]] at ha
    exact hone a' ha
  · rcases h.origin ha with ⟨a, h1, h2⟩ | ⟨a0, ⟨_, _, _, _, _, _, _, _, _, _, _, _, h7, _⟩, h8⟩
    · exact h2.one (hone a h1)
    · exact h8.one h7

/-- C26. The links of every node other than the requesting one are as before, in the same order, in
every area that was there before and is still there; an area that is gone is one the node may
remove. -/
theorem areafix_other_links (env : Env) (n : Nat) (m : MemMsg) (s t : HSt) (h : EndsIn (runAreafix env n m) s t) :
    ∃ ci, (t.cfg ≠ s.cfg → Authorised s.cfg m ci) ∧
    (∀ a ∈ s.cfg.live, Removable s.cfg ci a ∨ ∃ a' ∈ t.cfg.live, a'.tag = a.tag ∧
      a'.tossNodes.filter (fun l => l.node ≠ ci) = a.tossNodes.filter (fun l => l.node ≠ ci)) ∧
    ∀ a' ∈ t.cfg.live, (∃ a ∈ s.cfg.live, a'.tag = a.tag ∧
      a'.tossNodes.filter (fun l => l.node ≠ ci) = a.tossNodes.filter (fun l => l.node ≠ ci)) ∨
      ∃ cn al, s.cfg.nodes[ci]? = some cn ∧ cn.has NODE_FORWARDREQ = true ∧ al ∈ s.cfg.arealists ∧ al.group ∈ cn.groups := by
  rcases areafix_allowed env n m s t h with h | ⟨ci, hauth, h⟩
  · have e : t.cfg.live = s.cfg.live := by rw [h]
    refine ⟨0, fun hn => absurd h hn, fun a ha => .inr ⟨a, e ▸ ha, rfl, rfl⟩, fun a ha => .inl ⟨a, e ▸ ha, rfl, rfl⟩⟩
  · refine ⟨ci, fun _ => hauth, fun a ha => ?_, fun a' ha => ?_⟩
    · rcases h.future ha with h | ⟨a', h1, h2⟩
      · exact .inl h
      · exact .inr ⟨a', h1, h2.fields.1, h2.others⟩
    · rcases h.origin ha with ⟨a, h1, h2⟩ | ⟨a0, ⟨cn, al, log, h1, h2, h3, h4, h5, _⟩, _⟩
      · exact .inl ⟨a, h1, h2.fields.1, h2.others⟩
      · exact .inr ⟨cn, al, h1, h2, h3, h5⟩

/-- C27. A link to a mandatory area that is not a feed is still there after any request, unless the
area has been removed because the requesting node is its feed. -/
theorem areafix_mandatory (env : Env) (n : Nat) (m : MemMsg) (s t : HSt) (h : EndsIn (runAreafix env n m) s t)
    (a : Area) (ha : a ∈ s.cfg.live) (hm : a.has AREA_MANDATORY = true) (l : TossNode) (hl : l ∈ a.tossNodes)
    (hf : l.has TOSSNODE_FEED = false) :
    (∃ a' ∈ t.cfg.live, a'.tag = a.tag ∧ l ∈ a'.tossNodes) ∨
    ∃ ci, Authorised s.cfg m ci ∧ ∃ l' ∈ a.tossNodes, l'.node = ci ∧ l'.has TOSSNODE_FEED = true := by
  rcases areafix_allowed env n m s t h with h | ⟨ci, hauth, h⟩
  · have e : t.cfg.live = s.cfg.live := by rw [h]
    exact .inl ⟨a, e ▸ ha, rfl, hl⟩
  · rcases h.future ha with h | ⟨a', h1, h2⟩
    · exact .inr ⟨ci, hauth, h.2.1 hm⟩
    · refine .inl ⟨a', h1, h2.fields.1, ?_⟩
      by_cases hn : l.node = ci
      · exact h2.mandatory hm l hl hn hf
      · have : l ∈ a.others ci := by
          unfold Area.others; rw [List.mem_filter]; exact ⟨hl, by simpa using hn⟩
        rw [← h2.others] at this
        exact (List.mem_filter.1 this).1

/-- C66. A request changes nothing of other nodes but the commands waiting for them, and of the
requesting node only its password, its packer, and whether it is passive; all the rest of the
configuration but the areas is as before. -/
theorem areafix_nodes (env : Env) (n : Nat) (m : MemMsg) (s t : HSt) (h : EndsIn (runAreafix env n m) s t) :
    t.cfg = { s.cfg with
      areas := t.cfg.areas
      nodes := t.cfg.nodes
      changed := t.cfg.changed } ∧
    t.cfg.nodes.length = s.cfg.nodes.length ∧
    ∀ i x x', s.cfg.nodes[i]? = some x → t.cfg.nodes[i]? = some x' →
      (¬ Authorised s.cfg m i → x' = { x with remoteAF := x'.remoteAF }) ∧
      x' = { x with
        remoteAF := x'.remoteAF
        areafixPW := x'.areafixPW
        packer := x'.packer
        changed := x'.changed
        flags := x'.flags } ∧
      x'.flags &&& ~~~NODE_PASSIVE = x.flags &&& ~~~NODE_PASSIVE := by
  rcases areafix_allowed env n m s t h with h | ⟨ci, hauth, h⟩
  · rw [h]
    refine ⟨rfl, rfl, fun i x x' h1 h2 => ?_⟩
    rw [h1] at h2; cases h2
    exact ⟨fun _ => rfl, rfl, rfl⟩
  · refine ⟨h.rest, h.len, fun i x x' h1 h2 => ?_⟩
    obtain ⟨k1, k2, k3⟩ := h.nodes i x x' h1 h2
    exact ⟨fun hn => k1 fun e => hn (e ▸ hauth), k2, k3.1⟩

/-! ## C22 with the real AreaFix -/

/-- AreaFix hands only automatically generated messages to the message handler. -/
theorem areafix_handsBack (env : Env) (m : MemMsg) : HandsBack (fun self => areaFix env self m) Gen :=
  fun self self' h => (areaFix_uses env m).congr self self' h

/-- C22. With AreaFix too, a message causes at most two generations of messages: more nesting than
three levels changes nothing. -/
theorem areafix_generation_depth (env : Env) (n : Nat) (m : MemMsg) :
    handleMessage env (areaFix env) (n + 3) m = handleMessage env (areaFix env) 3 m :=
  generation_depth env (fun m => areafix_handsBack env m) n m

/-! ## Concrete cases -/

namespace Ex

/-- A system with AreaFix: 1:2/4 has the password "secret" and access to the groups A and B (read-only), and may
make forward requests to 1:2/7, whose list has one area. -/
def afCfg (fl : UInt32) (areas : List Area) : Config where
  akas := [{ node := ⟨1, 2, 3, 0⟩ }]
  nodes := [{ node 4 NODE_FORWARDREQ with
      areafixPW := b!"secret"
      groups := b!"A"
      readOnlyGroups := b!"B" }, node 5 0, node 6 0, node 7 0]
  areas := areas
  routes := [⟨⟨.pattern, b!"*", b!"*", b!"*", b!"*"⟩, ⟨.pattern, b!"*", b!"*", b!"*", b!"0"⟩, ⟨1, 2, 3, 0⟩⟩]
  areafixNames := [b!"AreaFix"]
  arealists := [⟨3, b!"list", 2, 65⟩]
  sysop := b!"Sysop"
  flags := fl
  nl := ⟨false, fun _ => 0, fun _ => 0⟩
  nlCheck := fun _ => true

def grp (g : UInt8) (a : Area) : Area := { a with group := g }

def afAreasEx : List Area :=
  [grp 65 (area b!"ALPHA" 0 [⟨1, 0⟩]), grp 66 (area b!"BETA" 0 []), grp 67 (area b!"GAMMA" 0 []),
   grp 65 (area b!"MAND" AREA_MANDATORY [⟨0, 0⟩]), grp 65 { area b!"BAN" 0 [] with banned := [0] },
   grp 65 { area b!"GONE" 0 [⟨0, 0⟩] with base := none }, { area b!"DEFAULT" AREA_DEFREADONLY [] with type := .default }]

def afEnv : Env := { env with areaFile := fun _ f => if f = b!"list" then some [b!"REMOTE an area\n"] else none }

def request (subject : Str) (lines : List Str) : MemMsg :=
  { orig := ⟨1, 2, 4, 0⟩, dest := ⟨1, 2, 3, 0⟩, pktOrig := ⟨1, 2, 4, 0⟩, pktDest := ⟨1, 2, 3, 0⟩
    frm := b!"A", to := b!"AreaFix", date := b!"01 Jan 00  00:00:00", subject := subject, flags := MMFLAG_TOSSED
    text := [lines.flatMap (· ++ [13])] }

/-- The tags and links of the areas at the end. -/
def linksAt (x : Out Unit) : List (Str × List TossNode) :=
  match x with
  | .ok _ t => t.cfg.areas.map fun a => (a.tag, a.tossNodes)
  | _ => []

/-- A request with several commands. -/
def bigRequest : MemMsg := request b!"SECRET" [b!"+*", b!"-mand", b!"-gone", b!"remote"]

theorem bigRequest_links : linksAt (runAreafix afEnv 3 bigRequest (st (afCfg CFG_AREAFIXREMOVE afAreasEx))) =
    [(b!"ALPHA", [⟨1, 0⟩, ⟨0, 0⟩]), (b!"BETA", [⟨0, TOSSNODE_READONLY⟩]), (b!"GAMMA", []), (b!"MAND", [⟨0, 0⟩]),
     (b!"BAN", []), (b!"DEFAULT", []), (b!"remote", [⟨3, TOSSNODE_FEED⟩, ⟨0, 0⟩])] := by decide +kernel

/-- The hypotheses of the theorems above are met: the request is carried out, with links added and
refused, an area removed and one created. -/
example : ∃ t, EndsIn (runAreafix afEnv 3 bigRequest) (st (afCfg CFG_AREAFIXREMOVE afAreasEx)) t ∧
    t.cfg.areas.length = 7 ∧ ∀ a ∈ (afCfg CFG_AREAFIXREMOVE afAreasEx).live, (a.tossNodes.map (·.node)).Nodup := by
  have h := bigRequest_links
  cases hx : runAreafix afEnv 3 bigRequest (st (afCfg CFG_AREAFIXREMOVE afAreasEx)) with
  | ok a t =>
    refine ⟨t, .inl ⟨a, hx⟩, ?_, by decide +kernel⟩
    rw [hx] at h
    have := congrArg List.length h
    simpa [linksAt] using this
  | _ => rw [hx] at h; cases h

/-- A wrong password: the hypothesis of `areafix_wrong_password`, and what is answered. -/
example : (∀ x ∈ (afCfg 0 afAreasEx).nodes, SameAddr x.node (request b!"guess" [b!"+*"]).orig →
      eqi (jbstrcpy 100 (request b!"guess" [b!"+*"]).subject).1 x.areafixPW = false) ∧
    linksAt (runAreafix afEnv 3 (request b!"guess" [b!"+*"]) (st (afCfg 0 afAreasEx))) =
      afAreasEx.map fun a => (a.tag, a.tossNodes) := by
  unfold SameAddr
  exact ⟨by decide +kernel, by decide +kernel⟩

/-- An unknown node. -/
example : (∀ x ∈ (afCfg 0 afAreasEx).nodes, ¬ SameAddr x.node ⟨1, 2, 99, 0⟩) ∧
    linksAt (runAreafix afEnv 3 { request b!"secret" [b!"+*"] with orig := ⟨1, 2, 99, 0⟩ } (st (afCfg 0 afAreasEx))) =
      afAreasEx.map fun a => (a.tag, a.tossNodes) := by
  unfold SameAddr
  exact ⟨by decide +kernel, by decide +kernel⟩

/-- The flags and links of the last area. -/
def lastArea (x : Out Unit) : Option (UInt8 × List TossNode) :=
  match x with
  | .ok _ t => t.cfg.areas.getLast?.map fun a => (a.flags, a.tossNodes)
  | _ => none

/-- C25 is violated: areas created by forward requests are read-only by default here, yet the
requesting node gets a link without that restriction. -/
theorem forward_ignores_readonly :
    lastArea (runAreafix afEnv 3 (request b!"secret" [b!"remote"]) (st (afCfg 0 afAreasEx))) =
      some (AREA_DEFREADONLY, [⟨3, TOSSNODE_FEED⟩, ⟨0, 0⟩]) := by decide +kernel

/-- A node without an AreaFix password is served without one: an empty subject is enough. -/
theorem empty_password_accepted :
    linksAt (runAreafix afEnv 3 { request [] [b!"%PAUSE", b!"+beta"] with orig := ⟨1, 2, 5, 0⟩ }
      (st { afCfg 0 [grp 65 (area b!"BETA" 0 [])] with
        nodes := [{ node 5 0 with groups := b!"A" }] })) = [(b!"BETA", [⟨0, 0⟩])] := by decide +kernel

/-- A line of 100 bytes in a request is written past the end of a buffer, whatever it says. -/
theorem long_line_overflows :
    (match runAreafix afEnv 3 (request b!"secret" [List.replicate 100 120]) (st (afCfg 0 afAreasEx)) with
      | .ub .oobWrite => true
      | _ => false) = true := by decide +kernel

/-- A blank line in the list of another node lets a request for nothing create an area without a
name. -/
theorem nameless_area :
    linksAt (runAreafix { afEnv with areaFile := fun _ _ => some [b!"A one\n", b!"\n"] } 3 (request b!"secret" [b!"+"])
      (st (afCfg 0 []))) = [([], [⟨3, TOSSNODE_FEED⟩, ⟨0, 0⟩])] := by decide +kernel

/-- A forward request creates a second area with the tag of an area of another type. -/
theorem forward_duplicates_tag :
    linksAt (runAreafix afEnv 3 (request b!"secret" [b!"remote"])
      (st (afCfg 0 [{ area b!"REMOTE" 0 [] with type := .local }]))) =
      [(b!"REMOTE", []), (b!"remote", [⟨3, TOSSNODE_FEED⟩, ⟨0, 0⟩])] := by decide +kernel

end Ex

end CM
