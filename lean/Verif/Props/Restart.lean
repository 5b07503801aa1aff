import Verif.Lemmas.RestartRun
/-! # C73: the rewritten configuration file says what the program knew -/
set_option linter.unusedSimpArgs false

namespace CM

/-- A configuration file as an editor writes it: a text, its last line ended, and no CR CR LF. -/
structure PlainFile (file : Str) : Prop where
  text : ConfigText file
  ended : file = [] ∨ ∃ y, file = y ++ [10]
  once : ∀ l ∈ linesOf file, ¬ [13, 13, 10] <:+ l

theorem linesOf_whole {x : Str} (h : WholeLines x) : ∀ l ∈ linesOf x, ∃ y, l = y ++ [10] ∧ 10 ∉ y := by
  suffices H : ∀ n, ∀ x : Str, x.length ≤ n → WholeLines x → ∀ l ∈ linesOf x, ∃ y, l = y ++ [10] ∧ 10 ∉ y from H _ x (Nat.le_refl _) h
  intro n
  induction n with
  | zero =>
    intro x hx _ l hl
    have : x = [] := List.eq_nil_of_length_eq_zero (by omega)
    subst this
    cases hl
  | succ n ih =>
    intro x hx h l hl
    by_cases hn : x = []
    · subst hn; cases hl
    obtain ⟨m, ms, rest, e1, e2, e3, e4⟩ := linesOf_first x hn
    have h0 : x ≠ [] := hn
    rcases h with rfl | ⟨y, rfl⟩
    · exact absurd rfl hn
    rcases e4 with ⟨t, rfl, ht⟩ | ⟨rfl, hm, -⟩
    · rw [e1] at hl
      rcases List.mem_cons.1 hl with rfl | hl
      · exact ⟨t, rfl, ht⟩
      · have hw : WholeLines rest := by
          by_cases hr : rest = []
          · exact .inl hr
          · refine .inr ⟨rest.dropLast, ?_⟩
            have h1 := congrArg List.getLast? e2
            rw [List.getLast?_concat, List.getLast?_append] at h1
            rw [List.getLast?_eq_some_getLast hr] at h1
            have h2 : rest.getLast hr = 10 := by simpa using h1.symm
            rw [← h2]
            exact (List.dropLast_concat_getLast hr).symm
        have hlen : rest.length ≤ n := by
          have := congrArg List.length e2
          simp at this hx
          omega
        exact ih rest hlen hw l (by rw [e3]; exact hl)
    · exfalso
      rw [List.append_nil] at e2
      apply hm
      rw [← e2]
      simp

/-- The lines of such a file, as they are copied. -/
theorem PlainFile.lines {file : Str} (h : PlainFile file) : ∀ l ∈ (linesOf file).map copied, TextLine l := by
  intro l hl
  obtain ⟨m, hm, rfl⟩ := List.mem_map.1 hl
  obtain ⟨y, rfl, hy⟩ := linesOf_whole (x := file) h.ended m hm
  have h1 := h.text.2 _ hm
  have h2 := h.once _ hm
  have h3 : NoNul (y ++ [10]) := by
    intro hc
    apply h.text.1
    rw [← linesOf_flatten file]
    exact List.mem_flatten.2 ⟨_, hm, hc⟩
  have hz : ∃ z, copied (y ++ [10]) = z ++ [10] ∧ z <+: y ∧ z.getLast? ≠ some 13 := by
    by_cases hc : y.getLast? = some 13
    · refine ⟨y.dropLast, ?_, List.dropLast_prefix y, ?_⟩
      · unfold copied; rw [fixCrLf_lf, if_pos hc]
      · intro hd
        have e1 := getLast_split hc
        have e2 := getLast_split hd
        apply h2
        refine ⟨y.dropLast.dropLast, ?_⟩
        conv => rhs; rw [e1, e2]
        simp
    · refine ⟨y, ?_, List.prefix_refl y, hc⟩
      unfold copied; rw [fixCrLf_lf, if_neg hc]
  obtain ⟨z, e, hp, hl⟩ := hz
  rw [e]
  refine ⟨⟨z, rfl, fun hc => hy (hp.mem hc)⟩, ?_⟩
  refine Neat.line ⟨fun hc => h3 (List.mem_append_left _ (hp.mem hc)), fun hc => hy (hp.mem hc), ?_, hl⟩
  have := hp.length_le
  simp at h1
  omega

theorem Neat.read {x : Str} (h : Neat x) (nl : Nodelist) (chk : Node4D → Bool) : readConfig nl chk x = rdLines (rdInit nl chk) (linesOf x) := by
  unfold readConfig
  rw [fileLines_text x ⟨h.2.1, fun l hl => (h.2.2 l hl).1⟩]
  congr 1
  conv => rhs; rw [← List.map_id (linesOf x)]
  exact List.map_congr_left fun l hl => (h.2.2 l hl).2

theorem AreasNow.origin {as bs : List Area} (h : AreasNow as bs) : ∀ b ∈ bs, ∃ a ∈ as, b.tag = a.tag ∧ b.aka = a.aka := by
  induction h with
  | nil => simp
  | same a _ ih =>
    intro b hb
    rcases List.mem_cons.1 hb with rfl | hb
    · exact ⟨b, by simp, rfl, rfl⟩
    · obtain ⟨x, hx, e⟩ := ih b hb
      exact ⟨x, by simp [hx], e⟩
  | changed a b' ht hk hc hl _ ih =>
    intro b hb
    rcases List.mem_cons.1 hb with rfl | hb
    · exact ⟨a, by simp, ht, hk⟩
    · obtain ⟨x, hx, e⟩ := ih b hb
      exact ⟨x, by simp [hx], e⟩
  | removed a hl _ ih =>
    intro b hb
    obtain ⟨x, hx, e⟩ := ih b hb
    exact ⟨x, by simp [hx], e⟩

theorem AreasNow.fate {as bs : List Area} (h : AreasNow as bs) : ∀ a ∈ as, a ∈ bs ∨ a.type ≠ .local := by
  induction h with
  | nil => simp
  | same a _ ih =>
    intro b hb
    rcases List.mem_cons.1 hb with rfl | hb
    · exact .inl (by simp)
    · exact (ih b hb).imp (fun h => List.mem_cons_of_mem _ h) id
  | changed a b' ht hk hc hl _ ih =>
    intro b hb
    rcases List.mem_cons.1 hb with rfl | hb
    · exact .inr hl
    · exact (ih b hb).imp (fun h => List.mem_cons_of_mem _ h) id
  | removed a hl _ ih =>
    intro b hb
    rcases List.mem_cons.1 hb with rfl | hb
    · exact .inr hl
    · exact ih b hb

theorem ctx_of {c : Config} {s : RdSt} (ok : ConfigOk s.cfg) (A : Altered s.cfg c) (W : Writable c) : Ctx c s := by
  obtain ⟨kept, added, hc, hn, hm, hd⟩ := A.areas
  have hun : ∀ a ∈ s.cfg.areas, a.changed = false := fun a ha => (ok.areas a ha).unmarked
  have hd1 : DistinctTags s.cfg.areas := hd.sublist (List.sublist_append_left _ _)
  have hpk : c.packers = s.cfg.packers := by
    have := congrArg Config.packers A.rest
    exact this
  refine ⟨?_, ?_, hd1, ?_, ?_, ?_, ?_, ?_, W⟩
  · intro k hk h
    obtain ⟨a, ha, rfl⟩ := List.mem_map.1 hk
    rcases hn.fate a ha with h1 | h1
    · have := h a (by rw [hc]; simp [h1]) (eqi_same_self _)
      rw [hun a ha] at this
      cases this
    · exact h1
  · intro k hk b hb e hbc
    obtain ⟨a, ha, rfl⟩ := List.mem_map.1 hk
    rw [hc] at hb
    rcases List.mem_append.1 hb with hb | hb
    · obtain ⟨x, hx, e1, e2⟩ := hn.origin b hb
      obtain ⟨i, hi⟩ := List.getElem?_of_mem ha
      obtain ⟨j, hj⟩ := List.getElem?_of_mem hx
      have := distinctTags_unique hd1 hi hj (t := a.tag) (eqi_same_self _) (by rw [← e1]; exact e)
      subst this
      rw [hi] at hj
      rw [e2, ← Option.some.inj hj]
      rfl
    · have := (List.pairwise_append.1 hd).2.2 a ha b hb
      rw [show eqi a.tag b.tag = true from e] at this
      cases this
  · rw [hc]; exact hn.distinct hd
  · apply List.ext_getElem?
    intro i
    rw [List.getElem?_map, List.getElem?_map]
    rcases Nat.lt_or_ge i s.cfg.nodes.length with hi | hi
    · have h1 : s.cfg.nodes[i]? = some s.cfg.nodes[i] := List.getElem?_eq_getElem hi
      have hi' : i < c.nodes.length := by rw [A.count]; exact hi
      have h2 : c.nodes[i]? = some c.nodes[i] := List.getElem?_eq_getElem hi'
      rw [h1, h2, Option.map_some, Option.map_some, (A.nodes i _ _ h1 h2).1]
    · rw [List.getElem?_eq_none hi, List.getElem?_eq_none (by rw [A.count]; exact hi)]
  · exact congrArg (fun c : Config => c.akas.map (·.node)) A.rest
  · exact hpk
  · intro p hp
    rw [hpk] at hp
    exact (ok.packers p hp).1

theorem image_new (c : Config) (s : RdSt) (h : s.cfg.areas = [] ∧ s.cfg.nodes = []) : image c s = s := by
  unfold image swap
  rw [h.1, h.2]
  obtain ⟨cfg, set⟩ := s
  obtain ⟨h1, h2⟩ := h
  dsimp only at h1 h2 ⊢
  rw [List.filterMap_nil, List.mapIdx_nil]
  congr 1
  cases cfg
  cases h1
  cases h2
  rfl

/-- **C73 (partial).** A configuration file was read, and then areas and nodes were changed, removed or
added. Rewriting the file succeeds, and reading the new file gives exactly the configuration in memory:
every area, node and all other settings. What is missing: changed or removed local areas
(`Ex.local_comes_back`), changed netmail areas (`Ex.netmail_unreadable`), areas linked to nodes that stand
later in the file (`Ex.later_node_refused`), long tags (`Ex.long_tag_deleted`), and files with unusual
lines. -/
theorem restart_reads_back_partial (nl : Nodelist) (chk : Node4D → Bool) (file : Str) (s : RdSt) (c : Config)
    (hf : PlainFile file) (h : readConfig nl chk file = .ok s) (A : Altered s.cfg c) (W : Writable c)
    (F : LinesFit s.cfg c ((linesOf file).map copied)) :
    ∃ out, updateText c file = .ok out ∧ readConfig nl chk out =
      .ok { s with cfg := { c with areas := c.areas.map unmarkA, nodes := c.nodes.map unmarkN, changed := false } } := by
  obtain ⟨ok, -⟩ := read_config_ok nl chk file s h
  have X := ctx_of ok A W
  unfold readConfig at h
  rw [fileLines_text file hf.text] at h
  have S0 : Sim c (rdInit nl chk) (rdInit nl chk) { cfg := c } := by
    refine ⟨?_, .nil, ⟨rfl, rfl, rfl, rfl⟩, ?_, ?_, ?_, ?_⟩
    · rw [image_new c _ ⟨rfl, rfl⟩]; exact .nil _
    · intro i b hb
      exact ⟨b.changed, hb, by simp [rdInit]⟩
    · intro i b hb
      exact ⟨b.changed, hb, by simp [rdInit]⟩
    · intro A a e; simp [rdInit] at e
    · intro A a e; simp [rdInit] at e
  obtain ⟨u, hu, S⟩ := sim_lines X F hf.lines _ [] _ _ rfl S0 rfl h
  obtain ⟨kept, added, hc, hn, hm, hd⟩ := A.areas
  have hun : ∀ a ∈ s.cfg.areas, a.changed = false := fun a ha => (ok.areas a ha).unmarked
  -- the areas that still have their mark are the new ones
  have hareas : u.cfg.areas = kept.map unmarkA ++ added := by
    have hlen : u.cfg.areas.length = c.areas.length := by simpa using congrArg List.length S.same.areas
    apply List.ext_getElem?
    intro i
    rcases Nat.lt_or_ge i c.areas.length with hi | hi
    · obtain ⟨b, hi'⟩ : ∃ b, c.areas[i]? = some b := ⟨_, List.getElem?_eq_getElem hi⟩
      obtain ⟨m, h1, h2⟩ := S.areas i _ hi'
      rw [h1]
      rw [hc] at hi'
      rcases Nat.lt_or_ge i kept.length with hk | hk
      · rw [List.getElem?_append_left (by rw [List.length_map]; exact hk), List.getElem?_map]
        rw [List.getElem?_append_left hk] at hi'
        rw [hi', Option.map_some]
        have : m = false := by
          rw [Bool.eq_false_iff]
          intro hmt
          obtain ⟨x, hx, e⟩ := hn.tag _ (List.mem_of_getElem? hi')
          have := (h2.1 hmt).2 x hx
          rw [e, eqi_same_self] at this
          cases this
        rw [this]
        rfl
      · rw [List.getElem?_append_right (by rw [List.length_map]; exact hk), List.length_map]
        rw [List.getElem?_append_right hk] at hi'
        rw [hi']
        have hmem := List.mem_of_getElem? hi'
        have hch := hm _ hmem
        have : m = true := h2.2 ⟨hch, fun a ha => (List.pairwise_append.1 hd).2.2 a ha _ hmem⟩
        rw [this, ← hch]
    · rw [List.getElem?_eq_none (by omega), List.getElem?_eq_none]
      rw [hc] at hi
      simpa using hi
  obtain ⟨x, hx⟩ : ∃ x, updNew u.cfg u.cfg.areas = .ok x := by
    refine updNew_total ?_
    intro a ha hch
    rw [hareas] at ha
    rcases List.mem_append.1 ha with ha | ha
    · obtain ⟨b, -, rfl⟩ := List.mem_map.1 ha
      cases hch
    · exact areaText_total W S.same (b := a) (by rw [hc]; simp [ha]) hch a.changed
  refine ⟨u.out ++ x, ?_, ?_⟩
  · unfold updateText
    rw [fileLines_text file hf.text]
    exact ebind_ok.2 ⟨u, hu, ebind_ok.2 ⟨x, hx, rfl⟩⟩
  rw [hareas] at hx
  obtain ⟨y, z, h1, h2, rfl⟩ := updNew_append hx
  have : y = [] := updNew_none (fun a ha => by obtain ⟨b, -, rfl⟩ := List.mem_map.1 ha; rfl) h1
  subst this
  rw [List.nil_append]
  have eA : s.cfg.areas.filterMap (areaNow c) = kept.map unmarkA := areas_now hn added hun [] (by rw [hc]; rfl) (fun p hp => by cases hp) hd
  have eN : s.cfg.nodes.mapIdx (nodeNow c) = c.nodes.map unmarkN := nodes_now A.count A.nodes
  have eI : image c s = swap (kept.map unmarkA) (c.nodes.map unmarkN) s := by unfold image; rw [eA, eN]
  obtain ⟨r, n⟩ := reads_new S.same W added (image c s) z (fun a ha => ⟨by rw [hc]; simp [ha], hm a ha⟩) X.akas.symm
    (by
      rw [eI]
      show List.map (·.node) (c.nodes.map unmarkN) = _
      rw [List.map_map]; rfl) h2
  rw [(S.neat.append n).read, (S.reads.append r).2, eI]
  congr 1
  have e1 := A.rest
  have e2 := ok.unmarked
  show ({ s with cfg := { s.cfg with areas := kept.map unmarkA ++ added.map unmarkA, nodes := c.nodes.map unmarkN } } : RdSt) = _
  congr 1
  rw [← List.map_append, ← hc]
  rw [← e1] at e2 ⊢
  dsimp only at e2 ⊢
  rw [e2]

namespace Ex

def restartFile : Str :=
  b!"; my configuration\r\nSYSOP \"Any One\"\nAKA 1:2/3\nPACKER ZIP \"zip %a %f\" \"unzip %a\" \"PK\"\nPACKER ARC \"arc a %a %f\" \"arc x %a\" \"\"\n\nNODE 1:2/4 zip pw AUTOADD\nAREAFIXINFO old A\nNODE 1:2/5 \"\" \"\"\n; the areas\nNETMAIL MAIL 1:2/3 MSG mail\nAREA ONE 1:2/3 JAM one\nEXPORT 1:2/4\n\nAREA TWO 1:2/3\nEXPORT 1:2/5\nAREA Three 1:2/3\nEXPORT 1:2/5 1:2/4\nGROUP A\nAREAFIXMAXLINES 7\n"

def restartNodes : List ConfigNode :=
  [{ node := ⟨1, 2, 4, 0⟩, packetPW := b!"pw", areafixPW := b!"old", groups := b!"A", flags := NODE_AUTOADD, packer := some 0 },
   { node := ⟨1, 2, 5, 0⟩ }]

def restartAreas : List Area :=
  [{ tag := b!"MAIL", path := b!"mail", type := .netmail, aka := some 0, base := some 0 },
   { tag := b!"ONE", path := b!"one", aka := some 0, base := some 1, tossNodes := [⟨0, 0⟩] },
   { tag := b!"TWO", aka := some 0, tossNodes := [⟨1, 0⟩] },
   { tag := b!"Three", aka := some 0, tossNodes := [⟨1, 0⟩, ⟨0, 0⟩], group := 65 }]

/-- The password and the packer of a node have changed. -/
def newNodes : List ConfigNode :=
  [{ node := ⟨1, 2, 4, 0⟩, packetPW := b!"pw", areafixPW := b!"new \"one\"", groups := b!"A", flags := NODE_AUTOADD, packer := some 1, changed := true },
   { node := ⟨1, 2, 5, 0⟩ }]

/-- The area ONE has a further link, TWO has been removed, FOUR is new. -/
def newAreas : List Area :=
  [{ tag := b!"MAIL", path := b!"mail", type := .netmail, aka := some 0, base := some 0 },
   { tag := b!"ONE", path := b!"one", aka := some 0, base := some 1, tossNodes := [⟨0, 0⟩, ⟨1, 1⟩], changed := true },
   { tag := b!"Three", aka := some 0, tossNodes := [⟨1, 0⟩, ⟨0, 0⟩], group := 65 },
   { tag := b!"FOUR", description := b!"a new area", path := b!"four", aka := some 0, base := some 0, tossNodes := [⟨0, 4⟩], changed := true }]

def restartNow (c : Config) : Config := { c with areas := newAreas, nodes := newNodes, changed := true }

/-- Does reading this give these areas and nodes? -/
def readsAs (file : Str) (A : List Area) (N : List ConfigNode) : Bool :=
  match readConfig rdNl (fun _ => true) file with
  | .ok s => decide (s.cfg.areas = A ∧ s.cfg.nodes = N ∧ s.cfg.akas.map (·.node) = [⟨1, 2, 3, 0⟩] ∧ s.cfg.packers.map (·.name) = [b!"ZIP", b!"ARC"])
  | .error _ => false

theorem restart_read : readsAs restartFile restartAreas restartNodes = true := by decide +kernel

theorem restart_state : ∃ s, readConfig rdNl (fun _ => true) restartFile = .ok s ∧ s.cfg.areas = restartAreas ∧ s.cfg.nodes = restartNodes ∧
    s.cfg.akas.map (·.node) = [⟨1, 2, 3, 0⟩] ∧ s.cfg.packers.map (·.name) = [b!"ZIP", b!"ARC"] := by
  have h := restart_read
  unfold readsAs at h
  cases hr : readConfig rdNl (fun _ => true) restartFile with
  | error e => rw [hr] at h; cases h
  | ok s => rw [hr] at h; exact ⟨s, rfl, of_decide_eq_true h⟩

instance (l : Str) : Decidable (AreaLine l) := by unfold AreaLine; infer_instance
instance (l : Str) : Decidable (NodeLine l) := by unfold NodeLine; infer_instance

theorem restart_plain : PlainFile restartFile := by
  refine ⟨⟨by unfold NoNul; decide +kernel, by decide +kernel⟩, .inr ⟨restartFile.dropLast, by decide +kernel⟩, ?_⟩
  have h : (linesOf restartFile).all (fun l => !([13, 13, 10] : Str).isSuffixOf l) = true := by decide +kernel
  intro l hl hs
  have := List.all_eq_true.1 h l hl
  rw [List.isSuffixOf_iff_suffix.2 hs] at this
  cases this

theorem restart_altered {s : RdSt} (ha : s.cfg.areas = restartAreas) (hn : s.cfg.nodes = restartNodes) : Altered s.cfg (restartNow s.cfg) := by
  refine ⟨rfl, by rw [hn]; rfl, ?_, ?_⟩
  · rw [hn]
    intro i n m h1 h2
    match i with
    | 0 => cases h1; cases h2; exact ⟨rfl, fun h => by cases h⟩
    | 1 => cases h1; cases h2; exact ⟨rfl, fun _ => rfl⟩
    | i + 2 => cases h1
  · rw [ha]
    refine ⟨newAreas.take 3, newAreas.drop 3, rfl, ?_, by decide +kernel, by decide +kernel⟩
    exact .same _ (.changed _ _ rfl rfl rfl (by decide) (.removed _ (by decide) (.same _ .nil)))

theorem restart_writable {s : RdSt} (hk : s.cfg.akas.map (·.node) = [⟨1, 2, 3, 0⟩])
    (hp : s.cfg.packers.map (·.name) = [b!"ZIP", b!"ARC"]) : Writable (restartNow s.cfg) := by
  have e1 : s.cfg.akas.length = 1 := by simpa using congrArg List.length hk
  have e2 : s.cfg.packers.length = 2 := by simpa using congrArg List.length hp
  refine ⟨?_, ?_, ?_, ?_, show Distinct4D (newNodes.map (·.node)) by decide +kernel⟩
  · intro a ha hc
    rw [show (restartNow s.cfg).akas.length = 1 from e1, show (restartNow s.cfg).nodes.length = 2 from rfl]
    have : a ∈ newAreas := ha
    simp only [newAreas, List.mem_cons, List.not_mem_nil, or_false] at this
    rcases this with rfl | rfl | rfl | rfl
    · cases hc
    · refine ⟨⟨by decide, by decide, by decide, ⟨0, rfl, by decide⟩, by decide, by decide, by decide, by decide, by unfold GroupLetter; decide, ?_, by decide, by decide, rfl⟩,
        by decide, by unfold NoNul; decide⟩
      exact ⟨by unfold BadTag; decide, by unfold DefaultTag; decide, rfl⟩
    · cases hc
    · refine ⟨⟨by decide, by decide, by decide, ⟨0, rfl, by decide⟩, by decide, by decide, by decide, by decide, by unfold GroupLetter; decide, ?_, by decide, by decide, rfl⟩,
        by decide, by unfold NoNul; decide⟩
      exact ⟨by unfold BadTag; decide, by unfold DefaultTag; decide, rfl⟩
  · intro n hn hc
    rw [show (restartNow s.cfg).packers.length = 2 from e2]
    have : n ∈ newNodes := hn
    simp only [newNodes, List.mem_cons, List.not_mem_nil, or_false] at this
    rcases this with rfl | rfl
    · refine ⟨⟨by decide, by decide, by unfold GroupList; decide, by unfold GroupList; decide, by unfold GroupList; decide, .inl rfl, by decide, by decide, by decide, by decide,
        fun i h => by cases h; decide, by decide, by decide, by decide, by decide⟩, ?_, fun _ => by decide, by unfold NoNul; decide⟩
      intro i hi
      cases hi
      have hk : (s.cfg.packers.map (·.name))[1]? = some b!"ARC" := by rw [hp]; rfl
      rw [List.getElem?_map] at hk
      obtain ⟨p, h1, h2⟩ := Option.map_eq_some_iff.1 hk
      refine ⟨p, h1, by rw [h2]; decide, ?_⟩
      intro q hq
      have hm : q.name ∈ (s.cfg.packers.map (·.name)).take 1 := by
        rw [← List.map_take]; exact List.mem_map.2 ⟨q, hq, rfl⟩
      rw [hp] at hm
      rw [List.mem_singleton.1 hm, h2]
      decide
    · cases hc
  · intro p hpm
    have : p.name ∈ s.cfg.packers.map (·.name) := List.mem_map.2 ⟨p, hpm, rfl⟩
    rw [hp] at this
    have h : ∀ x ∈ ([b!"ZIP", b!"ARC"] : List Str), NoNul x := by unfold NoNul; decide
    exact h _ this
  · rw [show (restartNow s.cfg).akas = s.cfg.akas from rfl, hk]
    decide

theorem restart_fit {c : Config} : LinesFit c (restartNow c) ((linesOf restartFile).map copied) := by
  have h1 : ∀ l ∈ (linesOf restartFile).map copied, (AreaLine l → ((argument l).all fun w => decide (w.length < 80)) = true) ∧
      (NodeLine l → ((argument l).all fun w => decide (w.length < 99)) = true) := by decide +kernel
  have h2 : ∀ i < ((linesOf restartFile).map copied).length, AreaLine (((linesOf restartFile).map copied)[i]?.getD []) →
      2 ≤ nodeLines (((linesOf restartFile).map copied).take i) := by decide +kernel
  have h3 : ∀ b ∈ newAreas, (∀ t ∈ b.tossNodes, t.node < 2) ∧ ∀ x ∈ b.banned, x < 2 := by decide
  have h4 : ∀ i < ((linesOf restartFile).map copied).length, NodeLine (((linesOf restartFile).map copied)[i]?.getD []) →
      ∀ x ∈ ((linesOf restartFile).map copied).drop (i + 1), eqi (keyword x) b!"PACKER" = false := by decide +kernel
  refine ⟨?_, ?_, ?_, ?_⟩
  · intro l hl ha w hw
    have := (h1 l hl).1 ha
    rw [hw] at this
    simpa using this
  · intro l hl ha w hw
    have := (h1 l hl).2 ha
    rw [hw] at this
    simpa using this
  · intro pre l post w b e hl _ hb _ _
    have := h2 pre.length (by rw [e]; simp) (by rw [e]; simpa using hl)
    rw [e, List.take_left] at this
    obtain ⟨p, q⟩ := h3 b hb
    exact ⟨fun t ht => Nat.lt_of_lt_of_le (p t ht) this, fun t ht => Nat.lt_of_lt_of_le (q t ht) this⟩
  · intro pre l post n m e hl _ _ _ x hx
    have e1 := h4 pre.length (by rw [e]; simp) (by rw [e]; simpa using hl)
    rw [e, show pre ++ l :: post = (pre ++ [l]) ++ post by simp, show pre.length + 1 = (pre ++ [l]).length by simp, List.drop_left] at e1
    exact e1 x hx

/-- The hypotheses of `restart_reads_back_partial` are met together, with an area and a node changed, an area
removed and one added. -/
theorem restart_case : ∃ s out, readConfig rdNl (fun _ => true) restartFile = .ok s ∧ updateText (restartNow s.cfg) restartFile = .ok out ∧
    readConfig rdNl (fun _ => true) out = .ok { s with cfg := { restartNow s.cfg with areas := newAreas.map unmarkA, nodes := newNodes.map unmarkN, changed := false } } := by
  obtain ⟨s, h, ha, hn, hk, hp⟩ := restart_state
  obtain ⟨out, h1, h2⟩ := restart_reads_back_partial rdNl (fun _ => true) restartFile s (restartNow s.cfg) restart_plain h (restart_altered ha hn)
    (restart_writable hk hp) restart_fit
  exact ⟨s, out, h, h1, h2⟩

/-- What is in memory after a restart: the tags of the areas and the numbers of their links. -/
def afterRestart (f : List Area → List Area) (file : Str) : Except RdErr (List (Str × Nat)) := do
  let s ← readConfig rdNl (fun _ => true) file
  match updateText { s.cfg with areas := f s.cfg.areas } file with
  | .error u => .error (.ub u)
  | .ok out =>
    let t ← readConfig rdNl (fun _ => true) out
    return t.cfg.areas.map fun a => (a.tag, a.tossNodes.length)

/-- A local area that is removed is there again after a restart, and one that is changed is there twice. -/
theorem local_comes_back :
    afterRestart (fun l => l.take 1) b!"AKA 1:2/3\nAREA ONE 1:2/3\nLOCALAREA TWO 1:2/3 MSG two\n" = .ok [(b!"ONE", 0), (b!"TWO", 0)] ∧
    afterRestart (fun l => l.map fun a => { a with keepNum := 5, changed := true }) b!"AKA 1:2/3\nLOCALAREA TWO 1:2/3 MSG two\n" =
      .ok [(b!"TWO", 0), (b!"TWO", 0)] := by decide +kernel

/-- An area is linked, through AreaFix, to a node whose NODE line stands after the area: the new file is
refused, and the program does not start any more. -/
theorem later_node_refused :
    afterRestart (fun l => l.map fun a => { a with tossNodes := a.tossNodes ++ [⟨1, 0⟩], changed := true })
      b!"AKA 1:2/3\nNODE 1:2/4 \"\" \"\"\nAREA ONE 1:2/3\nEXPORT 1:2/4\nNODE 1:2/5 \"\" \"\"\n" = .error .invalid := by decide +kernel

/-- A node gets, through AreaFix, a packer that stands after it in the file: the new file is refused. -/
theorem later_packer_refused :
    (do
      let file := b!"AKA 1:2/3\nNODE 1:2/4 \"\" \"\"\nPACKER ZIP \"zip %a %f\" \"unzip %a\" \"PK\"\n"
      let s ← readConfig rdNl (fun _ => true) file
      match updateText { s.cfg with nodes := s.cfg.nodes.map fun n => { n with packer := some 0, changed := true } } file with
      | .error u => .error (.ub u)
      | .ok out => (readConfig rdNl (fun _ => true) out).map fun s => s.cfg.nodes.length : Except RdErr Nat) = .error .invalid := by decide +kernel

end Ex

end CM
