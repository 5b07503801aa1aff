import Verif.Lemmas.Restart
/-! # One line of the old file -/
set_option linter.unusedSimpArgs false

namespace CM

theorem updLine_ok {u u' : Upd} {l : Str} (h : updLine u l = .ok u') :
    ∃ v, updHead u (keyword l) (jbstrcpy 30 l).2.1 = .ok v ∧ u' = updCopy v (jbstrcpy 30 l).2.2 (keyword l) l := by
  unfold updLine at h
  dsimp only at h
  obtain ⟨v, h1, h⟩ := ebind_ok.1 h
  rw [epure_ok] at h
  exact ⟨v, h1, h.symm⟩

/-- The marks of the areas after a line that begins one. -/
theorem marks_area {c : Config} {ini s : RdSt} {u : Upd} (S : Sim c ini s u) {a : Area}
    (h : ∀ b ∈ c.areas, eqi a.tag b.tag = true → b.changed = false) : ∀ (i : Nat) b, c.areas[i]? = some b →
    ∃ m, u.cfg.areas[i]? = some { b with changed := m } ∧
    (m = true ↔ b.changed = true ∧ ∀ x ∈ s.cfg.areas ++ [a], eqi x.tag b.tag = false) := by
  intro i b hb
  obtain ⟨m, h1, h2⟩ := S.areas i b hb
  refine ⟨m, h1, h2.trans ⟨fun ⟨p, q⟩ => ⟨p, forall_snoc q ?_⟩, fun ⟨p, q⟩ => ⟨p, fun x hx => q x (List.mem_append_left _ hx)⟩⟩⟩
  rw [Bool.eq_false_iff]
  intro he
  rw [h b (List.mem_of_getElem? hb) he] at p
  cases p

theorem image_withArea (c : Config) (s : RdSt) (a : Area) : image c (withArea s s.cfg.areas a) =
    swap (s.cfg.areas.filterMap (areaNow c) ++ (areaNow c a).toList) (s.cfg.nodes.mapIdx (nodeNow c)) s := by
  unfold image withArea swap
  simp only [List.filterMap_append]
  have : List.filterMap (areaNow c) [a] = (areaNow c a).toList := by cases h : areaNow c a <;> simp [h]
  rw [this]

theorem sim_area {c : Config} {ini s sf : RdSt} {u u' : Upd} {l : Str} {a : Area} (S : Sim c ini s u) (X : Ctx c sf)
    (hw : isAreaWord (keyword l) = true) (h : rdArea s.cfg.akas (keyword l) (jbstrcpy 30 l).2.1 = .ok a)
    (g : Grows (withArea s s.cfg.areas a) sf) (hl : TextLine l) (ht : (jbstrcpy 100 (jbstrcpy 30 l).2.1).1.length < 80)
    (hk : ∀ b ∈ c.areas, eqi a.tag b.tag = true → b.changed = true →
      (∀ t ∈ b.tossNodes, t.node < s.cfg.nodes.length) ∧ ∀ x ∈ b.banned, x < s.cfg.nodes.length)
    (hu : updLine u l = .ok u') : Sim c ini (withArea s s.cfg.areas a) u' := by
  obtain ⟨v, hv, rfl⟩ := updLine_ok hu
  obtain ⟨k1, k2, k3, k4⟩ := areaWord_kw hw
  have hcr := copyres_of_word k3
  have hkey : areaKey a ∈ sf.cfg.areas.map areaKey := g.areas.mem (by simp [withArea])
  have hlim : jbstrcpy 80 (jbstrcpy 30 l).2.1 = jbstrcpy 100 (jbstrcpy 30 l).2.1 := jbstrcpy_limit 100 80 _ (by omega) (by omega)
  have hr : (jbstrcpy 100 (jbstrcpy 30 l).2.1).2.2 = true ∧ a.tag = (jbstrcpy 100 (jbstrcpy 30 l).2.1).1 := by
    rw [← hlim]
    rcases rdArea_tag h with ⟨h1, h2, -⟩ | ⟨h1, h2, -⟩ <;> exact ⟨h1, h2⟩
  have hnl : Gone c a → areaKeywords.any (eqi (keyword l)) = true := by
    intro hg
    rcases k4 with k4 | k4
    · exact k4
    · exfalso
      refine X.tags _ hkey hg ?_
      rcases rdArea_tag h with ⟨-, -, h1⟩ | ⟨-, -, h1⟩
      · exact h1
      · rw [k4] at h1; cases h1
  have hseen : ∀ x ∈ s.cfg.areas, eqi x.tag a.tag = false := by
    have := pairwise_prefix g.areas (distinctTags_key.1 X.distinct)
    rw [← distinctTags_key] at this
    intro x hx
    exact (List.pairwise_append.1 this).2.2 x hx a (by simp)
  unfold updHead at hv
  rw [if_pos hw] at hv
  have g0 : Grows s (withArea s s.cfg.areas a) :=
    ⟨⟨[areaKey a], by simp [withArea]⟩, List.prefix_refl _, List.prefix_refl _, List.prefix_refl _⟩
  have gs := g0.trans g
  have hr' : jbstrcpy 100 (jbstrcpy 30 l).2.1 = (a.tag, (jbstrcpy 100 (jbstrcpy 30 l).2.1).2.1, true) := by
    rw [hr.2]; exact Prod.ext rfl (Prod.ext rfl hr.1)
  have hnodes := S.nodes
  have hsn := S.skipNode
  have hlast : ∀ A x, s.cfg.areas ++ [a] = A ++ [x] → x = a := by
    intro A x e
    have := (List.append_inj' e rfl).2
    simpa using this.symm
  rcases updArea_cases S hr' hseen hv with ⟨hn, rfl⟩ | ⟨b, hb, ht', hf, hc, rfl⟩ | ⟨i, b, txt, hb, ht', hf, hc, htx, rfl⟩
  · have hg : Gone c a := by intro b hb e; rw [hn b hb] at e; cases e
    have hno : areaNow c a = none := by
      unfold areaNow
      have : c.areas.find? (fun b => eqi a.tag b.tag) = none := by simpa using hn
      rw [this]
    rw [updCopy_drop (by unfold dontWrite; simp [hnl hg])]
    refine ⟨?_, S.neat, S.same, marks_area S (a := a) (fun b hb e => by rw [hn b hb] at e; cases e), hnodes, ?_, hsn⟩
    · rw [image_withArea, hno]
      simpa [image] using S.reads
    · intro A x e
      rw [hlast A x e]
      simp [hg]
  · have hng : ¬ Gone c a := fun hg => by rw [hg b hb ht'] at hc; cases hc
    have hno : areaNow c a = some a := by
      unfold areaNow
      rw [hf]
      simp [hc]
    rw [updCopy_keep (by unfold dontWrite; simp [k1, hcr])]
    refine ⟨?_, S.neat.append hl.neat, S.same, marks_area S (a := a) (fun b' hb' e => ?_), hnodes, ?_, hsn⟩
    · rw [image_withArea, hno]
      refine S.reads.whole hl.whole ?_
      exact rdLine_area hw h
    · obtain ⟨i, hi⟩ := List.getElem?_of_mem hb
      obtain ⟨j, hj⟩ := List.getElem?_of_mem hb'
      have := distinctTags_unique X.distinct' hi hj ht' e
      subst this
      rw [hi] at hj
      rw [← Option.some.inj hj]; exact hc
    · intro A x e
      rw [hlast A x e]
      simp [hng]
  · have hbm := List.mem_of_getElem? hb
    have hg : Gone c a := by
      intro b' hb' e
      obtain ⟨j, hj⟩ := List.getElem?_of_mem hb'
      have := distinctTags_unique X.distinct' hb hj ht' e
      subst this
      rw [hb] at hj
      rw [← Option.some.inj hj]; exact hc
    have hno : areaNow c a = some (unmarkA b) := by
      unfold areaNow
      rw [hf]
      simp [hc]
    rw [updCopy_drop (by unfold dontWrite; simp [hnl hg])]
    obtain ⟨ok, hnm, z1, z2, z3⟩ := X.ok.areas b hbm hc
    have hko : b.aka = a.aka := X.akaOf _ hkey b hbm ht' hc
    have ok' : AreaOk s.cfg.akas.length s.cfg.nodes.length (unmarkA b) := by
      have ha := (rdArea_ok (m := 0) h).aka
      rw [← hko] at ha
      obtain ⟨q1, q2⟩ := hk b hbm ht' hc
      exact { ok with aka := ha, links := fun t ht => ⟨q1 t ht, (ok.links t ht).2⟩, banned := q2 }
    have hpre : s.cfg.nodes.map (·.node) <+: c.nodes.map (·.node) := by
      rw [X.nodes]; exact gs.addresses
    have hpk : s.cfg.akas.map (·.node) <+: c.akas.map (·.node) := by rw [X.akas]; exact gs.akas
    have himg := image_nodes X gs
    have hlen : (image c s).cfg.nodes.length = s.cfg.nodes.length := by
      have := congrArg List.length himg
      simpa using this
    have r := reads_area (image c s) c (unmarkA b) (txt := txt) htx (by rw [hlen]; exact ok') hnm
      (X.ok.akas.sublist hpk.sublist) hpk (by rw [himg]; exact X.ok.addresses.sublist hpre.sublist) (by rw [himg]; exact hpre)
    have nt : Neat txt := neat_area htx ok.group ok.oneLine ⟨z1, z2, z3⟩
    have n10 : Neat [10] := Neat.line (l := []) (by decide)
    refine ⟨?_, (S.neat.append nt).append n10, ⟨S.same.akas, S.same.packers, S.same.nodes, ?_⟩, ?_, hnodes, ?_, hsn⟩
    · rw [image_withArea, hno]
      refine (S.reads.append r).whole ⟨[], rfl, by simp⟩ ?_
      rw [rdLine_lf]
      rfl
    · rw [← S.same.areas]
      apply List.ext_getElem?
      intro j
      simp only [List.getElem?_map, List.getElem?_modify]
      cases hj : u.cfg.areas[j]? with
      | none => rfl
      | some y => dsimp only [Option.map_some]; split <;> rfl
    · intro j b' hb'
      obtain ⟨m, h1, h2⟩ := S.areas j b' hb'
      dsimp only
      rw [List.getElem?_modify, h1]
      by_cases hij : i = j
      · subst hij
        rw [hb] at hb'
        obtain rfl := Option.some.inj hb'
        refine ⟨false, by simp, ?_⟩
        simp only [Bool.false_eq_true, false_iff, not_and, Classical.not_forall]
        intro _
        exact ⟨a, by simp [withArea], by simp [ht']⟩
      · refine ⟨m, by simp [hij], h2.trans ⟨fun ⟨p, q⟩ => ⟨p, forall_snoc q ?_⟩, fun ⟨p, q⟩ => ⟨p, fun x hx => q x (List.mem_append_left _ hx)⟩⟩⟩
        rw [Bool.eq_false_iff]
        intro he
        exact hij (distinctTags_unique X.distinct' hb hb' ht' he)
    · intro A x e
      rw [hlast A x e]
      simp [hg]

theorem Gone.key {c : Config} {a b : Area} (h : b.tag = a.tag) : Gone c b ↔ Gone c a := by
  unfold Gone; rw [h]

theorem areaNow_same {c : Config} (hd : DistinctTags c.areas) {a : Area} (h : ¬ Gone c a) : ∀ b : Area, b.tag = a.tag → areaNow c b = some b := by
  intro x hx
  unfold Gone at h
  simp only [Classical.not_forall] at h
  obtain ⟨b, hb, he, hc⟩ := h
  unfold areaNow
  rw [hx]
  cases hf : c.areas.find? fun b => eqi a.tag b.tag with
  | none => rw [List.find?_eq_none] at hf; exact absurd he (hf b hb)
  | some y =>
    have hy := List.find?_some hf
    obtain ⟨i, hi⟩ := List.getElem?_of_mem hb
    obtain ⟨j, hj⟩ := List.getElem?_of_mem (List.mem_of_find?_eq_some hf)
    have := distinctTags_unique hd hi hj he hy
    subst this
    rw [hi] at hj
    obtain rfl := Option.some.inj hj
    simp [hc]

theorem updHead_other {u : Upd} {w rest : Str} (h1 : isAreaWord w = false) (h2 : eqi w b!"NODE" = false) : updHead u w rest = .ok u := by
  unfold updHead
  rw [if_neg (by simp [h1]), if_neg (by simp [h2])]

theorem sim_areaCmd {c : Config} {ini s sf : RdSt} {u u' : Upd} {l : Str} {A : List Area} {a b : Area} (S : Sim c ini s u) (X : Ctx c sf)
    (g : Grows s sf) (hw : isAreaWord (keyword l) = false) (hc : areaCmdWords.any (eqi (keyword l)) = true) (hA : s.cfg.areas = A ++ [a])
    (h : rdAreaCmd s.cfg.nodes (keyword l) (jbstrcpy 30 l).2.1 a = .ok b) (hl : TextLine l) (hu : updLine u l = .ok u') :
    Sim c ini (withArea s A b) u' := by
  obtain ⟨v, hv, rfl⟩ := updLine_ok hu
  obtain ⟨k1, k2, k3⟩ := areaCmd_kw hc
  have hnode : eqi (keyword l) b!"NODE" = false := by
    rw [List.any_eq_false] at k1
    exact Bool.eq_false_iff.2 (k1 _ (by decide))
  rw [updHead_other hw hnode] at hv
  obtain rfl := Except.ok.inj hv
  have hcr := copyres_of_word k3
  have htag : b.tag = a.tag := congrArg Prod.fst (rdAreaCmd_key h)
  have hsk := S.skipArea A a hA
  have hareas : ∀ (i : Nat) d, c.areas[i]? = some d → ∃ m, u.cfg.areas[i]? = some { d with changed := m } ∧
      (m = true ↔ d.changed = true ∧ ∀ x ∈ A ++ [b], eqi x.tag d.tag = false) := by
    intro i d hd
    obtain ⟨m, h1, h2⟩ := S.areas i d hd
    refine ⟨m, h1, ?_⟩
    rw [hA] at h2
    simp only [List.mem_append, List.mem_singleton, or_imp, forall_and, forall_eq, htag] at h2 ⊢
    exact h2
  have hlast : ∀ B x, A ++ [b] = B ++ [x] → x = b := by
    intro B x e
    have := (List.append_inj' e rfl).2
    simpa using this.symm
  have hskip : ∀ B x, A ++ [b] = B ++ [x] → (u.skipArea = true ↔ Gone c x) := by
    intro B x e
    rw [hlast B x e, Gone.key htag]
    exact hsk
  by_cases hg : Gone c a
  · rw [updCopy_drop (by unfold dontWrite; simp [hsk.2 hg, k2])]
    refine ⟨?_, S.neat, S.same, hareas, S.nodes, hskip, S.skipNode⟩
    have e : image c (withArea s A b) = image c s := by
      unfold image withArea swap
      rw [hA]
      simp only [List.filterMap_append]
      have : List.filterMap (areaNow c) [b] = List.filterMap (areaNow c) [a] := by
        simp only [List.filterMap_cons, areaNow_key c htag hg, List.filterMap_nil]
      rw [this]
    rw [e]
    exact S.reads
  · have hsf : u.skipArea = false := by
      rw [Bool.eq_false_iff]; exact fun hx => hg (hsk.1 hx)
    rw [updCopy_keep (by unfold dontWrite; simp [hsf, k1, hcr])]
    refine ⟨?_, S.neat.append hl.neat, S.same, hareas, S.nodes, hskip, S.skipNode⟩
    refine S.reads.whole hl.whole ?_
    have e1 : image c s = withArea (image c s) (A.filterMap (areaNow c)) a := by
      unfold image withArea swap
      rw [hA]
      simp only [List.filterMap_append]
      have : List.filterMap (areaNow c) [a] = [a] := by
        simp only [List.filterMap_cons, areaNow_same X.distinct' hg a rfl, List.filterMap_nil]
      rw [this]
    have e2 : image c (withArea s A b) = withArea (image c s) (A.filterMap (areaNow c)) b := by
      unfold image withArea swap
      simp only [List.filterMap_append]
      have : List.filterMap (areaNow c) [b] = [b] := by
        simp only [List.filterMap_cons, areaNow_same X.distinct' hg b htag, List.filterMap_nil]
      rw [this]
    rw [e2]
    conv => lhs; rw [e1]
    refine rdLine_areaCmd (ok := (jbstrcpy 30 l).2.2) (w := keyword l) (rest := (jbstrcpy 30 l).2.1) rfl hw hc ?_
    rw [rdAreaCmd_swap (image_nodes X g)]
    exact h

theorem sim_rest {c : Config} {ini s t sf : RdSt} {u u' : Upd} {l : Str} (S : Sim c ini s u) (X : Ctx c sf)
    (g : Grows s sf) (hw : isAreaWord (keyword l) = false) (hc : areaCmdWords.any (eqi (keyword l)) = false)
    (hn : eqi (keyword l) b!"NODE" = false) (hd : nodeCmdWords.any (eqi (keyword l)) = false)
    (h : rdRest s (keyword l) (jbstrcpy 30 l).2.1 = .ok t) (hl : TextLine l) (hu : updLine u l = .ok u') : Sim c ini t u' := by
  obtain ⟨v, hv, rfl⟩ := updLine_ok hu
  rw [updHead_other hw hn] at hv
  obtain rfl := Except.ok.inj hv
  obtain ⟨k1, k2⟩ := rest_kw hw hc hn hd
  obtain ⟨e1, e2, -, -⟩ := rdRest_apart s _ _ t h
  have ei : image c t = swap (image c s).cfg.areas (image c s).cfg.nodes t := by
    unfold image
    rw [e1, e2]
    rfl
  by_cases hdw : dontWrite u.skipArea u.skipNode (jbstrcpy 30 l).2.2 (keyword l) = true
  · rw [updCopy_drop hdw]
    have hcr : (jbstrcpy 30 l).2.2 = false := by
      unfold dontWrite at hdw
      rw [k1, k2] at hdw
      cases hx : (jbstrcpy 30 l).2.2 with
      | false => rfl
      | true => rw [hx] at hdw; simp at hdw
    have hts : t = s := by
      rw [word_of_copyres hcr] at h
      exact (Except.ok.inj h).symm
    rw [hts]
    exact S
  · rw [updCopy_keep (Bool.eq_false_iff.2 hdw)]
    refine ⟨?_, S.neat.append hl.neat, S.same, by rw [e1]; exact S.areas, by rw [e2]; exact S.nodes, by rw [e1]; exact S.skipArea, by rw [e2]; exact S.skipNode⟩
    refine S.reads.whole hl.whole ?_
    rw [rdLine_rest hw hc hn hd, ei]
    show rdRest (swap (image c s).cfg.areas (image c s).cfg.nodes s) _ _ = _
    rw [rdRest_swap s _ _ _ _ (image_nodes X g), h]
    rfl

theorem rdNodeLine_node {ps : List Packer} {rest : Str} {n : ConfigNode} (h : rdNodeLine ps rest = .ok n) :
    (jbstrcpy 200 rest).2.2 = true ∧ parse4D (jbstrcpy 200 rest).1 = some n.node := by
  unfold rdNodeLine at h
  obtain ⟨adr, h1, h⟩ := ebind_ok.1 h
  obtain ⟨d, h2, h⟩ := ebind_ok.1 h
  obtain ⟨pk, h3, h⟩ := ebind_ok.1 h
  obtain ⟨p, h4, h⟩ := ebind_ok.1 h
  obtain ⟨pw, h5, h6⟩ := ebind_ok.1 h
  have e : (jbstrcpy 200 rest).2.2 = true ∧ adr = ((jbstrcpy 200 rest).1, (jbstrcpy 200 rest).2.1) := by
    unfold rdArg at h1
    dsimp only at h1
    rcases iteq.1 h1 with ⟨hc, h1⟩ | ⟨-, h1⟩
    · exact ⟨hc, (Except.ok.inj h1).symm⟩
    · cases h1
  obtain ⟨e1, rfl⟩ := e
  refine ⟨e1, ?_⟩
  have hn : n.node = d := efoldlM_inv (P := fun m : ConfigNode => m.node = d) (fun a x b ha hb => by rw [(rdSwitch_same hb).1]; exact ha) _ _ _ rfl h6
  unfold rdNode at h2
  dsimp only at h2
  cases hp : parse4D (jbstrcpy 200 rest).1 with
  | none => rw [hp] at h2; cases h2
  | some k =>
    rw [hp] at h2
    rw [hn, Except.ok.inj h2]

theorem image_withNode (c : Config) (s : RdSt) (N : List ConfigNode) (n : ConfigNode) : image c (withNode s N n) =
    swap (s.cfg.areas.filterMap (areaNow c)) (N.mapIdx (nodeNow c) ++ [nodeNow c N.length n]) s := by
  unfold image withNode swap
  simp only [List.mapIdx_append, List.mapIdx_singleton, Nat.zero_add, List.mapIdx_cons, List.mapIdx_nil]

theorem last_eq {α : Type} {A B : List α} {a b : α} (e : A ++ [a] = B ++ [b]) : B = A ∧ b = a := by
  have := List.append_inj' e rfl
  exact ⟨this.1.symm, by simpa using this.2.symm⟩

theorem sim_node {c : Config} {ini s sf : RdSt} {u u' : Upd} {l : Str} {n : ConfigNode} (S : Sim c ini s u) (X : Ctx c sf)
    (hw : isAreaWord (keyword l) = false) (hc : areaCmdWords.any (eqi (keyword l)) = false) (hn : eqi (keyword l) b!"NODE" = true)
    (h : rdNodeLine s.cfg.packers (jbstrcpy 30 l).2.1 = .ok n)
    (g : Grows (withNode s s.cfg.nodes n) sf) (hl : TextLine l) (ht : (jbstrcpy 100 (jbstrcpy 30 l).2.1).1.length < 99)
    (hk : ∀ m, c.nodes[s.cfg.nodes.length]? = some m → m.packer = n.packer ∨ s.cfg.packers = sf.cfg.packers)
    (hu : updLine u l = .ok u') : Sim c ini (withNode s s.cfg.nodes n) u' := by
  obtain ⟨v, hv, rfl⟩ := updLine_ok hu
  obtain ⟨k1, k2, k3⟩ := node_kw hn
  have hcr := copyres_of_word k3
  have hlim : jbstrcpy 200 (jbstrcpy 30 l).2.1 = jbstrcpy 100 (jbstrcpy 30 l).2.1 := jbstrcpy_limit 100 200 _ (by omega) (by omega)
  obtain ⟨hr, hp⟩ := rdNodeLine_node h
  rw [hlim] at hr hp
  have g0 : Grows s (withNode s s.cfg.nodes n) :=
    ⟨List.prefix_refl _, ⟨[cnodeKey n], by simp [withNode]⟩, List.prefix_refl _, List.prefix_refl _⟩
  have gs := g0.trans g
  -- the node in memory
  obtain ⟨m, hm, hmn⟩ : ∃ m, c.nodes[s.cfg.nodes.length]? = some m ∧ m.node = n.node := by
    have h1 := g.addresses
    rw [← X.nodes] at h1
    obtain ⟨r, hr⟩ := h1
    have h2 : (c.nodes.map (·.node))[s.cfg.nodes.length]? = some n.node := by
      rw [← hr]
      simp [withNode]
    rw [List.getElem?_map] at h2
    cases hm : c.nodes[s.cfg.nodes.length]? with
    | none => rw [hm] at h2; cases h2
    | some m =>
      rw [hm] at h2
      exact ⟨m, rfl, Option.some.inj h2⟩
  have hnow : nodeNow c s.cfg.nodes.length n = if m.changed then unmarkN m else n := by
    unfold nodeNow; rw [hm]
  obtain ⟨q, hq, hqi⟩ := S.nodes _ m hm
  have hqm : q = m.changed := by
    rw [Bool.eq_iff_iff, hqi]
    exact ⟨fun h => h.1, fun h => ⟨h, Nat.le_refl _⟩⟩
  have hfind : (u.cfg.nodes.findIdx? fun x => compare4D n.node x.node == 0) = some s.cfg.nodes.length := by
    have h1 : ∀ L : List ConfigNode, (L.findIdx? fun x => compare4D n.node x.node == 0) = (L.map (·.node)).findIdx? fun k => compare4D n.node k == 0 := by
      intro L; rw [List.findIdx?_map]; rfl
    have h2 : u.cfg.nodes.map (·.node) = c.nodes.map (·.node) := by
      have := congrArg (List.map (·.node)) S.same.nodes
      simpa [List.map_map, Function.comp_def] using this
    rw [h1, h2]
    exact find_address X.ok.addresses (by rw [List.getElem?_map, hm, Option.map_some, hmn])
  unfold updHead at hv
  rw [if_neg (by simp [hw]), if_pos hn] at hv
  unfold updNode at hv
  dsimp only at hv
  rw [if_pos hr, hp] at hv
  dsimp only at hv
  rw [hfind] at hv
  dsimp only at hv
  rw [hq] at hv
  dsimp only at hv
  have hskip : ∀ (b : Bool), (b = true ↔ m.changed = true) → ∀ N x, s.cfg.nodes ++ [n] = N ++ [x] →
      (b = true ↔ ∃ y, c.nodes[N.length]? = some y ∧ y.changed = true) := by
    intro b hb N x e
    obtain ⟨rfl, -⟩ := last_eq e
    rw [hb, hm]
    simp
  rcases iteq.1 hv with ⟨hc', hv⟩ | ⟨hc', hv⟩
  · obtain ⟨txt, htx, hv⟩ := ebind_ok.1 hv
    rw [epure_ok] at hv
    subst hv
    rw [nodeText_same S.same] at htx
    have hmc : m.changed = true := by rw [← hqm]; exact hc'
    rw [updCopy_drop (by unfold dontWrite; simp [k1])]
    obtain ⟨ok, hpo, hro, z⟩ := X.ok.nodes m (List.mem_of_getElem? hm) hmc
    have npk : PackerOk s.cfg.packers m := by
      rcases hk m hm with hmp | hmp
      · intro i hi; exact rdNodeLine_packer h i (hmp ▸ hi)
      · rw [hmp, ← X.packers]; exact hpo
    have ok' : NodeOk (image c s).cfg.packers.length (unmarkN m) := { ok with
      packer := fun i hi => by
        obtain ⟨p, hp, -⟩ := npk i hi
        exact (List.getElem?_eq_some_iff.1 hp).1 }
    have hpb : PackerBack c.packers (image c s).cfg.packers (unmarkN m) := by
      intro i hi
      obtain ⟨p, p1, p2, p3⟩ := npk i hi
      have p4 : c.packers[i]? = some p := by
        obtain ⟨r, hr⟩ := gs.packers
        rw [X.packers, ← hr, List.getElem?_append_left (List.getElem?_eq_some_iff.1 p1).1, p1]
      have := X.names p (List.mem_of_getElem? p4)
      exact ⟨p, p, p4, p1, rfl, p2, this.2, this.1, p3⟩
    have r := reads_node (image c s) c (unmarkN m) (txt := txt) htx ok' hpb hro
    have np : NoNul ((m.packer.bind (c.packers[·]?)).elim [] (·.name)) ∧ 10 ∉ (m.packer.bind (c.packers[·]?)).elim [] (·.name) := by
      cases hx : m.packer.bind (c.packers[·]?) with
      | none => exact ⟨by simp [NoNul], by simp⟩
      | some p =>
        obtain ⟨i, -, hi⟩ := Option.bind_eq_some_iff.1 hx
        have := List.mem_of_getElem? hi
        exact ⟨X.ok.packers p this, (X.names p this).2⟩
    have nt : Neat txt := neat_node (n := unmarkN m) htx ok np z
    have n10 : Neat [10] := Neat.line (l := []) (by decide)
    refine ⟨?_, (S.neat.append nt).append n10, ⟨S.same.akas, S.same.packers, ?_, S.same.areas⟩, S.areas, ?_, S.skipArea, hskip true (by simp [hmc])⟩
    · rw [image_withNode, hnow, if_pos hmc]
      refine (S.reads.append r).whole ⟨[], rfl, by simp⟩ ?_
      rw [rdLine_lf]
      rfl
    · rw [← S.same.nodes]
      apply List.ext_getElem?
      intro j
      simp only [List.getElem?_map, List.getElem?_modify]
      cases hj : u.cfg.nodes[j]? with
      | none => rfl
      | some y => dsimp only [Option.map_some]; split <;> rfl
    · intro j b' hb'
      obtain ⟨x, h1, h2⟩ := S.nodes j b' hb'
      dsimp only
      rw [List.getElem?_modify, h1]
      by_cases hij : s.cfg.nodes.length = j
      · refine ⟨false, by simp [hij], ?_⟩
        simp only [withNode, List.length_append, List.length_cons, List.length_nil, Bool.false_eq_true, false_iff, not_and]
        omega
      · refine ⟨x, by simp [hij], h2.trans ?_⟩
        simp only [withNode, List.length_append, List.length_cons, List.length_nil]
        refine and_congr_right fun _ => ?_
        omega
  · obtain rfl := Except.ok.inj hv
    have hmc : m.changed = false := by rw [← hqm]; exact Bool.eq_false_iff.2 hc'
    rw [updCopy_keep (by unfold dontWrite; simp [k2, hcr])]
    refine ⟨?_, S.neat.append hl.neat, S.same, S.areas, ?_, S.skipArea, hskip false (by simp [hmc])⟩
    · rw [image_withNode, hnow, if_neg (by simp [hmc])]
      exact S.reads.whole hl.whole (rdLine_node hw hc hn h)
    · intro j b' hb'
      obtain ⟨x, h1, h2⟩ := S.nodes j b' hb'
      refine ⟨x, h1, h2.trans ?_⟩
      simp only [withNode, List.length_append, List.length_cons, List.length_nil]
      constructor
      · rintro ⟨p, q⟩
        refine ⟨p, ?_⟩
        rcases Nat.lt_or_ge s.cfg.nodes.length j with hj | hj
        · omega
        · have : j = s.cfg.nodes.length := by omega
          subst this
          rw [hm] at hb'
          rw [← Option.some.inj hb', hmc] at p
          cases p
      · rintro ⟨p, q⟩
        exact ⟨p, by omega⟩

theorem sim_nodeCmd {c : Config} {ini s : RdSt} {u u' : Upd} {l : Str} {N : List ConfigNode} {m n : ConfigNode} (S : Sim c ini s u)
    (hw : isAreaWord (keyword l) = false) (hc : areaCmdWords.any (eqi (keyword l)) = false)
    (hn : eqi (keyword l) b!"NODE" = false) (hd : nodeCmdWords.any (eqi (keyword l)) = true) (hN : s.cfg.nodes = N ++ [m])
    (h : rdNodeCmd (keyword l) (jbstrcpy 30 l).2.1 m = .ok n) (hl : TextLine l) (hu : updLine u l = .ok u') :
    Sim c ini (withNode s N n) u' := by
  obtain ⟨v, hv, rfl⟩ := updLine_ok hu
  obtain ⟨k1, k2, k3⟩ := nodeCmd_kw hd
  rw [updHead_other hw hn] at hv
  obtain rfl := Except.ok.inj hv
  have hcr := copyres_of_word k3
  have hsk := S.skipNode N m hN
  have hnodes : ∀ (i : Nat) d, c.nodes[i]? = some d → ∃ x, u.cfg.nodes[i]? = some { d with changed := x } ∧
      (x = true ↔ d.changed = true ∧ (N ++ [n]).length ≤ i) := by
    intro i d hd
    obtain ⟨x, h1, h2⟩ := S.nodes i d hd
    refine ⟨x, h1, ?_⟩
    rw [hN] at h2
    simpa using h2
  have hskip : ∀ B x, N ++ [n] = B ++ [x] → (u.skipNode = true ↔ ∃ y, c.nodes[B.length]? = some y ∧ y.changed = true) := by
    intro B x e
    obtain ⟨rfl, -⟩ := last_eq e
    exact hsk
  have e0 : image c s = withNode (image c s) (N.mapIdx (nodeNow c)) (nodeNow c N.length m) := by
    have : s = withNode s N m := by
      unfold withNode; rw [← hN]
    conv => lhs; rw [this, image_withNode]
    rfl
  by_cases hg : ∃ y, c.nodes[N.length]? = some y ∧ y.changed = true
  · rw [updCopy_drop (by unfold dontWrite; simp [hsk.2 hg, k1])]
    refine ⟨?_, S.neat, S.same, S.areas, hnodes, S.skipArea, hskip⟩
    obtain ⟨y, hy, hyc⟩ := hg
    have e : image c (withNode s N n) = image c s := by
      rw [e0, image_withNode]
      have : nodeNow c N.length n = nodeNow c N.length m := by
        unfold nodeNow; rw [hy]; simp [hyc]
      rw [this]
      rfl
    rw [e]
    exact S.reads
  · have hsf : u.skipNode = false := by
      rw [Bool.eq_false_iff]; exact fun hx => hg (hsk.1 hx)
    have same : ∀ x, nodeNow c N.length x = x := by
      intro x
      unfold nodeNow
      cases hy : c.nodes[N.length]? with
      | none => rfl
      | some y =>
        have : ¬ y.changed = true := fun e => hg ⟨y, hy, e⟩
        simp [this]
    rw [updCopy_keep (by unfold dontWrite; simp [hsf, k2, hcr])]
    refine ⟨?_, S.neat.append hl.neat, S.same, S.areas, hnodes, S.skipArea, hskip⟩
    refine S.reads.whole hl.whole ?_
    rw [image_withNode, same]
    rw [same] at e0
    conv => lhs; rw [e0]
    exact rdLine_nodeCmd (ok := (jbstrcpy 30 l).2.2) (w := keyword l) (rest := (jbstrcpy 30 l).2.1) rfl hw hc hn hd h

end CM
