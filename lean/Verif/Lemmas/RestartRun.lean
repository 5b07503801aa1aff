import Verif.Lemmas.RestartStep
import Verif.Props.ReadBack
/-! # All lines of the old file, and the new areas -/
set_option linter.unusedSimpArgs false

namespace CM

theorem eqi_same_self (x : Str) : eqi x x = true := (eqi_iff x x).2 rfl

theorem isAreaWord_line {l : Str} (h : isAreaWord (keyword l) = true) : AreaLine l := by
  simpa [isAreaWord, AreaLine, Bool.or_eq_true, or_assoc] using h

theorem word_short {n : Nat} {s : Str} {w : Nat} (hw : 0 < w) (h : (jbstrcpy n s).2.2 = true → (jbstrcpy n s).1.length < w) : (jbstrcpy n s).1.length < w := by
  cases hf : (jbstrcpy n s).2.2 with
  | true => exact h hf
  | false =>
    have : (jbstrcpy n s).1 = [] := by
      unfold jbstrcpy at hf ⊢
      dsimp only at hf ⊢
      rw [Bool.or_eq_false_iff] at hf
      simpa using hf.1
    rw [this]; exact hw

theorem argument_found {l : Str} (h : (jbstrcpy 100 (jbstrcpy 30 l).2.1).2.2 = true) : argument l = some (jbstrcpy 100 (jbstrcpy 30 l).2.1).1 := by
  unfold argument; rw [if_pos h]

theorem sim_step {c : Config} {ini s t sf : RdSt} {u u' : Upd} {l : Str} {pre post ls : List Str} (S : Sim c ini s u) (X : Ctx c sf)
    (h : rdLine s l = .ok t) (hg : rdLines t post = .ok sf) (hl : TextLine l) (F : LinesFit sf.cfg c ls) (hls : ls = pre ++ l :: post)
    (hn : s.cfg.nodes.length = nodeLines pre) (hu : updLine u l = .ok u') : Sim c ini t u' := by
  have g := rdLines_grows hg
  have gs := (rdLine_grows h).trans g
  have hml : l ∈ ls := by rw [hls]; simp
  have hcase := rdLine_cases h
  clear h
  rcases hcase with ⟨a, hw, h, rfl⟩ | ⟨A, a, b, hw, hc, hA, h, rfl⟩ | ⟨n, hw, hc, hx, h, rfl⟩ | ⟨N, m, n, hw, hc, hx, hd, hN, h, rfl⟩ |
    ⟨hw, hc, hx, hd, h⟩
  · have hal := isAreaWord_line hw
    have hr : (jbstrcpy 80 (jbstrcpy 30 l).2.1).2.2 = true ∧ a.tag = (jbstrcpy 80 (jbstrcpy 30 l).2.1).1 := by
      rcases rdArea_tag h with ⟨h1, h2, -⟩ | ⟨h1, h2, -⟩ <;> exact ⟨h1, h2⟩
    have ht : (jbstrcpy 100 (jbstrcpy 30 l).2.1).1.length < 80 :=
      word_short (by omega) fun hf => F.tags l hml hal _ (argument_found hf)
    have hlim : jbstrcpy 80 (jbstrcpy 30 l).2.1 = jbstrcpy 100 (jbstrcpy 30 l).2.1 := jbstrcpy_limit 100 80 _ (by omega) (by omega)
    have hg := argument_found (by rw [← hlim]; exact hr.1)
    refine sim_area S X hw h g hl ht ?_ hu
    intro b hb e hbc
    rw [hn]
    exact F.links pre l post _ b hls hal hg hb (by rw [← hlim, ← hr.2]; exact e) hbc
  · exact sim_areaCmd S X gs hw hc hA h hl hu
  · refine sim_node S X hw hc hx h g hl (word_short (by omega) fun hf => F.addresses l hml hx _ (argument_found hf)) ?_ hu
    intro m hm
    obtain ⟨k, hk, hkp⟩ : ∃ k, sf.cfg.nodes[nodeLines pre]? = some k ∧ k.packer = n.packer := by
      obtain ⟨r, hr⟩ := g.nodes
      have h2 : (sf.cfg.nodes.map cnodeKey)[nodeLines pre]? = some (cnodeKey n) := by
        rw [← hr, ← hn]
        simp [withNode]
      rw [List.getElem?_map] at h2
      obtain ⟨k, hk, e⟩ := Option.map_eq_some_iff.1 h2
      exact ⟨k, hk, congrArg Prod.snd e⟩
    by_cases e : m.packer = k.packer
    · exact .inl (e.trans hkp)
    · rw [hn] at hm
      exact .inr (rdLines_packers (F.packers pre l post k m hls hx hk hm e) hg).symm
  · exact sim_nodeCmd S hw hc hx hd hN h hl hu
  · exact sim_rest S X gs hw hc hx hd h hl hu

theorem rdLine_count {s t : RdSt} {l : Str} (h : rdLine s l = .ok t) (k : Nat) (hk : s.cfg.nodes.length = k) :
    t.cfg.nodes.length = k + nodeLines [l] := by
  have e : nodeLines [l] = if eqi (keyword l) b!"NODE" = true then 1 else 0 := by
    unfold nodeLines
    rw [List.countP_singleton]
  rw [e]
  rcases rdLine_cases h with ⟨a, hw, h, rfl⟩ | ⟨A, a, b, hw, hc, hA, h, rfl⟩ | ⟨n, hw, hc, hx, h, rfl⟩ | ⟨N, m, n, hw, hc, hx, hd, hN, h, rfl⟩ |
    ⟨hw, hc, hx, hd, h⟩
  · rw [(areaWord_kw hw).2.1]; simpa [withArea] using hk
  · have : eqi (keyword l) b!"NODE" = false := by
      have k1 := (areaCmd_kw hc).1
      rw [List.any_eq_false] at k1
      exact Bool.eq_false_iff.2 (k1 _ (by decide))
    rw [this]; simpa [withArea] using hk
  · rw [if_pos hx]; simpa [withNode] using hk
  · rw [hx]
    rw [hN] at hk
    simpa [withNode] using hk
  · rw [hx, (rdRest_apart s _ _ t h).2.1]
    simpa using hk

/-- What is marked can be written. -/
theorem areaText_total {c d : Config} (W : Writable c) (hs : SameMarks c d) {b : Area} (hb : b ∈ c.areas) (hc : b.changed = true) (m : Bool) :
    ∃ x, areaText d { b with changed := m } = .ok x := by
  rw [areaText_same hs, ← areaText_same (c := c) (d := c) ⟨rfl, rfl, rfl, rfl⟩ b false]
  exact area_written c (unmarkA b) (W.areas b hb hc).1

theorem nodeText_total {c d : Config} {sf : RdSt} (X : Ctx c sf) (hs : SameMarks c d) {b : ConfigNode} (hb : b ∈ c.nodes) (hc : b.changed = true)
    (m : Bool) : ∃ x, nodeText d { b with changed := m } = .ok x := by
  rw [nodeText_same hs]
  exact node_written c b (X.ok.nodes b hb hc).1 fun p hp => (X.names p hp).1

theorem updLine_total {c : Config} {ini s sf : RdSt} {u : Upd} (S : Sim c ini s u) (X : Ctx c sf) (l : Str) : ∃ u', updLine u l = .ok u' := by
  have hla : u.cfg.areas.length = c.areas.length := by simpa using congrArg List.length S.same.areas
  have hln : u.cfg.nodes.length = c.nodes.length := by simpa using congrArg List.length S.same.nodes
  have ha : ∀ rest, ∃ v, updArea u rest = .ok v := by
    intro rest
    unfold updArea
    dsimp only
    split
    · split
      · exact ⟨_, rfl⟩
      · rename_i i hi
        obtain ⟨hlt, -⟩ := List.findIdx?_eq_some_iff_getElem.1 hi
        obtain ⟨m, h1, h2⟩ := S.areas i c.areas[i] (List.getElem?_eq_getElem (by omega))
        rw [h1]
        dsimp only
        split
        · rename_i hm
          obtain ⟨x, hx⟩ := areaText_total X.ok S.same (List.getElem_mem (by omega : i < c.areas.length)) (h2.1 hm).1 m
          exact ⟨_, ebind_ok.2 ⟨x, hx, rfl⟩⟩
        · exact ⟨_, rfl⟩
    · exact ⟨_, rfl⟩
  have hn : ∀ rest, ∃ v, updNode u rest = .ok v := by
    intro rest
    unfold updNode
    dsimp only
    split
    · split
      · exact ⟨_, rfl⟩
      · split
        · exact ⟨_, rfl⟩
        · rename_i i hi
          obtain ⟨hlt, -⟩ := List.findIdx?_eq_some_iff_getElem.1 hi
          obtain ⟨m, h1, h2⟩ := S.nodes i c.nodes[i] (List.getElem?_eq_getElem (by omega))
          rw [h1]
          dsimp only
          split
          · rename_i hm
            obtain ⟨x, hx⟩ := nodeText_total X S.same (List.getElem_mem (by omega : i < c.nodes.length)) (h2.1 hm).1 m
            exact ⟨_, ebind_ok.2 ⟨x, hx, rfl⟩⟩
          · exact ⟨_, rfl⟩
    · exact ⟨_, rfl⟩
  have hh : ∃ v, updHead u (jbstrcpy 30 l).1 (jbstrcpy 30 l).2.1 = .ok v := by
    unfold updHead
    split
    · exact ha _
    · split
      · exact hn _
      · exact ⟨_, rfl⟩
  obtain ⟨v, hv⟩ := hh
  exact ⟨_, ebind_ok.2 ⟨v, hv, rfl⟩⟩

theorem sim_lines {c : Config} {ini sf : RdSt} (X : Ctx c sf) {ls : List Str} (F : LinesFit sf.cfg c ls) (ht : ∀ l ∈ ls, TextLine l) :
    ∀ (post pre : List Str) (s : RdSt) (u : Upd), ls = pre ++ post → Sim c ini s u → s.cfg.nodes.length = nodeLines pre →
    rdLines s post = .ok sf → ∃ u', post.foldlM updLine u = .ok u' ∧ Sim c ini sf u' := by
  intro post
  induction post with
  | nil =>
    intro pre s u _ S _ h
    cases h
    exact ⟨u, rfl, S⟩
  | cons l post ih =>
    intro pre s u hls S hn h
    obtain ⟨t, h1, h2⟩ := rdLines_cons h
    obtain ⟨v, hv⟩ := updLine_total S X l
    rw [List.foldlM_cons, hv]
    refine ih (pre ++ [l]) t v (by rw [hls]; simp) ?_ ?_ h2
    · exact sim_step S X h1 h2 (ht l (by rw [hls]; simp)) F hls hn hv
    · rw [rdLine_count h1 _ hn]
      unfold nodeLines
      rw [List.countP_append]

/-! ## The areas and nodes in the end -/

theorem AreasNow.tag {as bs : List Area} (h : AreasNow as bs) : ∀ b ∈ bs, ∃ a ∈ as, b.tag = a.tag := by
  induction h with
  | nil => simp
  | same a _ ih =>
    intro b hb
    rcases List.mem_cons.1 hb with rfl | hb
    · exact ⟨b, by simp, rfl⟩
    · obtain ⟨x, hx, e⟩ := ih b hb
      exact ⟨x, by simp [hx], e⟩
  | changed a b' ht hk hc hl _ ih =>
    intro b hb
    rcases List.mem_cons.1 hb with rfl | hb
    · exact ⟨a, by simp, ht⟩
    · obtain ⟨x, hx, e⟩ := ih b hb
      exact ⟨x, by simp [hx], e⟩
  | removed a hl _ ih =>
    intro b hb
    obtain ⟨x, hx, e⟩ := ih b hb
    exact ⟨x, by simp [hx], e⟩

theorem AreasNow.distinct {as bs : List Area} (h : AreasNow as bs) {cs : List Area} (hd : DistinctTags (as ++ cs)) : DistinctTags (bs ++ cs) := by
  unfold DistinctTags at hd ⊢
  have key : ∀ {as bs : List Area} {b : Str}, AreasNow as bs → (∀ x ∈ as ++ cs, eqi b x.tag = false) → ∀ x ∈ bs ++ cs, eqi b x.tag = false := by
    intro as bs b h hx x hm
    rcases List.mem_append.1 hm with hm | hm
    · obtain ⟨y, hy, e⟩ := h.tag x hm
      rw [e]; exact hx y (List.mem_append_left _ hy)
    · exact hx x (List.mem_append_right _ hm)
  induction h with
  | nil => exact hd
  | same a h ih =>
    rw [List.cons_append, List.pairwise_cons] at hd ⊢
    exact ⟨key h hd.1, ih hd.2⟩
  | changed a b ht hk hc hl h ih =>
    rw [List.cons_append, List.pairwise_cons] at hd ⊢
    rw [ht]
    exact ⟨key h hd.1, ih hd.2⟩
  | removed a hl h ih =>
    rw [List.cons_append, List.pairwise_cons] at hd
    exact ih hd.2

theorem find_mid {α : Type} {p : α → Bool} {pre post : List α} {b : α} (h : ∀ x ∈ pre, p x = false) (hb : p b = true) :
    (pre ++ b :: post).find? p = some b := by
  rw [List.find?_append, List.find?_eq_none.2 (by simpa using h), List.find?_cons_of_pos hb]
  rfl

theorem areas_now {c : Config} {as bs : List Area} (h : AreasNow as bs) (added : List Area) (hm : ∀ a ∈ as, a.changed = false) :
    ∀ pre, c.areas = pre ++ (bs ++ added) → (∀ p ∈ pre, ∀ a ∈ as, eqi a.tag p.tag = false) → DistinctTags (as ++ added) →
    as.filterMap (areaNow c) = bs.map unmarkA := by
  induction h with
  | nil => intros; rfl
  | @same a as bs h ih =>
    intro pre hc hp hd
    have hf : c.areas.find? (fun b => eqi a.tag b.tag) = some a := by
      rw [hc, List.cons_append]
      exact find_mid (fun x hx => hp x hx a (by simp)) (eqi_same_self _)
    have e : areaNow c a = some (unmarkA a) := by
      have hx := hm a (by simp)
      unfold areaNow
      rw [hf]
      cases a
      cases hx
      rfl
    rw [List.filterMap_cons_some e, List.map_cons]
    congr 1
    have hd' := List.pairwise_cons.1 (show List.Pairwise _ (a :: (as ++ added)) from hd)
    refine ih (fun x hx => hm x (by simp [hx])) (pre ++ [a]) (by rw [hc]; simp) ?_ hd'.2
    intro p hpm x hx
    rcases List.mem_append.1 hpm with hpm | hpm
    · exact hp p hpm x (by simp [hx])
    · rw [List.mem_singleton.1 hpm, eqi_comm]
      exact hd'.1 x (by simp [hx])
  | @changed a b as bs ht hk hb hl h ih =>
    intro pre hc hp hd
    have hf : c.areas.find? (fun b => eqi a.tag b.tag) = some b := by
      rw [hc, List.cons_append]
      exact find_mid (fun x hx => hp x hx a (by simp)) (by rw [ht]; exact eqi_same_self _)
    have e : areaNow c a = some (unmarkA b) := by
      unfold areaNow
      rw [hf]
      simp [hb]
    rw [List.filterMap_cons_some e, List.map_cons]
    congr 1
    have hd' := List.pairwise_cons.1 (show List.Pairwise _ (a :: (as ++ added)) from hd)
    refine ih (fun x hx => hm x (by simp [hx])) (pre ++ [b]) (by rw [hc]; simp) ?_ hd'.2
    intro p hpm x hx
    rcases List.mem_append.1 hpm with hpm | hpm
    · exact hp p hpm x (by simp [hx])
    · rw [List.mem_singleton.1 hpm, ht, eqi_comm]
      exact hd'.1 x (by simp [hx])
  | @removed a as bs hl h ih =>
    intro pre hc hp hd
    have hd' := List.pairwise_cons.1 (show List.Pairwise _ (a :: (as ++ added)) from hd)
    have e : areaNow c a = none := by
      unfold areaNow
      have : c.areas.find? (fun b => eqi a.tag b.tag) = none := by
        rw [List.find?_eq_none, hc]
        intro x hx
        rw [Bool.not_eq_true]
        rcases List.mem_append.1 hx with hx | hx
        · exact hp x hx a (by simp)
        · rcases List.mem_append.1 hx with hx | hx
          · obtain ⟨y, hy, e⟩ := h.tag x hx
            rw [e]; exact hd'.1 y (by simp [hy])
          · exact hd'.1 x (by simp [hx])
      rw [this]
    rw [List.filterMap_cons_none e]
    exact ih (fun x hx => hm x (by simp [hx])) pre hc (fun p hpm x hx => hp p hpm x (by simp [hx])) hd'.2

theorem nodes_now {c : Config} {old : List ConfigNode} (hc : c.nodes.length = old.length)
    (h : ∀ (i : Nat) n m, old[i]? = some n → c.nodes[i]? = some m → m.node = n.node ∧ (m.changed = false → unmarkN m = n)) :
    old.mapIdx (nodeNow c) = c.nodes.map unmarkN := by
  apply List.ext_getElem?
  intro i
  rw [List.getElem?_mapIdx, List.getElem?_map]
  rcases Nat.lt_or_ge i old.length with hi | hi
  · have h1 : old[i]? = some old[i] := List.getElem?_eq_getElem hi
    have h2 : c.nodes[i]? = some c.nodes[i] := List.getElem?_eq_getElem (by omega)
    rw [h1, h2, Option.map_some, Option.map_some]
    unfold nodeNow
    rw [h2]
    dsimp only
    split
    · rfl
    · rename_i hx
      rw [(h i _ _ h1 h2).2 (by simpa using hx)]
  · rw [List.getElem?_eq_none hi, List.getElem?_eq_none (by omega)]
    rfl

/-! ## The areas written at the end -/

theorem updNew_cons {d : Config} {a : Area} {r : List Area} {x : Str} : updNew d (a :: r) = .ok x ↔
    ∃ t w, (if a.changed then ∃ y, areaText d a = .ok y ∧ t = [10] ++ y else t = []) ∧ updNew d r = .ok w ∧ x = t ++ w := by
  rw [updNew]
  cases hc : a.changed with
  | true =>
    simp only [if_true]
    constructor
    · intro h
      obtain ⟨y, h1, h⟩ := ebind_ok.1 h
      obtain ⟨w, h2, h⟩ := ebind_ok.1 h
      obtain ⟨z, h3, h⟩ := ebind_ok.1 h
      rw [epure_ok] at h h2
      exact ⟨w, z, ⟨y, h1, h2.symm⟩, h3, h.symm⟩
    · rintro ⟨t, w, ⟨y, h1, rfl⟩, h2, rfl⟩
      exact ebind_ok.2 ⟨y, h1, ebind_ok.2 ⟨_, rfl, ebind_ok.2 ⟨w, h2, rfl⟩⟩⟩
  | false =>
    simp only [Bool.false_eq_true, if_false]
    constructor
    · intro h
      obtain ⟨w, h2, h⟩ := ebind_ok.1 h
      obtain ⟨z, h3, h⟩ := ebind_ok.1 h
      rw [epure_ok] at h h2
      exact ⟨w, z, h2.symm, h3, h.symm⟩
    · rintro ⟨t, w, rfl, h2, rfl⟩
      exact ebind_ok.2 ⟨_, rfl, ebind_ok.2 ⟨_, h2, rfl⟩⟩

theorem updNew_append {d : Config} {x : Str} : ∀ {p q : List Area}, updNew d (p ++ q) = .ok x → ∃ y z, updNew d p = .ok y ∧ updNew d q = .ok z ∧ x = y ++ z := by
  intro p q h
  induction p generalizing x with
  | nil => exact ⟨[], x, rfl, h, rfl⟩
  | cons a p ih =>
    rw [List.cons_append] at h
    obtain ⟨t, w, h1, h2, rfl⟩ := updNew_cons.1 h
    obtain ⟨y, z, h3, h4, rfl⟩ := ih h2
    exact ⟨t ++ y, z, updNew_cons.2 ⟨t, y, h1, h3, rfl⟩, h4, by rw [List.append_assoc]⟩

theorem updNew_none {d : Config} {p : List Area} {x : Str} (h : ∀ a ∈ p, a.changed = false) (hx : updNew d p = .ok x) : x = [] := by
  induction p generalizing x with
  | nil => cases hx; rfl
  | cons a p ih =>
    obtain ⟨t, w, h1, h2, rfl⟩ := updNew_cons.1 hx
    rw [if_neg (by simp [h a (by simp)])] at h1
    rw [h1, ih (fun b hb => h b (by simp [hb])) h2]
    rfl

theorem updNew_total {d : Config} : ∀ {p : List Area}, (∀ a ∈ p, a.changed = true → ∃ x, areaText d a = .ok x) → ∃ x, updNew d p = .ok x := by
  intro p
  induction p with
  | nil => intro _; exact ⟨[], rfl⟩
  | cons a p ih =>
    intro h
    obtain ⟨w, hw⟩ := ih fun b hb => h b (by simp [hb])
    by_cases hc : a.changed = true
    · obtain ⟨y, hy⟩ := h a (by simp) hc
      exact ⟨_, updNew_cons.2 ⟨_, w, by rw [if_pos hc]; exact ⟨y, hy, rfl⟩, hw, rfl⟩⟩
    · exact ⟨_, updNew_cons.2 ⟨[], w, by rw [if_neg hc], hw, rfl⟩⟩

/-- The new areas are read one after the other. -/
theorem reads_new {c d : Config} (hs : SameMarks c d) (W : Writable c) : ∀ (added : List Area) (s : RdSt) (x : Str),
    (∀ a ∈ added, a ∈ c.areas ∧ a.changed = true) → s.cfg.akas.map (·.node) = c.akas.map (·.node) → s.cfg.nodes.map (·.node) = c.nodes.map (·.node) →
    updNew d added = .ok x → Reads s x (swap (s.cfg.areas ++ added.map unmarkA) s.cfg.nodes s) ∧ Neat x := by
  intro added
  induction added with
  | nil =>
    intro s x _ _ _ h
    cases h
    refine ⟨?_, .nil⟩
    have : swap (s.cfg.areas ++ List.map unmarkA []) s.cfg.nodes s = s := by
      rw [List.map_nil, List.append_nil]; rfl
    rw [this]
    exact .nil s
  | cons a r ih =>
    intro s x hm hk hn h
    obtain ⟨t, w, h1, h2, rfl⟩ := updNew_cons.1 h
    obtain ⟨ha, hc⟩ := hm a (by simp)
    rw [if_pos hc] at h1
    obtain ⟨txt, h3, rfl⟩ := h1
    have h3' : areaText c (unmarkA a) = .ok txt := by
      have e := areaText_same hs a a.changed
      have : { a with changed := a.changed } = a := rfl
      rw [this] at e
      rw [e] at h3
      rw [← areaText_same (c := c) (d := c) ⟨rfl, rfl, rfl, rfl⟩ a false] at h3
      exact h3
    obtain ⟨ok, hnm, z⟩ := W.areas a ha hc
    have hl1 : s.cfg.akas.length = c.akas.length := by simpa using congrArg List.length hk
    have hl2 : s.cfg.nodes.length = c.nodes.length := by simpa using congrArg List.length hn
    have r1 := reads_area s c (unmarkA a) h3' (by rw [hl1, hl2]; exact ok) hnm (by rw [hk]; exact W.akas) (by rw [hk]; exact List.prefix_refl _)
      (by rw [hn]; exact W.addresses) (by rw [hn]; exact List.prefix_refl _)
    obtain ⟨r2, n2⟩ := ih (withArea s s.cfg.areas (unmarkA a)) w (fun b hb => hm b (by simp [hb])) hk hn h2
    have r0 : Reads s [10] s := Reads.line (l := []) (by simp) (rdLine_lf s)
    refine ⟨?_, ?_⟩
    · have := (r0.append r1).append r2
      have e : swap (s.cfg.areas ++ (a :: r).map unmarkA) s.cfg.nodes s =
          swap ((withArea s s.cfg.areas (unmarkA a)).cfg.areas ++ r.map unmarkA) (withArea s s.cfg.areas (unmarkA a)).cfg.nodes (withArea s s.cfg.areas (unmarkA a)) := by
        simp [swap, withArea]
      rw [e]
      exact this
    · have n10 : Neat [10] := Neat.line (l := []) (by decide)
      exact (n10.append (neat_area h3' ok.group ok.oneLine z)).append n2

end CM
