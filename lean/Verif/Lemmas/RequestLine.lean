import Verif.Lemmas.RequestArea
/-! # Requests: a line that names areas -/

set_option linter.unusedSimpArgs false
namespace CM

theorem enqueue_get {ns : List ConfigNode} {ci : Nat} {cn : ConfigNode} (h : ns[ci]? = some cn) (q : List (Nat × Str)) :
    ∃ x, (enqueue ns q)[ci]? = some { cn with remoteAF := x } := by
  induction q generalizing ns cn with
  | nil => exact ⟨_, h⟩
  | cons e q ih =>
    have h1 : ∃ x, (ns.modify e.1 fun n => { n with remoteAF := n.remoteAF ++ [e.2] })[ci]? = some { cn with remoteAF := x } := by
      rw [List.getElem?_modify, h]
      by_cases hj : e.1 = ci
      · exact ⟨cn.remoteAF ++ [e.2], by simp [hj]⟩
      · exact ⟨cn.remoteAF, by simp [hj]⟩
    obtain ⟨x, h1⟩ := h1
    obtain ⟨y, h2⟩ := ih h1
    exact ⟨y, h2⟩

/-- The configuration after the first `i` areas. -/
def midway (c : Config) (ci : Nat) (cn : ConfigNode) (w : Wish) (pat : Str) (i : Nat) : Config :=
  { c with
    areas := (c.areas.take i).map (fun a => (verdict c ci cn w pat a).mid ci a) ++ c.areas.drop i
    nodes := enqueue c.nodes ((c.areas.take i).flatMap fun a => (verdict c ci cn w pat a).tells ci a)
    changed := c.changed || (c.areas.take i).any fun a => (verdict c ci cn w pat a).acts }

/-- What the loop does from area `i` on. -/
structure LoopRun (env : Env) (self : MemMsg → M Unit) (c : Config) (ci : Nat) (cn : ConfigNode) (w : Wish) (line pat : Str) (i : Nat)
    (L : AfLoop) (s : HSt) (L' : AfLoop) (t : HSt) : Prop where
  cfg : t.cfg = midway c ci cn w pat c.areas.length
  told : Replied env self L.r s ((c.areas.drop i).flatMap fun a => (verdict c ci cn w pat a).say line pat a.tag) L'.r t
  done : L'.done = (L.done || (c.areas.drop i).any fun a => (verdict c ci cn w pat a).settles pat)
  found : L'.found = (L.found || (c.areas.drop i).any fun a => decide (a.type = .echomail ∧ TagFits pat a.tag))
  rescan : (L'.rescan = L.rescan ∧ ∀ (j : Nat) (a : Area), i ≤ j → c.areas[j]? = some a →
      ¬ ((verdict c ci cn w pat a).rescans = true ∧ (w = .join ∨ ¬ Wild pat))) ∨
    ∃ (j : Nat) (a : Area), i ≤ j ∧ c.areas[j]? = some a ∧ L'.rescan = some j ∧
      ((verdict c ci cn w pat a).rescans = true ∧ (w = .join ∨ ¬ Wild pat)) ∧
      ∀ (k : Nat) (a : Area), j < k → c.areas[k]? = some a → (verdict c ci cn w pat a).rescans = false

section
variable {self : MemMsg → M Unit} (hs : Settled self) {env : Env}
include hs

theorem afAreas_run {c : Config} {ci : Nat} {cn : ConfigNode} {w : Wish} {line pat : Str} (hn : c.nodes[ci]? = some cn)
    {k i : Nat} (hk : i + k = c.areas.length) {L L' : AfLoop} {s t : HSt} (g : L.r.Gen)
    (hc : s.cfg = midway c ci cn w pat i)
    (h : afAreas env self ci w.cmd line pat (osIsPattern pat) k i L s = .ok L' t) :
    LoopRun env self c ci cn w line pat i L s L' t := by
  induction k generalizing i L s with
  | zero =>
    cases h
    have hi : i = c.areas.length := by omega
    subst hi
    refine ⟨hc, by rw [List.drop_length]; exact .nil, by simp, by simp, .inl ⟨rfl, fun j a hj ha => ?_⟩⟩
    rw [List.getElem?_eq_none hj] at ha
    cases ha
  | succ k ih =>
    rw [afAreas, bind_ok] at h
    obtain ⟨L1, u, h1, h⟩ := h
    have hi : i < c.areas.length := by omega
    obtain ⟨a, ha⟩ : ∃ a, c.areas[i]? = some a := ⟨_, List.getElem?_eq_getElem hi⟩
    have hd : c.areas.drop i = a :: c.areas.drop (i + 1) := by
      rw [List.drop_eq_getElem_cons hi]
      rw [List.getElem?_eq_getElem hi] at ha
      cases ha; rfl
    have ht : c.areas.take (i + 1) = c.areas.take i ++ [a] := by
      rw [List.take_succ, ha]; rfl
    obtain ⟨x, hx⟩ := enqueue_get hn ((c.areas.take i).flatMap fun a => (verdict c ci cn w pat a).tells ci a)
    have hlen : ((c.areas.take i).map (fun a => (verdict c ci cn w pat a).mid ci a)).length = i := by
      rw [List.length_map, List.length_take]; omega
    have hsa : s.cfg.areas[i]? = some a := by
      rw [hc]
      unfold midway
      dsimp only
      rw [List.getElem?_append_right (by omega), hlen, hd, Nat.sub_self]
      rfl
    have hsn : s.cfg.nodes[ci]? = some { cn with remoteAF := x } := by rw [hc]; exact hx
    have st := afArea_step hs g hsa hsn h1
    have hv : ∀ b, verdict s.cfg ci { cn with remoteAF := x } w pat b = verdict c ci cn w pat b :=
      fun b => verdict_congr (by rw [hc]; rfl) rfl rfl ci w pat b
    obtain ⟨e1, e2, e3, e4, e5⟩ := st
    simp only [hv] at e1 e2 e3 e4 e5
    have hu : u.cfg = midway c ci cn w pat (i + 1) := by
      rw [e2, hc]
      unfold midway
      dsimp only
      rw [hd, modify_at _ _ _ _ hlen, ht]
      simp [enqueue_append, Bool.or_assoc]
    obtain ⟨q1, q2, q3, q4, q5⟩ := ih (by omega) (e1.gen g) hu h
    refine ⟨q1, ?_, ?_, ?_, ?_⟩
    · rw [hd, List.flatMap_cons]; exact e1.trans q2
    · rw [q3, e3, hd, List.any_cons, Bool.or_assoc]
    · rw [q4, e4, hd, List.any_cons, Bool.or_assoc]
    · rcases q5 with ⟨r1, r2⟩ | ⟨j, b, r1, r2, r3, r4, r5⟩
      · by_cases hr : (verdict c ci cn w pat a).rescans = true ∧ (w = .join ∨ ¬ Wild pat)
        · rw [if_pos hr] at e5
          refine .inr ⟨i, a, Nat.le_refl _, ha, r1.trans e5, hr, fun j b hj hb => ?_⟩
          have := r2 j b hj hb
          cases hcase : (verdict c ci cn w pat b).rescans
          · rfl
          · exact absurd ⟨hcase, hr.2⟩ this
        · rw [if_neg hr] at e5
          refine .inl ⟨r1.trans e5, fun j b hj hb => ?_⟩
          by_cases hji : j = i
          · subst hji; rw [ha] at hb; cases hb; exact hr
          · exact r2 j b (by omega) hb
      · exact .inr ⟨j, b, by omega, r2, r3, r4, r5⟩

theorem told_remark {r r' : AfReply} {l : Str} {s t : HSt} (g : r.Gen)
    (h : afAddLine env self r (padR 30 [] ++ 32 :: l) s = .ok r' t) : t.cfg = s.cfg ∧ Replied env self r s [remark l] r' t := by
  have e : padR 30 [] ++ 32 :: l = remark l := rfl
  rw [e] at h
  exact told_line hs g h

theorem afRescan_run {c : Config} {ci : Nat} {cn : ConfigNode} {w : Wish} {pat : Str} {i : Nat} {num : UInt32} {r r' : AfReply}
    {s t : HSt} (g : r.Gen) (hc : s.cfg = midway c ci cn w pat c.areas.length)
    (h : afRescan env self ci i num r s = .ok r' t) :
    t.cfg = s.cfg ∧ ∃ ls, Rescanned env c i num ls ∧ Replied env self r s ls r' t := by
  have hf : ∀ m, s.cfg.has m = c.has m := by intro m; unfold Config.has; rw [hc]; rfl
  unfold afRescan at h
  rw [get_bind] at h
  by_cases hr : s.cfg.has CFG_ALLOWRESCAN = true
  · rw [if_pos hr] at h
    rw [hf] at hr
    cases ha : s.cfg.areas[i]? with
    | none => rw [ha] at h; cases h
    | some a' =>
      cases hn : s.cfg.nodes[ci]? with
      | none => rw [ha, hn] at h; cases h
      | some cn' =>
        rw [ha, hn] at h
        dsimp only at h
        obtain ⟨a, ha1, hb⟩ : ∃ a, c.areas[i]? = some a ∧ a.base = a'.base := by
          rw [hc] at ha
          unfold midway at ha
          dsimp only at ha
          rw [List.take_length, List.drop_length, List.append_nil, List.getElem?_map] at ha
          cases hx : c.areas[i]? with
          | none => rw [hx] at ha; cases ha
          | some a =>
            rw [hx] at ha
            injection ha with ha
            refine ⟨a, rfl, ?_⟩
            rw [← ha]
            dsimp only
            cases verdict c ci cn w pat a <;> rfl
        cases hbase : a'.base with
        | none =>
          rw [hbase] at h hb
          obtain ⟨c1, c2⟩ := told_remark hs g h
          exact ⟨c1, _, .passThru hr ha1 hb, c2⟩
        | some b =>
          rw [hbase] at h hb
          dsimp only at h
          by_cases hcan : (!env.canRescan b) = true
          · rw [if_pos hcan] at h
            obtain ⟨c1, c2⟩ := told_remark hs g h
            exact ⟨c1, _, .cannot hr ha1 hb (by simpa using hcan), c2⟩
          · rw [if_neg hcan, bind_ok] at h
            obtain ⟨_, u, h1, h⟩ := h
            have hu := (rescanAll_calm env _ _ _).1 _ _ h1
            by_cases hok : (env.rescan s.log i num).2 = true
            · rw [if_pos hok] at h
              obtain ⟨c1, c2⟩ := told_remark hs (l := b!"Rescanned " ++ dec (env.rescan s.log i num).1.length ++ b!" messages") g
                (by simpa using h)
              refine ⟨c1.trans hu.1, _, .done hr ha1 hb (by simpa using hcan) hok, ?_⟩
              simpa using (Replied.calm hu).trans c2
            · rw [if_neg hok] at h; cases h
  · rw [if_neg hr] at h
    rw [hf] at hr
    obtain ⟨c1, c2⟩ := told_remark hs g h
    exact ⟨c1, _, .forbidden (by simpa using hr), c2⟩

theorem afOptions_run {c : Config} {ci : Nat} {cn : ConfigNode} {w : Wish} {line pat opt : Str} {global : Bool} {L0 L : AfLoop}
    {r' : AfReply} {s0 s t : HSt} (g : L.r.Gen) (h0 : L0.rescan = none)
    (hl : LoopRun env self c ci cn w line pat 0 L0 s0 L s)
    (h : afOptions env self ci w.cmd opt (osIsPattern pat) global L s = .ok r' t) :
    t.cfg = s.cfg ∧ ∃ i os, RescanArea c ci cn w pat i ∧ OptionSays env c global opt i os ∧ Replied env self L.r s os r' t ∧
      (w = .again → i = L.rescan) := by
  obtain ⟨hc, -, hd, -, hr⟩ := hl
  rw [h0] at hr
  by_cases hw : Wild pat
  · have hnone : r' = L.r ∧ t = s := by
      unfold afOptions at h
      rw [(wild_iff pat).2 hw] at h
      cases hx : L.rescan with
      | none => rw [hx] at h; cases h; exact ⟨rfl, rfl⟩
      | some i => rw [hx] at h; simp at h; cases h; exact ⟨rfl, rfl⟩
    obtain ⟨rfl, rfl⟩ := hnone
    refine ⟨rfl, none, [], .inl hw, .nothing, .nil, fun e => ?_⟩
    rcases hr with ⟨e1, -⟩ | ⟨j, a, -, -, -, e2, -⟩
    · exact e1.symm
    · exact absurd e2.2 (by rw [e]; simp [hw])
  · have hwf : osIsPattern pat = false := by
      cases hx : osIsPattern pat
      · rfl
      · exact absurd ((wild_iff pat).1 hx) hw
    rw [hwf] at h
    rcases hr with ⟨e1, e2⟩ | ⟨j, a, -, ha, e1, e2, e3⟩
    · unfold afOptions at h
      rw [e1] at h
      cases h
      refine ⟨rfl, none, [], .inr fun a ha => ?_, .nothing, .nil, fun _ => e1.symm⟩
      obtain ⟨j, hj, e⟩ := List.mem_iff_getElem.1 ha
      have := e2 j a (Nat.zero_le _) (by rw [List.getElem?_eq_getElem hj, e])
      cases hv : (verdict c ci cn w pat a).rescans
      · rfl
      · exact absurd ⟨hv, .inr hw⟩ this
    · have hdone : L.done = true := by
        rw [hd, List.drop_zero, Bool.or_eq_true, List.any_eq_true]
        refine .inr ⟨a, List.mem_of_getElem? ha, ?_⟩
        cases hv : verdict c ci cn w pat a <;> rw [hv] at e2 <;> first | rfl | cases e2.1
      have hwl : w.cmd ≠ .remove := by
        intro e
        cases w with
        | leave =>
          have e4 := e2.1
          unfold verdict at e4
          dsimp only at e4
          split at e4
          · cases e4
          · split at e4
            · cases e4
            · split at e4
              · cases e4
              · split at e4
                · cases e4
                · split at e4 <;> cases e4
        | join => cases e
        | again => cases e
      unfold afOptions at h
      rw [e1] at h
      dsimp only at h
      rw [if_pos (by simp [hwl, hdone]), bind_ok] at h
      obtain ⟨r1, u, h1, h⟩ := h
      have hra : RescanArea c ci cn w pat (some j) := ⟨hw, ⟨a, ha, e2.1⟩, e3⟩
      by_cases hro : RescanOpt opt
      · have hro' : eqin opt b!"r=" 2 = true := hro
        rw [hro'] at h h1
        cases h1
        simp only [Bool.or_true, if_true] at h
        obtain ⟨c1, ls, k1, k2⟩ := afRescan_run hs g hc h
        exact ⟨c1, some j, ls, hra, .rescan hro k1, k2, fun _ => e1.symm⟩
      · have hro' : eqin opt b!"r=" 2 = false := by
          cases hx : eqin opt b!"r=" 2
          · rfl
          · exact absurd hx hro
        rw [hro'] at h h1
        have hu : u.cfg = s.cfg ∧ Replied env self L.r s (if opt = [] then [] else [remark (b!"Unknown option " ++ opt)]) r1 u := by
          by_cases ho : opt = []
          · rw [if_neg (by simp [ho])] at h1
            cases h1
            rw [if_pos ho]
            exact ⟨rfl, .nil⟩
          · rw [if_pos (by simp [ho])] at h1
            rw [if_neg ho]
            exact told_remark hs g (by simpa using h1)
        cases global with
        | false =>
          simp only [Bool.or_false] at h
          cases h
          exact ⟨hu.1, some j, _, hra, .unknown hro rfl, hu.2, fun _ => e1.symm⟩
        | true =>
          simp only [Bool.true_or, if_true] at h
          obtain ⟨c1, ls, k1, k2⟩ := afRescan_run hs (hu.2.gen g) (hu.1.trans hc) h
          exact ⟨c1.trans hu.1, some j, _, hra, .unknownGlobal hro rfl k1, hu.2.trans k2, fun _ => e1.symm⟩

end

/-- The configuration without the areas to be removed. -/
def cleaned (c : Config) : Config :=
  { c with
    areas := c.areas.filter fun a => a.type ≠ .deleted
    changed := c.changed || c.areas.any fun a => a.type = .deleted }

theorem cleaned_same {c : Config} (h : ∀ a ∈ c.areas, a.type ≠ .deleted) : cleaned c = c := by
  unfold cleaned
  rw [List.filter_eq_self.2 (by simpa using h)]
  have : (c.areas.any fun a => a.type = .deleted) = false := by simpa using h
  rw [this, Bool.or_false]

theorem cleaned_midway {c : Config} (h : ∀ a ∈ c.areas, a.type ≠ .deleted) (ci : Nat) (cn : ConfigNode) (w : Wish) (pat : Str) :
    cleaned (midway c ci cn w pat c.areas.length) = fulfilled c ci cn w pat := by
  have h1 : ∀ l : List Area, (∀ a ∈ l, a.type ≠ .deleted) →
      ((l.map fun a => (verdict c ci cn w pat a).mid ci a).filter fun a => a.type ≠ .deleted) =
        l.filterMap fun a => (verdict c ci cn w pat a).after ci a := by
    intro l
    induction l with
    | nil => intro _; rfl
    | cons a l ih =>
      intro h
      rw [List.map_cons, List.filterMap_cons, Verdict.after_mid (h a (by simp)), List.filter_cons,
        ih fun b hb => h b (by simp [hb])]
      by_cases hd : ((verdict c ci cn w pat a).mid ci a).type = .deleted <;> simp [hd]
  have h2 : ∀ l : List Area, (∀ a ∈ l, a.type ≠ .deleted) →
      ((l.any fun a => (verdict c ci cn w pat a).acts) ||
        (l.map fun a => (verdict c ci cn w pat a).mid ci a).any fun a => a.type = .deleted) =
        l.any fun a => (verdict c ci cn w pat a).acts := by
    intro l h
    cases hx : (l.any fun a => (verdict c ci cn w pat a).acts)
    · rw [Bool.false_or, List.any_eq_false]
      rw [List.any_eq_false] at hx
      intro b hb
      obtain ⟨a, ha, rfl⟩ := List.mem_map.1 hb
      have := hx a ha
      have h3 := h a ha
      cases hv : verdict c ci cn w pat a <;> simp [hv, Verdict.acts, Verdict.mid] at this ⊢ <;> exact decide_eq_false h3
    · rfl
  unfold cleaned midway fulfilled
  dsimp only
  rw [List.take_length, List.drop_length, List.append_nil, h1 _ h, Bool.or_assoc, h2 _ h]

theorem removeDeleted_run (s : HSt) : removeDeleted s = .ok () { s with cfg := cleaned s.cfg } := by
  unfold removeDeleted
  rw [get_bind, set_run]
  rfl

theorem cleaned_live (c : Config) : ∀ a ∈ (cleaned c).areas, a.type ≠ .deleted := by
  intro a ha
  have := (List.mem_filter.1 ha).2
  simpa using this

end CM
