import Verif.Lemmas.AreafixStep
/-! # AreaFix: every command does only what is allowed -/

namespace CM

theorem Sat.ite {α : Type} {R : HSt → HSt → Prop} {c : Prop} [Decidable c] {x y : M α} (hx : Sat R x) (hy : Sat R y) :
    Sat R (if c then x else y) := by
  by_cases h : c
  · rw [if_pos h]; exact hx
  · rw [if_neg h]; exact hy

/-! ## Changes to one area -/

theorem linkOf_none {a : Area} {ci : Nat} (h : a.linkOf ci = none) : ∀ t ∈ a.tossNodes, t.node ≠ ci := by
  intro t ht
  unfold Area.linkOf at h
  rw [List.find?_eq_none] at h
  simpa using h t ht

theorem linkOf_some {a : Area} {ci : Nat} {t : TossNode} (h : a.linkOf ci = some t) : t ∈ a.tossNodes ∧ t.node = ci := by
  unfold Area.linkOf at h
  exact ⟨List.mem_of_find?_eq_some h, by simpa using List.find?_some h⟩

theorem linkOf_erase {ts : List TossNode} {ci : Nat} {t : TossNode} (h : ts.find? (·.node == ci) = some t) :
    ∃ p q, ts = p ++ t :: q ∧ ts.eraseP (·.node == ci) = p ++ q ∧ t.node = ci ∧ ∀ x ∈ p, x.node ≠ ci := by
  rw [List.find?_eq_some_iff_append] at h
  obtain ⟨ht, p, q, e, hp⟩ := h
  refine ⟨p, q, e, ?_, by simpa using ht, fun x hx => by simpa using hp x hx⟩
  rw [e, List.eraseP_append_right _ (fun x hx => by simpa using hp x hx), List.eraseP_cons_of_pos (p := fun x : TossNode => x.node == ci) ht]

/-- A link is added. -/
theorem evo_link {c : Config} {ci : Nat} {a : Area} {fl : UInt16} (hn : a.linkOf ci = none) (ht : a.type = .echomail)
    (hg : Granted c ci a ⟨ci, fl⟩) : Evo c ci a { a with
      tossNodes := a.tossNodes ++ [⟨ci, fl⟩]
      changed := true } := by
  have hn := linkOf_none hn
  refine ⟨rfl, ?_, fun t h e => ?_, fun _ t h _ _ => List.mem_append_left _ h, fun h => ?_, fun h => absurd ht h, .inr rfl⟩
  · simp [Area.others, List.filter_append]
  · rcases List.mem_append.1 h with h | h
    · exact .inl h
    · rw [List.mem_singleton] at h
      rw [h]; exact .inr hg
  · unfold Area.OneLink at h ⊢
    simp only [List.map_append, List.map_cons, List.map_nil]
    rw [List.nodup_append]
    refine ⟨h, by simp, fun x hx y hy => ?_⟩
    rw [List.mem_singleton] at hy
    obtain ⟨t, h1, rfl⟩ := List.mem_map.1 hx
    rw [hy]; exact hn t h1

/-- A link is removed. -/
theorem evo_unlink {c : Config} {ci : Nat} {a : Area} {t : TossNode} (hn : a.linkOf ci = some t) (ht : a.type = .echomail)
    (hm : a.has AREA_MANDATORY = true → t.has TOSSNODE_FEED = true) : Evo c ci a { a with
      tossNodes := a.tossNodes.eraseP (·.node == ci)
      changed := true } := by
  obtain ⟨p, q, e, e', h1, h2⟩ := linkOf_erase hn
  refine ⟨rfl, ?_, fun x h _ => .inl (List.mem_of_mem_eraseP h), fun hm' x h _ hf => ?_, fun h => ?_, fun h => absurd ht h, .inr rfl⟩
  · unfold Area.others
    dsimp only
    rw [e', e, List.filter_append, List.filter_append, List.filter_cons, if_neg (by simp [h1])]
  · dsimp only
    rw [e] at h
    rw [e']
    rcases List.mem_append.1 h with h | h
    · exact List.mem_append_left _ h
    · rcases List.mem_cons.1 h with rfl | h
      · rw [hm hm'] at hf; cases hf
      · exact List.mem_append_right _ h
  · unfold Area.OneLink at h ⊢
    dsimp only
    exact List.Nodup.sublist ((List.eraseP_sublist).map _) h

/-- An area without its last users is removed. -/
theorem lonely_others {a : Area} {ci : Nat} (h : lonely (a.tossNodes.eraseP (·.node == ci)) = true)
    {t : TossNode} (hn : a.linkOf ci = some t) :
    a.others ci = [] ∨ ∃ t, a.others ci = [t] ∧ t.has TOSSNODE_FEED = true := by
  obtain ⟨p, q, e, e', h1, h2⟩ := linkOf_erase hn
  have ho : a.others ci = (p ++ q).filter fun t => t.node ≠ ci := by
    unfold Area.others
    rw [e, List.filter_append, List.filter_append, List.filter_cons, if_neg (by simp [h1])]
  rw [e'] at h
  rw [ho]
  generalize p ++ q = l at h
  match l, h with
  | [], _ => exact .inl rfl
  | [x], h =>
    by_cases hx : x.node = ci
    · left; simp [hx]
    · right; exact ⟨x, by simp [hx], h⟩

section
variable {self : MemMsg → M Unit} (hs : Tame self) (env : Env)
include hs

omit hs in
theorem addTossNode_nodup {ts : List TossNode} (h : (ts.map (·.node)).Nodup) (n : Nat) (fl : UInt16) :
    ((addTossNode ts n fl).map (·.node)).Nodup := by
  unfold addTossNode
  split
  · exact h
  · next hn =>
    simp only [List.any_eq_true, not_exists, not_and, beq_iff_eq] at hn
    simp only [List.map_append, List.map_cons, List.map_nil]
    rw [List.nodup_append]
    refine ⟨h, by simp, fun x hx y hy => ?_⟩
    rw [List.mem_singleton] at hy
    obtain ⟨t, h1, rfl⟩ := List.mem_map.1 hx
    rw [hy]; exact hn t h1

theorem sendRemove1_cfg (tag : Str) (aka : Node4D) (t : TossNode) (n : ConfigNode) :
    Sat CfgEq (sendRemove1 env self tag aka t n) := by
  unfold sendRemove1
  have key : ∀ (to subject : Str) (ls : List Str), Sat CfgEq (newNetmail env n.node aka to subject FLAG_PVT MMFLAG_AUTOGEN >>=
      fun m => mmAddLines m ls >>= fun m => M.attempt (self m)) := by
    intro to subject ls
    refine CfgEq.good.bindP Gen (CfgEq.good.quiet (newNetmail_quiet _ _ _ _ _ _ _)) (fun _ _ _ h => newNetmail_gen h) fun m g => ?_
    exact CfgEq.good.bindP Gen (CfgEq.good.quiet (mmAddLines_quiet _ _)) (fun _ _ _ h => g.keep (mmAddLines_keep h)) fun m g =>
      attempt_sat (hs _ g)
  refine CfgEq.good.bind ?_ fun _ => ?_
  · split
    · exact key _ _ _
    · exact CfgEq.good.pure _
  · split
    · split
      · exact Sat.ub _
      · exact key _ _ _
    · exact CfgEq.good.pure _

theorem sendRemove_cfg (tag : Str) (aka : Option Node4D) (ts : List TossNode) :
    Sat CfgEq (sendRemove env self tag aka ts) := by
  induction ts with
  | nil => exact CfgEq.good.pure _
  | cons t ts ih =>
    unfold sendRemove
    refine CfgEq.good.bind CfgEq.good.get fun s => ?_
    split
    · exact Sat.ub _
    · refine CfgEq.good.bind ?_ fun _ => ih
      split
      · split
        · exact Sat.ub _
        · exact sendRemove1_cfg hs env _ _ _ _
      · exact CfgEq.good.pure _

theorem afAdd_afx (ci : Nat) (cn : ConfigNode) (buf : Str) (wild : Bool) (i : Nat) (a : Area) {L : AfLoop}
    (g : L.r.Gen) (s : HSt) (ha : s.cfg.areas[i]? = some a) (hc : s.cfg.nodes[ci]? = some cn) (ht : a.type = .echomail) :
    Ends (Afx env ci s) (afAdd env self ci cn buf wild i a L) s := by
  unfold afAdd
  have say : ∀ (l1 l2 : Str) (f : AfReply → AfLoop),
      Sat (Afx env ci) (afSay env self L.r wild buf l1 l2 >>= fun r => (pure (f r) : M AfLoop)) := fun l1 l2 f =>
    (Afx.good env ci).bind (Sat.afx (afSay_cfg hs env g _ _ _ _)) fun r => (Afx.good env ci).pure _
  cases hl : a.linkOf ci with
  | some _ => exact say _ _ _ s
  | none =>
    dsimp only
    refine Ends.bind (fun t h => absurd h afAccess_noFail) fun b u h => ?_
    obtain ⟨hb, rfl⟩ := afAccess_ok h
    split
    · next hb' =>
      have hacc := hb.1 hb'
      split
      · exact say _ _ _ u
      · next hban =>
        refine Ends.bind (fun t h => absurd h afReadOnly_noFail) fun ro u1 h1 => ?_
        obtain ⟨hro, rfl⟩ := afReadOnly_ok h1
        have hsay : Sat CfgEq (if ro = true
            then afSay env self L.r wild buf (b!"   Attached to " ++ a.tag ++ b!" as read-only") b!"Attached as read-only"
            else afSay env self L.r wild buf (b!"   Attached to " ++ a.tag) b!"Attached") := by
          split <;> exact afSay_cfg hs env g _ _ _ _
        refine Ends.bind (fun t h => CfgEq.afx ((hsay _).2 _ h)) fun r u2 h2 => ?_
        have e2 : u2.cfg = u1.cfg := (hsay _).1 _ _ h2
        refine Ends.bind (fun t h => by rw [modArea_run] at h; cases h) fun _ u3 h3 => ?_
        rw [modArea_run] at h3
        injection h3 with _ h3
        refine Ends.pure ?_
        subst h3
        obtain ⟨p, q, e, hp⟩ := list_at ha
        unfold Afx
        dsimp only
        rw [e2]
        refine allowed_area (p := p) (q := q) same_areas e (by dsimp only; rw [e, modify_at p q a _ hp]) rfl ht ?_
        refine .inl ⟨by rw [ht]; decide, evo_link hl ht ⟨cn, hc, hacc, by simpa using hban, fun h => ?_, fun h => ?_⟩⟩
        · dsimp only; rw [if_pos (hro.2 h)]
        · dsimp only; rw [if_neg (fun h' => h (hro.1 h'))]
    · split
      · exact (Afx.good env ci).pure _ u
      · exact (Afx.good env ci).bind (Sat.afx (addCommandReply_cfg hs env g _ _)) (fun r => (Afx.good env ci).pure _) u

theorem afRemove_afx (ci : Nat) (buf : Str) (wild : Bool) (i : Nat) (a : Area) {L : AfLoop} (g : L.r.Gen) (s : HSt)
    (ha : s.cfg.areas[i]? = some a) (ht : a.type = .echomail) :
    Ends (Afx env ci s) (afRemove env self ci buf wild i a L) s := by
  unfold afRemove
  cases hl : a.linkOf ci with
  | none =>
    dsimp only
    split
    · exact (Afx.good env ci).pure _ s
    · exact (Afx.good env ci).bind (Sat.afx (addCommandReply_cfg hs env g _ _)) (fun r => (Afx.good env ci).pure _) s
  | some t =>
    dsimp only
    split
    · exact (Afx.good env ci).bind (Sat.afx (afSay_cfg hs env g _ _ _ _)) (fun r => (Afx.good env ci).pure _) s
    · next hm =>
      have hm : a.has AREA_MANDATORY = true → t.has TOSSNODE_FEED = true := by
        intro h; rw [h] at hm; simpa using hm
      have hsay := afSay_cfg hs env g wild buf (b!"   Detached from " ++ a.tag) b!"Detached"
      refine Ends.bind (fun t h => CfgEq.afx ((hsay _).2 _ h)) fun r u h => ?_
      have e0 : u.cfg = s.cfg := (hsay _).1 _ _ h
      refine Ends.bind (fun t h => by rw [modArea_run] at h; cases h) fun _ u1 h1 => ?_
      rw [modArea_run] at h1
      injection h1 with _ h1
      obtain ⟨p, q, e, hp⟩ := list_at ha
      have e1 : u1.cfg = { s.cfg with
          areas := p ++ { a with
            tossNodes := a.tossNodes.eraseP (·.node == ci)
            changed := true } :: q
          changed := true } := by
        rw [← h1]; dsimp only; rw [e0, e, modify_at p q a _ hp]
      have r1 : Afx env ci s u1 := by
        unfold Afx
        rw [e1]
        exact allowed_area (p := p) (q := q) same_areas e rfl rfl ht (.inl ⟨by rw [ht]; decide, evo_unlink hl ht hm⟩)
      have hfeed : t.has TOSSNODE_FEED = true → Feeds ci a := fun h => ⟨t, (linkOf_some hl).1, (linkOf_some hl).2, h⟩
      -- what happens to the area
      have hdel : ∀ (ns : List ConfigNode) (u2 : HSt), Removable s.cfg ci a → u2.cfg = { u1.cfg with nodes := ns } →
          Same ci s.cfg u2.cfg → Ends (Afx env ci s) (modArea i fun a => { a with type := .deleted }) u2 := by
        intro ns u2 hr e2 hsm
        refine ⟨fun _ t h => ?_, fun t h => by rw [modArea_run] at h; cases h⟩
        rw [modArea_run] at h
        injection h with _ h
        subst h
        unfold Afx
        dsimp only
        have ea : u2.cfg.areas = p ++ { a with
            tossNodes := a.tossNodes.eraseP (·.node == ci)
            changed := true } :: q := by rw [e2, e1]
        refine allowed_area (p := p) (q := q) (hsm.trans same_areas) e (by dsimp only; rw [ea, modify_at p q _ _ hp]) rfl ht ?_
        exact .inr ⟨rfl, hr⟩
      have hsm1 : Same ci s.cfg u1.cfg := by rw [e1]; exact same_areas
      have hafter : Ends (Afx env ci s) (afAfterRemove env self i a (a.tossNodes.eraseP (·.node == ci))
          (t.has TOSSNODE_FEED)) u1 := by
        unfold afAfterRemove
        refine Ends.get ?_
        split
        · next hc =>
          simp only [Bool.and_eq_true] at hc
          have hrm := sendRemove_cfg hs env a.tag ((a.aka.bind (u1.cfg.akas[·]?)).map (·.node)) (a.tossNodes.eraseP (·.node == ci))
          refine Ends.bind (fun t h => ?_) fun _ u2 h2 => ?_
          · have := (hrm _).2 _ h
            unfold Afx; rw [this]; exact r1
          · have e2 : u2.cfg = u1.cfg := (hrm _).1 _ _ h2
            refine hdel u1.cfg.nodes u2 ⟨ht, fun _ => hfeed hc.1, .inl ⟨?_, hfeed hc.1⟩⟩ (by rw [e2]) (by rw [e2]; exact hsm1)
            rw [hsm1.has] at hc; exact hc.2
        · split
          · next hc =>
            simp only [Bool.and_eq_true] at hc
            have hrem : Removable s.cfg ci a := by
              refine ⟨ht, fun h => hfeed (hm h), .inr ⟨?_, by simpa using hc.2, lonely_others hc.1.2 hl⟩⟩
              rw [hsm1.has] at hc; exact hc.1.1
            split
            · refine Ends.bind (fun t h => by cases h) fun _ u2 h2 => ?_
              cases h2
              exact hdel u1.cfg.nodes u1 hrem rfl hsm1
            · next x _ _ =>
              refine Ends.bind (fun t h => by cases h) fun _ u2 h2 => ?_
              have h2' : u2 = { u1 with cfg := { u1.cfg with nodes := u2.cfg.nodes } } := by
                unfold remoteRemove remoteCmd at h2
                rw [get_bind, set_run] at h2
                injection h2 with _ h2
                rw [← h2]
              refine hdel u2.cfg.nodes u2 hrem (by rw [h2']) (hsm1.trans ?_)
              unfold remoteRemove remoteCmd at h2
              rw [get_bind, set_run] at h2
              injection h2 with _ h2
              rw [← h2]
              exact same_modify (as := u1.cfg.areas) (ch := u1.cfg.changed) fun n _ => nodeEvo_remote n _
          · exact Ends.pure r1
      refine Ends.bind (fun t h => hafter.2 _ h) fun _ u2 h2 => Ends.pure (hafter.1 _ _ h2)

theorem afArea_afx (ci : Nat) (cmd : AfCmd) (buf name : Str) (wild : Bool) (i : Nat) {L : AfLoop} (g : L.r.Gen) :
    Sat (Afx env ci) (afArea env self ci cmd buf name wild i L) := by
  refine sat_of_ends fun s => ?_
  unfold afArea
  refine Ends.get ?_
  split
  · next a cn ha hc =>
    split
    · next h =>
      simp only [Bool.and_eq_true, decide_eq_true_eq] at h
      cases cmd with
      | add => exact afAdd_afx hs env ci cn buf wild i a (L := { L with found := true }) g s ha hc h.1
      | remove => exact afRemove_afx hs env ci buf wild i a (L := { L with found := true }) g s ha h.1
      | update =>
        dsimp only
        unfold afUpdate
        split
        · exact (Afx.good env ci).pure _ s
        · exact (Afx.good env ci).bind (Sat.afx (afSay_cfg hs env (r := L.r) g _ _ _ _)) (fun r => (Afx.good env ci).pure _) s
    · exact (Afx.good env ci).pure _ s
  · exact (Afx.good env ci).pure _ s

theorem afAreas_afx (ci : Nat) (cmd : AfCmd) (buf name : Str) (wild : Bool) (k i : Nat) {L : AfLoop} (g : L.r.Gen) :
    Sat (Afx env ci) (afAreas env self ci cmd buf name wild k i L) := by
  induction k generalizing i L with
  | zero => exact (Afx.good env ci).pure _
  | succ k ih =>
    exact (Afx.good env ci).bindP (fun L => L.r.Gen) (afArea_afx hs env ci cmd buf name wild i g)
      (fun _ _ _ h => (afArea_uses env ci cmd buf name wild i g).post _ _ _ _ h) fun L g => ih _ g

omit hs in
theorem sendEcho_cfg (aka : Node4D) (m : MemMsg) (l : Link) : Sat CfgEq (sendEcho env aka m l) := by
  intro s
  unfold sendEcho
  refine ⟨fun a t h => ?_, fun t h => ?_⟩
  · split at h
    · split at h
      · cases h; rfl
      · cases h
    · cases h
    · cases h
  · split at h
    · split at h
      · cases h
      · cases h; rfl
    · cases h
    · cases h

omit hs in
theorem handleRescan_cfg (l : Link) (m : MemMsg) : Sat CfgEq (handleRescan env l m) := by
  unfold handleRescan
  refine CfgEq.good.bind CfgEq.good.get fun s => ?_
  split
  · exact Sat.ub _
  · split
    · exact Sat.ub _
    · dsimp only
      refine CfgEq.good.bind ?_ fun p => CfgEq.good.bind (CfgEq.good.lift _) fun sb =>
        CfgEq.good.bind (sendEcho_cfg env _ _ _) fun _ => CfgEq.good.pure _
      split
      · exact CfgEq.good.liftO _
      · exact CfgEq.good.pure _

omit hs in
theorem rescanAll_cfg (l : Link) (ms : List MemMsg) : Sat CfgEq (rescanAll env l ms) := by
  induction ms with
  | nil => exact CfgEq.good.pure _
  | cons m ms ih => exact CfgEq.good.bind (handleRescan_cfg env l m) fun _ => ih

theorem afRescan_cfg (ci i : Nat) (num : UInt32) {r : AfReply} (g : r.Gen) : Sat CfgEq (afRescan env self ci i num r) := by
  unfold afRescan
  refine CfgEq.good.bind CfgEq.good.get fun s => ?_
  split
  · split
    · split
      · exact afAddLine_cfg hs env g _
      · split
        · exact afAddLine_cfg hs env g _
        · refine CfgEq.good.bind (rescanAll_cfg env _ _) fun _ => ?_
          split
          · exact afAddLine_cfg hs env g _
          · exact Sat.fail CfgEq.good.refl
    · exact Sat.ub _
  · exact afAddLine_cfg hs env g _

theorem afOptions_cfg (ci : Nat) (cmd : AfCmd) (opt : Str) (wild global : Bool) {L : AfLoop} (g : L.r.Gen) :
    Sat CfgEq (afOptions env self ci cmd opt wild global L) := by
  unfold afOptions
  split
  · exact CfgEq.good.pure _
  · split
    · dsimp only
      refine CfgEq.good.bindP AfReply.Gen ?_ ?_ fun r g => ?_
      · split
        · exact afAddLine_cfg hs env g _
        · exact CfgEq.good.pure _
      · intro s r t h
        split at h
        · exact (afAddLine_uses env g _).post _ _ _ _ h
        · cases h; exact g
      · split
        · exact afRescan_cfg hs env ci _ _ g
        · exact CfgEq.good.pure _
    · exact CfgEq.good.pure _

omit hs in
theorem findForward_ok {name groups : Str} {als : List Arealist} {s t : HSt} {o : Option Arealist}
    (h : findForward env name groups als s = .ok o t) : t = s ∧ ∀ al, o = some al →
      al ∈ als ∧ al.flags &&& 2 ≠ 0 ∧ al.group ∈ groups ∧
      ∃ lines, env.areaFile s.log al.file = some lines ∧ ∃ l ∈ lines, eqi (fileTag l) name = true := by
  induction als with
  | nil => cases h; exact ⟨rfl, fun _ h => by cases h⟩
  | cons al als ih =>
    unfold findForward at h
    rw [get_bind, bind_ok] at h
    obtain ⟨b, u, h1, h⟩ := h
    have hb : u = s ∧ (b = true → al.flags &&& 2 ≠ 0 ∧ al.group ∈ groups) := by
      split at h1
      · next hf =>
        obtain ⟨k1, rfl⟩ := matchFlags_ok h1
        exact ⟨rfl, fun e => ⟨by simpa [AREALIST_FORWARD] using hf, k1.1 e⟩⟩
      · cases h1; exact ⟨rfl, fun h => by cases h⟩
    obtain ⟨rfl, hb⟩ := hb
    split at h
    · next hc =>
      cases h
      refine ⟨rfl, fun al' e => ?_⟩
      cases e
      simp only [Bool.and_eq_true] at hc
      obtain ⟨k1, k2⟩ := hb hc.1
      refine ⟨List.mem_cons_self, k1, k2, ?_⟩
      cases hfile : env.areaFile t.log al.file with
      | none => rw [hfile] at hc; simp at hc
      | some lines =>
        rw [hfile] at hc
        exact ⟨lines, rfl, by simpa using hc.2⟩
    · obtain ⟨e, k⟩ := ih h
      exact ⟨e, fun al' ha => by
        obtain ⟨k1, k2⟩ := k al' ha
        exact ⟨List.mem_cons_of_mem _ k1, k2⟩⟩

omit hs in
theorem findForward_noFail {name groups : Str} {als : List Arealist} {s t : HSt} :
    findForward env name groups als s ≠ .fail t := by
  intro h
  induction als with
  | nil => cases h
  | cons al als ih =>
    unfold findForward at h
    rw [get_bind, bind_fail] at h
    rcases h with h | ⟨b, u, h1, h⟩
    · split at h
      · exact matchFlags_noFail h
      · cases h
    · have hu : u = s := by
        split at h1
        · exact (matchFlags_ok h1).2
        · cases h1; rfl
      subst hu
      split at h
      · cases h
      · exact ih h

omit hs in
theorem addGroupLinks_nodup {gr : UInt8} {ro : Bool} {ts : List TossNode} {i : Nat} {ns : List ConfigNode} {s t : HSt}
    {r : List TossNode} (h : addGroupLinks gr ro ts i ns s = .ok r t) (hn : (ts.map (·.node)).Nodup) :
    (r.map (·.node)).Nodup := by
  induction ns generalizing ts i s with
  | nil => cases h; exact hn
  | cons n ns ih =>
    unfold addGroupLinks at h
    rw [bind_ok] at h
    obtain ⟨b, u, h1, h⟩ := h
    split at h
    · rw [bind_ok] at h
      obtain ⟨b', u', h2, h⟩ := h
      exact ih h (addTossNode_nodup hn _ _)
    · exact ih h hn

omit hs in
/-- More about a new area. -/
theorem addArea_new {name : Str} {node mynode : Node4D} {active passthru : Bool} {s t : HSt} {i : Nat}
    (h : addArea env name node mynode active passthru s = .ok i t) :
    i = s.cfg.areas.length ∧ ∃ a : Area, a.tag = name ∧ a.type = .echomail ∧ a.banned = [] ∧ a.OneLink ∧
      (passthru = true → a.base = none) ∧ a.changed = true ∧
      t = { s with cfg := { s.cfg with
        areas := s.cfg.areas ++ [a]
        changed := true } } := by
  unfold addArea at h
  rw [get_bind] at h
  dsimp only at h
  rw [bind_ok] at h
  obtain ⟨d, s1, h1, h⟩ := h
  have e1 := (findDefault_quiet _ _).noFail h1
  subst e1
  rw [bind_ok] at h
  obtain ⟨a, s2, h2, h⟩ := h
  rw [set_bind, pure_run] at h
  injection h with hi ht
  have hl := linkArea_ok h2
  have hfold : ∀ (l acc : List TossNode), (acc.map (·.node)).Nodup →
      ((l.foldl (fun ts t => addTossNode ts t.node t.flags) acc).map (·.node)).Nodup := by
    intro l
    induction l with
    | nil => exact fun _ h => h
    | cons x l ih => exact fun acc h => ih _ (addTossNode_nodup h _ _)
  have hnew : ∀ aka ci, ((newArea env s1 name aka ci active passthru d).tossNodes.map (·.node)).Nodup := by
    intro aka ci
    cases d with
    | none => exact List.nodup_nil
    | some d => exact hfold _ _ List.nodup_nil
  refine ⟨hi.symm, a, ?_, ?_, ?_, ?_, ?_, ?_, ht.symm⟩
  · rw [hl]; rfl
  · rw [hl]; rfl
  · rw [hl]; cases d <;> rfl
  · unfold Area.OneLink
    generalize hci : s1.cfg.nodes.findIdx? (fun n => compare4D n.node node == 0) = ci at h2
    cases ci with
    | none => cases h2; exact hnew _ _
    | some k =>
      simp only [linkArea] at h2
      cases hk : s1.cfg.nodes[k]? with
      | none => rw [hk] at h2; cases h2; exact hnew _ _
      | some n =>
        rw [hk] at h2
        dsimp only at h2
        rw [bind_ok] at h2
        obtain ⟨ts, u, h3, h2⟩ := h2
        cases h2
        exact addGroupLinks_nodup h3 (addTossNode_nodup (hnew _ _) _ _)
  · intro e; rw [hl]; subst e; cases d <;> rfl
  · rw [hl]; rfl

theorem afForward_afx (ci : Nat) (cn : ConfigNode) (mynode : Node4D) (buf name : Str) (al : Arealist) {r : AfReply}
    (g : r.Gen) (s : HSt) (hc : s.cfg.nodes[ci]? = some cn) (hq : cn.has NODE_FORWARDREQ = true) (hal : al ∈ s.cfg.arealists)
    (hfl : al.flags &&& 2 ≠ 0) (hgr : al.group ∈ cn.groups)
    (hfile : ∃ lines, env.areaFile s.log al.file = some lines ∧ ∃ l ∈ lines, eqi (fileTag l) name = true) :
    Ends (Afx env ci s) (afForward env self ci cn mynode buf name al r) s := by
  unfold afForward
  refine Ends.get ?_
  split
  · exact Ends.ub
  · next up hup =>
    have hsay := addCommandReply_cfg hs env g buf (b!"Request sent to " ++ addr4 up.node)
    refine Ends.bind (fun t h => CfgEq.afx ((hsay _).2 _ h)) fun r1 u1 h1 => ?_
    have e1 : u1.cfg = s.cfg := (hsay _).1 _ _ h1
    refine Ends.bind (fun t h => by unfold remoteAdd remoteCmd at h; rw [get_bind, set_run] at h; cases h) fun _ u2 h2 => ?_
    have r2 : Same ci s.cfg u2.cfg ∧ u2.cfg.areas = s.cfg.areas ∧ u2.cfg.changed = s.cfg.changed ∧
        ∀ (i : Nat) (n n' : ConfigNode), s.cfg.nodes[i]? = some n → u2.cfg.nodes[i]? = some n' →
          n' = { n with remoteAF := n'.remoteAF } := by
      unfold remoteAdd remoteCmd at h2
      rw [get_bind, set_run] at h2
      injection h2 with _ h2
      subst h2
      dsimp only
      rw [e1]
      exact ⟨same_modify (as := s.cfg.areas) (ch := s.cfg.changed) fun n _ => nodeEvo_remote n _, rfl, rfl,
        remote_nodes _ _ _⟩
    obtain ⟨r2, a2, m2, q2⟩ := r2
    split
    · exact Ends.ub
    · refine Ends.bind (fun t h => ?_) fun j u3 h3 => ?_
      · rw [addArea_noFail h]
        exact Same.allowed r2 (by unfold Config.live; rw [a2]) (.inr ⟨m2, q2⟩)
      obtain ⟨hj, a, htag, htype, hban, hone, hbase, hmark, e3⟩ := addArea_new env h3
      refine Ends.bind (fun t h => by rw [modArea_run] at h; cases h) fun _ u4 h4 => ?_
      rw [modArea_run] at h4
      injection h4 with _ h4
      have key : ∀ (ts : List TossNode) (b ch : Bool), b = true → ch = true → (ts.map (·.node)).Nodup → Allowed env ci s.cfg { u2.cfg with
          areas := s.cfg.areas ++ [{ a with
            group := al.group
            tossNodes := ts
            changed := b }]
          changed := ch } := by
        intro ts b ch hb hch hts
        have hsm : Same ci s.cfg { u2.cfg with
          areas := s.cfg.areas ++ [{ a with
            group := al.group
            tossNodes := ts
            changed := b }]
          changed := ch } := r2.trans same_areas
        refine ⟨hsm.rest, hsm.len, hsm.nodes, ⟨_, [{ a with
            group := al.group
            tossNodes := ts
            changed := b }], Fates.refl _ _ _, ?_, fun x hx => ⟨x, ?_, Evo.refl _ _ _⟩⟩, fun _ => hch, .inl hch⟩
        · unfold Config.live
          dsimp only
          rw [List.filter_append, filterMap_some, List.filter_cons, if_pos (by simp [htype])]; rfl
        · rw [List.mem_singleton] at hx
          subst hx
          refine ⟨cn, al, s.log, hc, hq, hal, hfl, hgr, rfl, ?_, htype, hban, hts, fun hp => hbase hp, hb⟩
          obtain ⟨lines, k1, l, k2, k3⟩ := hfile
          refine ⟨lines, k1, l, k2, ?_⟩
          dsimp only
          rw [htag, ← k3]
          congr 1
          unfold fileTag
          congr 1
          funext x
          revert x
          decide +kernel
      have c4 : u4.cfg = { u2.cfg with
          areas := s.cfg.areas ++ [{ a with group := al.group }]
          changed := true } := by
        rw [← h4, e3]
        dsimp only
        rw [a2, modify_at s.cfg.areas [] a _ (by rw [hj, a2])]
      refine Ends.bind (fun t h => absurd h matchFlags_noFail) fun ro u5 h5 => ?_
      obtain ⟨_, rfl⟩ := matchFlags_ok h5
      refine Ends.bind (fun t h => by rw [modArea_run] at h; cases h) fun _ u6 h6 => ?_
      rw [modArea_run] at h6
      injection h6 with _ h6
      refine Ends.pure ?_
      have c6 : u6.cfg = { u2.cfg with
          areas := s.cfg.areas ++ [{ a with
            group := al.group
            tossNodes := addTossNode a.tossNodes ci (if ro then TOSSNODE_READONLY else 0)
            changed := true }]
          changed := true } := by
        rw [← h6]
        dsimp only
        rw [c4]
        dsimp only
        rw [modify_at s.cfg.areas [] _ _ (by rw [hj, a2])]
      unfold Afx
      rw [c6]
      exact key _ _ _ rfl rfl (addTossNode_nodup hone _ _)

theorem afNoneAdd_afx (ci : Nat) (mynode : Node4D) (buf name : Str) (wild found : Bool) {r : AfReply} (g : r.Gen) :
    Sat (Afx env ci) (afNoneAdd env self ci mynode buf name wild found r) := by
  unfold afNoneAdd
  split
  · exact Sat.afx (afAddLine_cfg hs env g _)
  · split
    · exact (Afx.good env ci).pure _
    · refine sat_of_ends fun s => Ends.get ?_
      split
      · exact Ends.ub
      · next cn hc =>
        refine Ends.bind (fun t h => ?_) fun o u h => ?_
        · split at h
          · exact absurd h (findForward_noFail env)
          · cases h
        · have key : u = s ∧ ∀ al, o = some al → cn.has NODE_FORWARDREQ = true ∧ al ∈ s.cfg.arealists ∧ al.flags &&& 2 ≠ 0 ∧
              al.group ∈ cn.groups ∧
              ∃ lines, env.areaFile s.log al.file = some lines ∧ ∃ l ∈ lines, eqi (fileTag l) name = true := by
            split at h
            · next hq =>
              obtain ⟨e, k⟩ := findForward_ok env h
              exact ⟨e, fun al ha => ⟨hq, k al ha⟩⟩
            · cases h; exact ⟨rfl, fun _ h => by cases h⟩
          obtain ⟨rfl, key⟩ := key
          split
          · next al =>
            obtain ⟨k1, k2, k3, k4, k5⟩ := key al rfl
            exact afForward_afx hs env ci cn mynode buf name al g u hc k1 k2 k3 k4 k5
          · exact Sat.afx (addCommandReply_cfg hs env g _ _) u

theorem afFinish_afx (ci : Nat) (mynode : Node4D) (cmd : AfCmd) (buf name opt : Str) (wild global : Bool) (L : AfLoop)
    {r : AfReply} (g : r.Gen) : Sat (Afx env ci) (afFinish env self ci mynode cmd buf name opt wild global L r) := by
  unfold afFinish
  cases cmd with
  | add =>
    dsimp only
    split
    · exact (Afx.good env ci).pure _
    · exact afNoneAdd_afx hs env ci mynode buf name wild _ g
  | remove =>
    dsimp only
    split
    · exact (Afx.good env ci).pure _
    · split
      · exact Sat.afx (afAddLine_cfg hs env g _)
      · exact Sat.afx (addCommandReply_cfg hs env g _ _)
  | update =>
    dsimp only
    split
    · split
      · exact Sat.afx (addCommandReply_cfg hs env g _ _)
      · exact (Afx.good env ci).pure _
    · split
      · exact Sat.afx (afAddLine_cfg hs env g _)
      · exact Sat.afx (addCommandReply_cfg hs env g _ _)

theorem afAreaLine_afx (ci : Nat) (mynode : Node4D) (global : Bool) (buf : Str) {r : AfReply} (g : r.Gen) :
    Sat (Afx env ci) (afAreaLine env self ci mynode global buf r) := by
  unfold afAreaLine
  dsimp only
  have G := Afx.good env ci
  refine G.bindP AfReply.Gen ?_ ?_ fun r g => ?_
  · split
    · exact Sat.afx (afAddLines_cfg hs env g _)
    · exact G.pure _
  · intro s r t h
    split at h
    · exact (afAddLines_uses env g _).post _ _ _ _ h
    · cases h; exact g
  · refine G.bind G.get fun s => ?_
    refine G.bindP (fun L => L.r.Gen) (afAreas_afx hs env ci _ _ _ _ _ _ (L := { r := r }) g)
      (fun _ _ _ h => (afAreas_uses env ci _ _ _ _ _ _ (L := { r := r }) g).post _ _ _ _ h) fun L gL => ?_
    refine G.bindP AfReply.Gen (Sat.afx (afOptions_cfg hs env ci _ _ _ _ gL))
      (fun _ _ _ h => (afOptions_uses env ci _ _ _ _ gL).post _ _ _ _ h) fun r g => ?_
    refine G.bindP AfReply.Gen (afFinish_afx hs env ci _ _ _ _ _ _ _ _ g)
      (fun _ _ _ h => (afFinish_uses env ci _ _ _ _ _ _ _ _ g).post _ _ _ _ h) fun r g => ?_
    split
    · exact Sat.afx (afAddLine_cfg hs env g _)
    · exact G.pure _

theorem reply_cfg {st : AfSt} (g : st.r.Gen) (cmd reply : Str) : Sat CfgEq (st.reply env self cmd reply) := by
  unfold AfSt.reply
  exact CfgEq.good.bind (addCommandReply_cfg hs env g _ _) fun r => CfgEq.good.pure _

theorem afCompress_afx (ci : Nat) (buf arg : Str) {r : AfReply} (g : r.Gen) :
    Sat (Afx env ci) (afCompress env self ci buf arg r) := by
  have G := Afx.good env ci
  have two : ∀ (m : Str) (ls : List Str), Sat (Afx env ci) (addCommandReply env self r buf m >>= fun r => afAddLines env self r ls) :=
    fun m ls => G.bindP AfReply.Gen (Sat.afx (addCommandReply_cfg hs env g _ _))
      (fun _ _ _ h => (addCommandReply_uses env g _ _).post _ _ _ _ h) fun r g => Sat.afx (afAddLines_cfg hs env g _)
  unfold afCompress
  refine G.bind G.get fun s => ?_
  dsimp only
  split
  · exact two _ _
  · split
    · exact G.bind (modNode_afx env ci _ fun n => ⟨fun h => absurd rfl h, rfl, rfl, .inr rfl⟩) fun _ => Sat.afx (addCommandReply_cfg hs env g _ _)
    · split
      · exact G.bind (modNode_afx env ci _ fun n => ⟨fun h => absurd rfl h, rfl, rfl, .inr rfl⟩) fun _ => Sat.afx (addCommandReply_cfg hs env g _ _)
      · exact two _ _

omit hs in
theorem passive_or (f : UInt32) : (f ||| NODE_PASSIVE) &&& ~~~NODE_PASSIVE = f &&& ~~~NODE_PASSIVE := by
  apply UInt32.toBitVec_inj.1
  simp only [UInt32.toBitVec_and, UInt32.toBitVec_or, UInt32.toBitVec_not]
  apply BitVec.eq_of_getLsbD_eq
  intro i hi
  simp only [BitVec.getLsbD_and, BitVec.getLsbD_or, BitVec.getLsbD_not]
  cases f.toBitVec.getLsbD i <;> cases NODE_PASSIVE.toBitVec.getLsbD i <;> simp [hi]

omit hs in
theorem passive_and (f : UInt32) : (f &&& ~~~NODE_PASSIVE) &&& ~~~NODE_PASSIVE = f &&& ~~~NODE_PASSIVE := by
  rw [UInt32.and_assoc, UInt32.and_self]

theorem afPercent_afx (ci : Nat) (buf : Str) {st : AfSt} (g : st.r.Gen) : Sat (Afx env ci) (afPercent env self ci buf st) := by
  have G := Afx.good env ci
  unfold afPercent
  refine G.bind G.get fun s => ?_
  split
  · exact Sat.ub _
  · dsimp only
    have hr : ∀ (c m : Str), Sat (Afx env ci) (st.reply env self c m) := fun c m => Sat.afx (reply_cfg hs env g c m)
    have hd : ∀ (c m : Str) (f : AfSt → AfSt), Sat (Afx env ci) (st.reply env self c m >>= fun st => (pure (f st) : M AfSt)) :=
      fun c m f => G.bind (hr c m) fun st => G.pure _
    refine Sat.ite (Sat.ite (hr _ _) ?_) ?_
    · refine G.bind (modNode_afx env ci _ fun n => ⟨fun h => absurd rfl h, rfl, passive_or n.flags, .inr rfl⟩) fun _ => ?_
      exact G.bindP (fun st : AfSt => st.r.Gen) (hr _ _) (fun _ _ _ h => (reply_uses env g _ _).post _ _ _ _ h) fun st g =>
        G.bind (Sat.afx (reply_cfg hs env g _ _)) fun st => G.pure _
    refine Sat.ite (Sat.ite ?_ (hr _ _)) ?_
    · refine G.bind (modNode_afx env ci _ fun n => ⟨fun h => absurd rfl h, rfl, passive_and n.flags, .inr rfl⟩) fun _ => hd _ _ _
    refine Sat.ite (Sat.ite ?_ (hr _ _)) ?_
    · exact G.bind (modNode_afx env ci _ fun n => ⟨fun h => absurd rfl h, rfl, rfl, .inr rfl⟩) fun _ => hd _ _ _
    refine Sat.ite (Sat.ite (hd _ _ _) (hr _ _)) ?_
    refine Sat.ite (Sat.ite ?_ (hr _ _)) ?_
    · exact G.bind (afCompress_afx hs env ci _ _ g) fun r => G.pure _
    exact Sat.ite (hd _ _ _) (Sat.ite (hd _ _ _) (Sat.ite (hd _ _ _) (Sat.ite (hd _ _ _) (Sat.ite (hd _ _ _) (hd _ _ _)))))

theorem afLine_afx (ci : Nat) (mynode : Node4D) (buf : Str) {st : AfSt} (g : st.r.Gen) :
    Sat (Afx env ci) (afLine env self ci mynode buf st) := by
  have G := Afx.good env ci
  unfold afLine
  refine G.bind ?_ fun st => G.bind (removeDeleted_afx env ci) fun _ => G.pure _
  split
  · exact G.pure _
  · split
    · exact afPercent_afx hs env ci _ g
    · split
      · exact G.pure _
      · exact G.bind (afAreaLine_afx hs env ci mynode _ _ g) fun r => G.pure _

theorem afChunk_afx (ci : Nat) (mynode : Node4D) (f : Nat) (s : Str) {st : AfSt} (g : st.r.Gen) :
    Sat (Afx env ci) (afChunk env self ci mynode f s st) := by
  have G := Afx.good env ci
  induction f generalizing s st with
  | zero => exact G.pure _
  | succ f ih =>
    unfold afChunk
    split
    · exact G.pure _
    · dsimp only
      split
      · exact Sat.ub _
      · refine G.bindP (fun st : AfSt => st.r.Gen) (afLine_afx hs env ci mynode _ g)
          (fun _ _ _ h => (afLine_uses env ci mynode _ g).post _ _ _ _ h) fun st g => ?_
        split
        · exact G.pure _
        · exact ih _ g

theorem afText_afx (ci : Nat) (mynode : Node4D) (cs : List Str) {st : AfSt} (g : st.r.Gen) :
    Sat (Afx env ci) (afText env self ci mynode cs st) := by
  have G := Afx.good env ci
  induction cs generalizing st with
  | nil => exact G.pure _
  | cons c cs ih =>
    unfold afText
    refine G.bindP (fun p : AfSt × Bool => p.1.r.Gen) (afChunk_afx hs env ci mynode _ _ g)
      (fun _ _ _ h => (afChunk_uses env ci mynode _ _ g).post _ _ _ _ h) fun p g => ?_
    obtain ⟨st, stop⟩ := p
    dsimp only at g ⊢
    split
    · exact G.pure _
    · exact ih g

omit hs in
theorem afAccess_quiet (gr : UInt8) (n : ConfigNode) : Quiet (afAccess gr n) := by
  unfold afAccess
  refine Quiet.bind (matchFlags_quiet _ _) fun b => ?_
  split
  · exact Quiet.pure _
  · exact matchFlags_quiet _ _

omit hs in
theorem listLocal_quiet (type : ListType) (ci : Nat) (cn : ConfigNode) (as : List Area) :
    Quiet (listLocal env type ci cn as) := by
  induction as with
  | nil => exact Quiet.pure _
  | cons a as ih =>
    unfold listLocal
    refine Quiet.bind ?_ fun b => Quiet.bind ih fun es => ?_
    · split
      · split
        · exact Quiet.pure _
        · split
          · exact Quiet.pure _
          · exact afAccess_quiet _ _
        · split
          · exact Quiet.pure _
          · exact afAccess_quiet _ _
      · exact Quiet.pure _
    · split <;> exact Quiet.pure _

omit hs in
theorem listForward_quiet (areas : List Area) (cn : ConfigNode) (als : List Arealist) (es : List ListEntry) :
    Quiet (listForward env areas cn als es) := by
  induction als generalizing es with
  | nil => exact Quiet.pure _
  | cons al als ih =>
    unfold listForward
    refine Quiet.bind Quiet.get fun s => Quiet.bind ?_ fun b => ih _
    split
    · exact matchFlags_quiet _ _
    · exact Quiet.pure _

omit hs in
theorem listEntries_quiet (type : ListType) (ci : Nat) (cn : ConfigNode) : Quiet (listEntries env type ci cn) := by
  unfold listEntries
  refine Quiet.bind Quiet.get fun s => Quiet.bind (listLocal_quiet env _ _ _ _) fun es => Quiet.bind ?_ fun es => Quiet.pure _
  split
  · exact listForward_quiet env _ _ _ _
  · exact Quiet.pure _

omit hs in
theorem groupLines_quiet (cfg : Config) (ro : Bool) (cn : ConfigNode) (cs : List UInt8) : Quiet (groupLines cfg ro cn cs) := by
  induction cs with
  | nil => exact Quiet.pure _
  | cons c cs ih =>
    unfold groupLines
    refine Quiet.bind (matchFlags_quiet _ _) fun r => Quiet.bind ?_ fun b => Quiet.bind ih fun ls => ?_
    · split
      · exact Quiet.pure _
      · split
        · exact Quiet.pure _
        · exact matchFlags_quiet _ _
    · dsimp only
      split <;> exact Quiet.pure _

theorem linesSend_cfg {r : AfReply} (g : r.Gen) (ls : List Str) :
    Sat CfgEq (afAddLines env self r ls >>= fun r => afSend self r) :=
  CfgEq.good.bindP AfReply.Gen (afAddLines_cfg hs env g _) (fun _ _ _ h => (afAddLines_uses env g _).post _ _ _ _ h)
    fun _ g => afSend_cfg hs g

theorem sendList_cfg (type : ListType) (from4 : Node4D) (toname : Str) (ci : Nat) :
    Sat CfgEq (sendList env self type from4 toname ci) := by
  have G := CfgEq.good
  unfold sendList
  refine G.bind G.get fun s => ?_
  split
  · exact Sat.ub _
  · refine G.bindP AfReply.Gen (G.quiet (afInit_quiet _ _ _ _ _)) (fun _ _ _ h => afInit_gen h) fun r g => ?_
    refine G.bindP AfReply.Gen (afAddLines_cfg hs env g _) (fun _ _ _ h => (afAddLines_uses env g _).post _ _ _ _ h) fun r g => ?_
    refine G.bind (G.quiet (listEntries_quiet env _ _ _)) fun es => G.bind (G.lift _) fun body => linesSend_cfg hs env g _

theorem sendHelp_cfg (from4 : Node4D) (toname : Str) (ci : Nat) : Sat CfgEq (sendHelp env self from4 toname ci) := by
  have G := CfgEq.good
  unfold sendHelp
  refine G.bind G.get fun s => ?_
  split
  · exact Sat.ub _
  · exact G.bindP AfReply.Gen (G.quiet (afInit_quiet _ _ _ _ _)) (fun _ _ _ h => afInit_gen h) fun r g => linesSend_cfg hs env g _

theorem sendInfo_cfg (from4 : Node4D) (toname : Str) (ci : Nat) : Sat CfgEq (sendInfo env self from4 toname ci) := by
  have G := CfgEq.good
  unfold sendInfo
  refine G.bind G.get fun s => ?_
  split
  · exact Sat.ub _
  · refine G.bindP AfReply.Gen (G.quiet (afInit_quiet _ _ _ _ _)) (fun _ _ _ h => afInit_gen h) fun r g => ?_
    dsimp only
    refine G.bind (G.quiet (groupLines_quiet _ _ _ _)) fun _ => G.bind (G.quiet (groupLines_quiet _ _ _ _)) fun _ => linesSend_cfg hs env g _

theorem sendRemote1_afx (ci i : Nat) : Sat (Afx env ci) (sendRemote1 env self i) := by
  have G := Afx.good env ci
  unfold sendRemote1
  refine G.bind G.get fun s => ?_
  split
  · exact G.pure _
  · split
    · exact G.pure _
    · split
      · exact Sat.ub _
      · refine G.bindP Gen (G.quiet (newNetmail_quiet _ _ _ _ _ _ _)) (fun _ _ _ h => newNetmail_gen h) fun m g => ?_
        refine G.bindP Gen (G.quiet (mmAddLines_quiet _ _)) (fun _ _ _ h => g.keep (mmAddLines_keep h)) fun m g => ?_
        refine G.bind (Sat.afx (attempt_sat (hs _ g))) fun _ => ?_
        refine sat_of_ends fun s => Ends.get (Ends.set (Same.allowed ?_ rfl (.inr ⟨rfl, remote_nodes _ _ _⟩)))
        exact same_modify (as := s.cfg.areas) (ch := s.cfg.changed) fun n _ => nodeEvo_remote n _

theorem sendRemote_afx (ci k i : Nat) : Sat (Afx env ci) (sendRemote env self k i) := by
  induction k generalizing i with
  | zero => exact (Afx.good env ci).pure _
  | succ k ih => exact (Afx.good env ci).bind (sendRemote1_afx hs env ci i) fun _ => ih _

theorem afLists_cfg (mynode : Node4D) (toname : Str) (ci : Nat) (st : AfSt) :
    Sat CfgEq (afLists env self mynode toname ci st) := by
  have G := CfgEq.good
  have opt : ∀ (b : Bool) (x : M Unit), Sat CfgEq x → Sat CfgEq (if b then x else pure ()) := by
    intro b x h; split
    · exact h
    · exact G.pure _
  unfold afLists
  refine G.bind (opt _ _ (sendList_cfg hs env _ _ _ _)) fun _ => G.bind (opt _ _ (sendList_cfg hs env _ _ _ _)) fun _ =>
    G.bind (opt _ _ (sendList_cfg hs env _ _ _ _)) fun _ => G.bind (opt _ _ (sendHelp_cfg hs env _ _ _)) fun _ => ?_
  exact opt _ _ (sendInfo_cfg hs env _ _ _)

theorem afRun_afx (m : MemMsg) (mynode : Node4D) (ci : Nat) (rest : Str) {r : AfReply} (g : r.Gen) :
    Sat (Afx env ci) (afRun env self m mynode ci rest r) := by
  have G := Afx.good env ci
  unfold afRun
  dsimp only
  refine G.bindP (fun st : AfSt => st.r.Gen) ?_ ?_ fun st g => ?_
  · split
    · exact G.bind (Sat.afx (addCommandReply_cfg hs env g _ _)) fun r => G.pure _
    · exact G.pure _
  · intro s st t h
    split at h
    · rw [bind_ok] at h
      obtain ⟨r, u, h1, h⟩ := h
      cases h
      exact (addCommandReply_uses env g _ _).post _ _ _ _ h1
    · cases h; exact g
  · refine G.bindP (fun st : AfSt => st.r.Gen) (afText_afx hs env ci mynode _ g)
      (fun _ _ _ h => (afText_uses env ci mynode _ g).post _ _ _ _ h) fun st g => ?_
    refine G.bindP AfReply.Gen ?_ ?_ fun r g => ?_
    · split
      · exact G.pure _
      · exact Sat.afx (afAddLine_cfg hs env g _)
    · intro s r t h
      split at h
      · cases h; exact g
      · exact (afAddLine_uses env g _).post _ _ _ _ h
    · refine G.bind G.get fun s => ?_
      split
      · exact Sat.fail G.refl
      · refine G.bind (Sat.afx (afSend_cfg hs g)) fun _ => G.bind (Sat.afx (afLists_cfg hs env _ _ _ _)) fun _ => ?_
        exact G.bind G.get fun s => sendRemote_afx hs env ci _ _

theorem afRefuse_cfg {r : AfReply} (g : r.Gen) (line : Str) : Sat CfgEq (afRefuse env self r line) :=
  CfgEq.good.bindP AfReply.Gen (afAddLine_cfg hs env g _) (fun _ _ _ h => (afAddLine_uses env g _).post _ _ _ _ h)
    fun _ g => afSend_cfg hs g

end

end CM
