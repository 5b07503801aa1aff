import Verif.Lemmas.Request
/-! # Requests: the areas of a line -/

set_option linter.unusedSimpArgs false
namespace CM

theorem cmdReply_eq (cmd reply : Str) : cmdReply cmd reply = answer cmd reply := by
  unfold cmdReply answer padR
  split
  · rfl
  · simp only [List.nil_append, List.length_nil, Nat.sub_zero]; rfl

theorem wild_iff (pat : Str) : osIsPattern pat = true ↔ Wild pat := by
  unfold osIsPattern Wild
  simp

theorem osMatch_star (p s : Str) : osMatchPattern (42 :: p) s = true := by
  unfold osMatchPattern; simp

theorem tagFits_iff (pat tag : Str) : osMatchPattern pat tag = true ↔ TagFits pat tag := by
  induction pat generalizing tag with
  | nil =>
    unfold TagFits osMatchPattern
    cases tag <;> simp
  | cons p ps ih =>
    by_cases hp : p = 42
    · subst hp
      rw [osMatch_star]
      unfold TagFits
      rw [if_pos (by simp)]
      simp
    · cases tag with
      | nil =>
        have e : osMatchPattern (p :: ps) [] = false := by unfold osMatchPattern; rw [if_neg hp]
        rw [e]
        unfold TagFits
        split
        · rw [List.takeWhile_cons_of_pos (by simpa using hp)]; simp
        · simp
      | cons c tag =>
        unfold osMatchPattern
        rw [if_neg hp]
        dsimp only
        have hm : (42 ∈ p :: ps) ↔ 42 ∈ ps := by simp [Ne.symm hp]
        have e : TagFits (p :: ps) (c :: tag) ↔ charFits (p, c) = true ∧ TagFits ps tag := by
          unfold TagFits
          by_cases h : 42 ∈ ps
          · rw [if_pos (hm.2 h), if_pos h, List.takeWhile_cons_of_pos (by simpa using hp)]
            simp only [List.zip_cons_cons, List.all_cons, List.length_cons, Bool.and_eq_true, Nat.add_le_add_iff_right]
            exact ⟨fun ⟨a, b, d⟩ => ⟨b, a, d⟩, fun ⟨b, a, d⟩ => ⟨a, b, d⟩⟩
          · rw [if_neg (fun x => h (hm.1 x)), if_neg h]
            simp only [List.zip_cons_cons, List.all_cons, List.length_cons, Bool.and_eq_true, Nat.add_right_cancel_iff]
            exact ⟨fun ⟨a, b, d⟩ => ⟨b, a, d⟩, fun ⟨b, a, d⟩ => ⟨a, b, d⟩⟩
        rw [e, ← ih]
        unfold charFits
        by_cases h1 : p = 63
        · simp [h1]
        · by_cases h2 : lower p = lower c
          · simp [h1, h2]
          · simp [h1, h2]

theorem isLinked_iff (ci : Nat) (a : Area) : IsLinked ci a ↔ (firstLink ci a).isSome = true := by
  unfold IsLinked firstLink
  rw [List.find?_isSome]
  simp

/-- The area before the areas to be removed are taken away. -/
def Verdict.mid (ci : Nat) (a : Area) : Verdict → Area
  | .joins ro => { a with
      tossNodes := a.tossNodes ++ [⟨ci, if ro then TOSSNODE_READONLY else 0⟩]
      changed := true }
  | .leaves => { a with
      tossNodes := linksLeft ci a
      changed := true }
  | .closes _ => { a with
      tossNodes := linksLeft ci a
      changed := true
      type := .deleted }
  | _ => a

theorem Verdict.after_mid {ci : Nat} {a : Area} (h : a.type ≠ .deleted) (v : Verdict) :
    v.after ci a = if (v.mid ci a).type ≠ .deleted then some (v.mid ci a) else none := by
  cases v <;> simp [Verdict.after, Verdict.mid, h]

theorem enqueue_append (ns : List ConfigNode) (p q : List (Nat × Str)) : enqueue ns (p ++ q) = enqueue (enqueue ns p) q := by
  unfold enqueue; rw [List.foldl_append]

/-- Verdicts depend on few settings. -/
theorem verdict_congr {c c' : Config} {cn cn' : ConfigNode} (hf : c'.flags = c.flags) (hg : cn'.groups = cn.groups)
    (hr : cn'.readOnlyGroups = cn.readOnlyGroups) (ci : Nat) (w : Wish) (pat : Str) (a : Area) :
    verdict c' ci cn' w pat a = verdict c ci cn w pat a := by
  have e : CanSee cn' a.group ↔ CanSee cn a.group := by unfold CanSee; rw [hg, hr]
  unfold verdict Config.has
  simp only [hf, hr, e]

/-- The command a wish is for the program. -/
def Wish.cmd : Wish → AfCmd
  | .join => .add
  | .leave => .remove
  | .again => .update

section
variable {self : MemMsg → M Unit} (hs : Settled self) {env : Env}
include hs

theorem told_line {r r' : AfReply} {l : Str} {s t : HSt} (g : r.Gen) (h : afAddLine env self r l s = .ok r' t) :
    t.cfg = s.cfg ∧ Replied env self r s [l] r' t :=
  ⟨((afAddLine_calm hs env g l s).1 _ _ h).1, .line h .nil⟩

theorem told_lines {r r' : AfReply} {ls : List Str} {s t : HSt} (g : r.Gen) (h : afAddLines env self r ls s = .ok r' t) :
    t.cfg = s.cfg ∧ Replied env self r s ls r' t :=
  ⟨((afAddLines_calm hs env g ls s).1 _ _ h).1, .lines h⟩

theorem told_answer {r r' : AfReply} {cmd reply : Str} {s t : HSt} (g : r.Gen)
    (h : addCommandReply env self r cmd reply s = .ok r' t) : t.cfg = s.cfg ∧ Replied env self r s (answer cmd reply) r' t := by
  unfold addCommandReply at h
  rw [cmdReply_eq] at h
  exact told_lines hs g h

theorem told_say {r r' : AfReply} {wild : Bool} {buf long short : Str} {s t : HSt} (g : r.Gen)
    (h : afSay env self r wild buf long short s = .ok r' t) :
    t.cfg = s.cfg ∧ Replied env self r s (if wild then [long] else answer buf short) r' t := by
  unfold afSay at h
  cases wild with
  | true => rw [if_pos rfl] at h ⊢; exact told_line hs g h
  | false => rw [if_neg (by simp)] at h ⊢; exact told_answer hs g h

end

/-- What one round of the loop over the areas does. -/
structure AreaStep (env : Env) (self : MemMsg → M Unit) (ci : Nat) (w : Wish) (line pat : Str) (i : Nat) (a : Area) (cn : ConfigNode)
    (L : AfLoop) (s : HSt) (L' : AfLoop) (t : HSt) : Prop where
  told : Replied env self L.r s ((verdict s.cfg ci cn w pat a).say line pat a.tag) L'.r t
  cfg : t.cfg = { s.cfg with
    areas := s.cfg.areas.modify i fun a => (verdict s.cfg ci cn w pat a).mid ci a
    nodes := enqueue s.cfg.nodes ((verdict s.cfg ci cn w pat a).tells ci a)
    changed := s.cfg.changed || (verdict s.cfg ci cn w pat a).acts }
  done : L'.done = (L.done || (verdict s.cfg ci cn w pat a).settles pat)
  found : L'.found = (L.found || decide (a.type = .echomail ∧ TagFits pat a.tag))
  rescan : L'.rescan = if (verdict s.cfg ci cn w pat a).rescans = true ∧ (w = .join ∨ ¬ Wild pat) then some i else L.rescan

theorem modify_same {α : Type} {l : List α} {i : Nat} {a : α} (h : l[i]? = some a) (f : α → α) (e : f a = a) :
    l.modify i f = l := by
  apply List.ext_getElem?
  intro j
  rw [List.getElem?_modify]
  by_cases hj : i = j
  · subst hj; rw [h]; simp [e]
  · simp [hj]

theorem modify_congr {α : Type} {l : List α} {i : Nat} {a : α} (h : l[i]? = some a) (f g : α → α) (e : f a = g a) :
    l.modify i f = l.modify i g := by
  apply List.ext_getElem?
  intro j
  rw [List.getElem?_modify, List.getElem?_modify]
  by_cases hj : i = j
  · subst hj; rw [h]; simp [e]
  · simp [hj]

theorem say_wild {pat : Str} {v : Verdict} {line tag : Str} (h : osIsPattern pat = true) :
    v.say line pat tag = v.sayWild tag := by
  unfold Verdict.say; rw [if_pos ((wild_iff _).1 h)]

theorem say_plain {pat : Str} {v : Verdict} {line tag : Str} (h : ¬ osIsPattern pat = true) :
    v.say line pat tag = match v.sayPlain with
      | some t => answer line t
      | none => [] := by
  unfold Verdict.say; rw [if_neg (fun x => h ((wild_iff _).2 x))]; rfl

/-- The lines as `afSay` has them. -/
theorem say_eq {pat : Str} {v : Verdict} {line tag long short : Str} (hw : v.sayWild tag = [long]) (hp : v.sayPlain = some short) :
    v.say line pat tag = if osIsPattern pat then [long] else answer line short := by
  by_cases h : osIsPattern pat = true
  · rw [say_wild h, if_pos h, hw]
  · rw [say_plain h, if_neg h, hp]

/-- Nothing but something said. -/
theorem AreaStep.quiet {env : Env} {self : MemMsg → M Unit} {ci : Nat} {w : Wish} {line pat : Str} {i : Nat} {a : Area}
    {cn : ConfigNode} {L L' : AfLoop} {s t : HSt} {v : Verdict} (ha : s.cfg.areas[i]? = some a)
    (hm : a.type = .echomail ∧ TagFits pat a.tag) (hv : verdict s.cfg ci cn w pat a = v) (h1 : v.mid ci a = a)
    (h2 : v.tells ci a = []) (h3 : v.acts = false) (h4 : v.rescans = false) (hc : t.cfg = s.cfg)
    (ht : Replied env self L.r s (v.say line pat a.tag) L'.r t) (hd : L'.done = (L.done || v.settles pat)) (hf : L'.found = true)
    (hr : L'.rescan = L.rescan) : AreaStep env self ci w line pat i a cn L s L' t := by
  refine ⟨by rw [hv]; exact ht, ?_, by rw [hv]; exact hd, ?_, ?_⟩
  · rw [hv, h2, h3, modify_same ha _ (by rw [hv, h1]), hc]
    simp [enqueue]
  · rw [hf]; simp [hm]
  · rw [hv, h4, hr]; simp

section
variable {self : MemMsg → M Unit} (hs : Settled self) {env : Env}
include hs

theorem afAdd_step {ci i : Nat} {cn : ConfigNode} {line pat : Str} {a : Area} {L L' : AfLoop} {s t : HSt} (g : L.r.Gen)
    (ha : s.cfg.areas[i]? = some a) (hm : a.type = .echomail ∧ TagFits pat a.tag)
    (h : afAdd env self ci cn line (osIsPattern pat) i a { L with found := true } s = .ok L' t) :
    AreaStep env self ci .join line pat i a cn L s L' t := by
  have hvd : verdict s.cfg ci cn .join pat a = if IsLinked ci a then .already
      else if ¬ CanSee cn a.group then .refused
      else if ci ∈ a.banned then .banned
      else .joins (a.has AREA_DEFREADONLY || decide (a.group ∈ cn.readOnlyGroups)) := by
    unfold verdict; rw [if_neg (fun x => x hm)]
  unfold afAdd at h
  cases hl : a.linkOf ci with
  | some t0 =>
    have hlk : IsLinked ci a := (isLinked_iff ci a).2 (by show (a.linkOf ci).isSome = true; rw [hl]; rfl)
    rw [if_pos hlk] at hvd
    rw [hl] at h
    dsimp only at h
    rw [bind_ok] at h
    obtain ⟨r, u, h1, h⟩ := h
    cases h
    obtain ⟨c1, c2⟩ := told_say hs g h1
    exact .quiet ha hm hvd rfl rfl rfl rfl c1 (by rw [say_eq rfl rfl]; exact c2) (by simp [Verdict.settles]) rfl rfl
  | none =>
    have hlk : ¬ IsLinked ci a := fun x => by
      have := (isLinked_iff ci a).1 x
      rw [show firstLink ci a = none from hl] at this; cases this
    rw [if_neg hlk] at hvd
    rw [hl] at h
    dsimp only at h
    rw [bind_ok] at h
    obtain ⟨acc, u, h1, h⟩ := h
    obtain ⟨hacc, e1⟩ := afAccess_ok h1
    subst e1
    have hcan : acc = true ↔ CanSee cn a.group := hacc
    cases acc with
    | false =>
      rw [if_pos (fun x => by simpa using hcan.2 x)] at hvd
      simp only [Bool.false_eq_true, if_false] at h
      by_cases hw : osIsPattern pat = true
      · rw [if_pos hw] at h
        cases h
        exact .quiet ha hm hvd rfl rfl rfl rfl rfl (by rw [say_wild hw]; exact .nil) (by simp [Verdict.settles]) rfl rfl
      · rw [if_neg hw, bind_ok] at h
        obtain ⟨r, v, h2, h⟩ := h
        cases h
        obtain ⟨c1, c2⟩ := told_answer hs g h2
        exact .quiet ha hm hvd rfl rfl rfl rfl c1 (by rw [say_plain hw]; exact c2) (by simp [Verdict.settles]) rfl rfl
    | true =>
      rw [if_neg (fun x => x (hcan.1 rfl))] at hvd
      rw [if_pos rfl] at h
      by_cases hb : a.banned.contains ci = true
      · rw [if_pos (by simpa using hb)] at hvd
        rw [if_pos hb, bind_ok] at h
        obtain ⟨r, v, h2, h⟩ := h
        cases h
        obtain ⟨c1, c2⟩ := told_say hs g h2
        exact .quiet ha hm hvd rfl rfl rfl rfl c1 (by rw [say_eq rfl rfl]; exact c2) (by simp [Verdict.settles]) rfl rfl
      · rw [if_neg (by simpa using hb)] at hvd
        rw [if_neg hb, bind_ok] at h
        obtain ⟨ro, v, h2, h⟩ := h
        obtain ⟨hro, e2⟩ := afReadOnly_ok h2
        subst e2
        have hro' : (a.has AREA_DEFREADONLY || decide (a.group ∈ cn.readOnlyGroups)) = ro := by
          rw [Bool.eq_iff_iff, hro]; simp
        rw [hro'] at hvd
        rw [bind_ok] at h
        obtain ⟨r, v2, h3, h⟩ := h
        rw [bind_ok] at h
        obtain ⟨_, v3, h4, h⟩ := h
        rw [modArea_run] at h4
        cases h4
        cases h
        have key : v2.cfg = v.cfg ∧ Replied env self L.r v ((Verdict.joins ro).say line pat a.tag) r v2 := by
          cases ro with
          | true => rw [if_pos rfl] at h3; rw [say_eq rfl rfl]; exact told_say hs g h3
          | false => rw [if_neg (by simp)] at h3; rw [say_eq rfl rfl]; exact told_say hs g h3
        obtain ⟨c1, c2⟩ := key
        refine ⟨?_, ?_, ?_, ?_, ?_⟩
        · rw [hvd]
          have := c2.trans (Replied.skip (t := { v2 with cfg := { v2.cfg with
            areas := v2.cfg.areas.modify i fun a => { a with
              tossNodes := a.tossNodes ++ [⟨ci, if ro = true then TOSSNODE_READONLY else 0⟩]
              changed := true }
            changed := true } }) (List.prefix_refl _) rfl)
          simpa using this
        · rw [hvd]
          dsimp only
          rw [c1]
          rw [modify_congr ha (fun a_1 => (verdict v.cfg ci cn .join pat a_1).mid ci a_1) (fun a => { a with
              tossNodes := a.tossNodes ++ [⟨ci, if ro = true then TOSSNODE_READONLY else 0⟩]
              changed := true }) (by rw [hvd]; rfl)]
          simp [enqueue, Verdict.tells, Verdict.acts]
        · rw [hvd]; simp [Verdict.settles]
        · simp [hm]
        · rw [hvd]; simp [Verdict.rescans]

theorem afAfterRemove_run {i : Nat} {a : Area} {ts : List TossNode} {feed : Bool} {s t : HSt}
    (h : afAfterRemove env self i a ts feed s = .ok () t) :
    s.log <+: t.log ∧
    ((feed = true ∧ s.cfg.has CFG_REMOVEWHENFEED = true ∧ t.cfg = { s.cfg with
        areas := s.cfg.areas.modify i fun a => { a with type := .deleted }
        changed := true }) ∨
     (¬ (feed = true ∧ s.cfg.has CFG_REMOVEWHENFEED = true) ∧ s.cfg.has CFG_AREAFIXREMOVE = true ∧ nobodyLeft ts = true ∧
        a.base = none ∧ t.cfg = { s.cfg with
          areas := s.cfg.areas.modify i fun a => { a with type := .deleted }
          nodes := enqueue s.cfg.nodes ((ts.take 1).map fun t => (t.node, (b!"-" ++ a.tag.take 78).take 70))
          changed := true }) ∨
     (¬ (feed = true ∧ s.cfg.has CFG_REMOVEWHENFEED = true) ∧
        ¬ (s.cfg.has CFG_AREAFIXREMOVE = true ∧ a.base = none ∧ nobodyLeft ts = true) ∧ t.cfg = s.cfg)) := by
  unfold afAfterRemove at h
  rw [get_bind] at h
  have hlon : lonely ts = nobodyLeft ts := by
    cases ts with
    | nil => rfl
    | cons x ts => cases ts <;> rfl
  have hbase : a.base.isNone = true ↔ a.base = none := Option.isNone_iff_eq_none
  by_cases h1 : (feed && s.cfg.has CFG_REMOVEWHENFEED) = true
  · rw [if_pos h1, bind_ok] at h
    obtain ⟨_, u, h2, h⟩ := h
    obtain ⟨c1, c2⟩ := (sendRemove_calm hs env _ _ _ _).1 _ _ h2
    rw [modArea_run] at h
    cases h
    simp only [Bool.and_eq_true] at h1
    exact ⟨c2, .inl ⟨h1.1, h1.2, by dsimp only; rw [c1]⟩⟩
  · rw [if_neg h1] at h
    simp only [Bool.and_eq_true] at h1
    by_cases h2 : (s.cfg.has CFG_AREAFIXREMOVE && lonely ts && a.base.isNone) = true
    · rw [if_pos h2, bind_ok] at h
      obtain ⟨_, u, h3, h⟩ := h
      rw [modArea_run] at h
      cases h
      simp only [Bool.and_eq_true, hlon, hbase] at h2
      cases ts with
      | nil => cases h3; exact ⟨List.prefix_refl _, .inr (.inl ⟨h1, h2.1.1, h2.1.2, h2.2, rfl⟩)⟩
      | cons x ts =>
        unfold remoteRemove remoteCmd at h3
        dsimp only at h3
        rw [get_bind, set_run] at h3
        cases h3
        exact ⟨List.prefix_refl _, .inr (.inl ⟨h1, h2.1.1, h2.1.2, h2.2, rfl⟩)⟩
    · rw [if_neg h2] at h
      cases h
      refine ⟨List.prefix_refl _, .inr (.inr ⟨h1, fun x => h2 ?_, rfl⟩)⟩
      simp only [Bool.and_eq_true, hlon, hbase]
      exact ⟨⟨x.1, x.2.2⟩, x.2.1⟩

theorem afRemove_step {ci i : Nat} {cn : ConfigNode} {line pat : Str} {a : Area} {L L' : AfLoop} {s t : HSt} (g : L.r.Gen)
    (ha : s.cfg.areas[i]? = some a) (hm : a.type = .echomail ∧ TagFits pat a.tag)
    (h : afRemove env self ci line (osIsPattern pat) i a { L with found := true } s = .ok L' t) :
    AreaStep env self ci .leave line pat i a cn L s L' t := by
  have hvd : verdict s.cfg ci cn .leave pat a = match firstLink ci a with
      | none => .notLinked
      | some t =>
        if a.has AREA_MANDATORY = true ∧ t.has TOSSNODE_FEED = false then .held
        else if t.has TOSSNODE_FEED = true ∧ s.cfg.has CFG_REMOVEWHENFEED = true then .closes true
        else if s.cfg.has CFG_AREAFIXREMOVE = true ∧ a.base = none ∧ nobodyLeft (linksLeft ci a) = true then .closes false
        else .leaves := by
    unfold verdict; rw [if_neg (fun x => x hm)]; rfl
  unfold afRemove at h
  cases hl : a.linkOf ci with
  | none =>
    rw [show firstLink ci a = none from hl] at hvd
    rw [hl] at h
    dsimp only at h hvd
    by_cases hw : osIsPattern pat = true
    · rw [if_pos hw] at h
      cases h
      exact .quiet ha hm hvd rfl rfl rfl rfl rfl (by rw [say_wild hw]; exact .nil)
        (by simp [Verdict.settles, (wild_iff _).1 hw]) rfl rfl
    · rw [if_neg hw, bind_ok] at h
      obtain ⟨r, v, h2, h⟩ := h
      cases h
      obtain ⟨c1, c2⟩ := told_answer hs g h2
      exact .quiet ha hm hvd rfl rfl rfl rfl c1 (by rw [say_plain hw]; exact c2)
        (by simp only [Verdict.settles, decide_eq_true_eq]; exact (Bool.or_eq_true_iff.2 (.inr (by simpa using fun x => hw ((wild_iff _).2 x)))).symm) rfl rfl
  | some l =>
    rw [show firstLink ci a = some l from hl] at hvd
    rw [hl] at h
    dsimp only at h hvd
    by_cases hh : (a.has AREA_MANDATORY && !l.has TOSSNODE_FEED) = true
    · rw [if_pos (by simpa using hh)] at hvd
      rw [if_pos hh, bind_ok] at h
      obtain ⟨r, v, h2, h⟩ := h
      cases h
      obtain ⟨c1, c2⟩ := told_say hs g h2
      exact .quiet ha hm hvd rfl rfl rfl rfl c1 (by rw [say_eq rfl rfl]; exact c2) (by simp [Verdict.settles]) rfl rfl
    · rw [if_neg (by simpa using hh)] at hvd
      rw [if_neg hh, bind_ok] at h
      obtain ⟨r, u, h2, h⟩ := h
      obtain ⟨c1, c2⟩ := told_say hs g h2
      rw [bind_ok] at h
      obtain ⟨_, u2, h3, h⟩ := h
      rw [modArea_run] at h3
      cases h3
      rw [bind_ok] at h
      obtain ⟨_, u3, h4, h⟩ := h
      cases h
      obtain ⟨d1, d2⟩ := afAfterRemove_run hs h4
      dsimp only at d1 d2
      have hmax : t.cfg.areafixMaxLines = u.cfg.areafixMaxLines := by
        rcases d2 with ⟨_, _, e⟩ | ⟨_, _, _, _, e⟩ | ⟨_, _, e⟩ <;> rw [e]
      have hsaid : Replied env self L.r s (if osIsPattern pat then [b!"   Detached from " ++ a.tag] else answer line b!"Detached") r t := by
        simpa using c2.trans (Replied.skip d1 hmax)
      have hmod : ∀ f g : Area → Area, (s.cfg.areas.modify i f).modify i g = s.cfg.areas.modify i fun a => g (f a) := by
        intro f g
        apply List.ext_getElem?
        intro j
        simp only [List.getElem?_modify]
        by_cases hj : i = j
        · subst hj; cases s.cfg.areas[i]? <;> simp
        · cases s.cfg.areas[j]? <;> simp [hj]
      have hflag : ∀ m, ({ u with cfg := { u.cfg with
          areas := u.cfg.areas.modify i fun a => { a with
            tossNodes := a.tossNodes.eraseP (·.node == ci)
            changed := true }
          changed := true } } : HSt).cfg.has m = s.cfg.has m := by
        intro m; unfold Config.has; dsimp only; rw [c1]
      rcases d2 with ⟨e1, e2, e3⟩ | ⟨e1, e2, e3, e4, e5⟩ | ⟨e1, e2, e3⟩
      · rw [hflag] at e2
        rw [if_pos ⟨e1, e2⟩] at hvd
        refine ⟨by rw [hvd, say_eq rfl rfl]; exact hsaid, ?_, by rw [hvd]; simp [Verdict.settles], by simp [hm],
          by rw [hvd]; simp [Verdict.rescans]⟩
        rw [e3, hvd, c1, hmod, modify_congr ha (fun a_1 => (verdict s.cfg ci cn .leave pat a_1).mid ci a_1)
          (fun a => { a with
            tossNodes := a.tossNodes.eraseP (·.node == ci)
            changed := true
            type := .deleted }) (by rw [hvd]; rfl)]
        simp [enqueue, Verdict.tells, Verdict.acts]
      · rw [hflag] at e1 e2
        rw [if_neg e1, if_pos ⟨e2, e4, e3⟩] at hvd
        refine ⟨by rw [hvd, say_eq rfl rfl]; exact hsaid, ?_, by rw [hvd]; simp [Verdict.settles], by simp [hm],
          by rw [hvd]; simp [Verdict.rescans]⟩
        rw [e5, hvd, c1, hmod, modify_congr ha (fun a_1 => (verdict s.cfg ci cn .leave pat a_1).mid ci a_1)
          (fun a => { a with
            tossNodes := a.tossNodes.eraseP (·.node == ci)
            changed := true
            type := .deleted }) (by rw [hvd]; rfl)]
        simp only [Verdict.acts, Bool.or_true, Verdict.tells]
        cases hk : linksLeft ci a with
        | nil => rw [show a.tossNodes.eraseP (·.node == ci) = [] from hk]; rfl
        | cons x xs => rw [show a.tossNodes.eraseP (·.node == ci) = x :: xs from hk]; rfl
      · rw [hflag] at e1 e2
        rw [if_neg e1, if_neg (show ¬ (_ ∧ _ ∧ nobodyLeft (linksLeft ci a) = true) from e2)] at hvd
        refine ⟨by rw [hvd, say_eq rfl rfl]; exact hsaid, ?_, by rw [hvd]; simp [Verdict.settles], by simp [hm],
          by rw [hvd]; simp [Verdict.rescans]⟩
        rw [e3, hvd, c1, modify_congr ha (fun a_1 => (verdict s.cfg ci cn .leave pat a_1).mid ci a_1)
          (fun a => { a with
            tossNodes := a.tossNodes.eraseP (·.node == ci)
            changed := true }) (by rw [hvd]; rfl)]
        simp [enqueue, Verdict.tells, Verdict.acts]

theorem afUpdate_step {ci i : Nat} {cn : ConfigNode} {line pat : Str} {a : Area} {L L' : AfLoop} {s t : HSt} (g : L.r.Gen)
    (ha : s.cfg.areas[i]? = some a) (hm : a.type = .echomail ∧ TagFits pat a.tag)
    (h : afUpdate env self ci line (osIsPattern pat) i a { L with found := true } s = .ok L' t) :
    AreaStep env self ci .again line pat i a cn L s L' t := by
  have hvd : verdict s.cfg ci cn .again pat a = if IsLinked ci a then .linked else .skip := by
    unfold verdict; rw [if_neg (fun x => x hm)]
  unfold afUpdate at h
  cases hl : a.linkOf ci with
  | none =>
    have hlk : ¬ IsLinked ci a := fun x => by
      have := (isLinked_iff ci a).1 x
      rw [show firstLink ci a = none from hl] at this; cases this
    rw [if_neg hlk] at hvd
    rw [hl] at h
    cases h
    refine .quiet ha hm hvd rfl rfl rfl rfl rfl ?_ (by simp [Verdict.settles]) rfl rfl
    have : Verdict.skip.say line pat a.tag = [] := by unfold Verdict.say; split <;> rfl
    rw [this]; exact .nil
  | some l =>
    have hlk : IsLinked ci a := (isLinked_iff ci a).2 (by show (a.linkOf ci).isSome = true; rw [hl]; rfl)
    rw [if_pos hlk] at hvd
    rw [hl] at h
    dsimp only at h
    rw [bind_ok] at h
    obtain ⟨r, u, h1, h⟩ := h
    cases h
    obtain ⟨c1, c2⟩ := told_say hs g h1
    refine ⟨by rw [hvd, say_eq rfl rfl]; exact c2, ?_, by rw [hvd]; simp [Verdict.settles], by simp [hm], ?_⟩
    · rw [hvd, modify_same ha _ (by rw [hvd]; rfl), c1]
      simp [enqueue, Verdict.tells, Verdict.acts]
    · rw [hvd]
      by_cases hw : osIsPattern pat = true
      · simp [hw, (wild_iff _).1 hw, Verdict.rescans]
      · have hW : ¬ Wild pat := fun x => hw ((wild_iff _).2 x)
        simp [hw, hW, Verdict.rescans]

theorem afArea_step {ci i : Nat} {cn : ConfigNode} {w : Wish} {line pat : Str} {a : Area} {L L' : AfLoop} {s t : HSt} (g : L.r.Gen)
    (ha : s.cfg.areas[i]? = some a) (hn : s.cfg.nodes[ci]? = some cn)
    (h : afArea env self ci w.cmd line pat (osIsPattern pat) i L s = .ok L' t) :
    AreaStep env self ci w line pat i a cn L s L' t := by
  unfold afArea at h
  rw [get_bind, ha, hn] at h
  dsimp only at h
  by_cases hm : a.type = .echomail ∧ TagFits pat a.tag
  · rw [if_pos (by simp only [Bool.and_eq_true, decide_eq_true_eq]; exact ⟨hm.1, (tagFits_iff _ _).2 hm.2⟩)] at h
    cases w with
    | join => exact afAdd_step hs g ha hm h
    | leave => exact afRemove_step hs g ha hm h
    | again => exact afUpdate_step hs g ha hm h
  · rw [if_neg (by simp only [Bool.and_eq_true, decide_eq_true_eq]; exact fun x => hm ⟨x.1, (tagFits_iff _ _).1 x.2⟩)] at h
    cases h
    have hvd : verdict s.cfg ci cn w pat a = .skip := by unfold verdict; rw [if_pos hm]
    have : Verdict.skip.say line pat a.tag = [] := by unfold Verdict.say; split <;> rfl
    refine ⟨by rw [hvd, this]; exact .nil, ?_, by rw [hvd]; simp [Verdict.settles], by simp [hm], by rw [hvd]; simp [Verdict.rescans]⟩
    rw [hvd, modify_same ha _ (by rw [hvd]; rfl)]
    simp [enqueue, Verdict.tells, Verdict.acts]

end

end CM
