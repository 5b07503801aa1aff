import Verif.Lemmas.AreafixStep
import Verif.Lemmas.AreaList
import Verif.Lemmas.Echo
import Verif.Spec.NewArea
/-! # New areas: lemmas -/

set_option linter.unusedSimpArgs false
namespace CM

theorem firstAt_findIdx {α : Type} {p : α → Prop} {q : α → Bool} (h : ∀ x, q x = true ↔ p x) (l : List α) : FirstAt p l (l.findIdx? q) := by
  cases hx : l.findIdx? q with
  | none =>
    intro x hm hp
    have := List.findIdx?_eq_none_iff.1 hx x hm
    rw [(h x).2 hp] at this
    exact absurd this (by decide)
  | some k =>
    obtain ⟨h1, h2, h3⟩ := List.findIdx?_eq_some_iff_getElem.1 hx
    refine ⟨⟨_, List.getElem?_eq_getElem h1, (h _).1 h2⟩, fun j x hj hx hp => ?_⟩
    have := h3 j hj
    rw [List.getElem?_eq_getElem (by omega)] at hx
    injection hx with hx
    rw [hx] at this
    exact this ((h x).2 hp)

theorem same_beq (a b : Node4D) : (compare4D a b == 0) = true ↔ SameSystem a b := by
  rw [beq_iff_eq]; exact compare4D_eq_zero_iff a b

theorem pathChar_eq (c : UInt8) : pathChar c = pathLetter c := by
  revert c; decide +kernel

theorem or32bits : ∀ x : UInt8, (x ||| 32 = 97 ↔ x = 97 ∨ x = 65) ∧ (x ||| 32 = 108 ↔ x = 108 ∨ x = 76) ∧ (x ||| 32 = 56 ↔ x = 56 ∨ x = 24) := by
  decide +kernel

theorem take_step (acc s rest : Str) (h : acc.length ≤ 79) :
    ((acc ++ s.take (80 - 1 - acc.length)) ++ rest).take 79 = (acc ++ (s ++ rest)).take 79 := by
  by_cases hl : s.length ≤ 79 - acc.length
  · rw [List.take_of_length_le (i := 80 - 1 - acc.length) (by omega), List.append_assoc]
  · have h1 : (acc ++ s.take (80 - 1 - acc.length)).length = 79 := by simp; omega
    rw [List.take_append_of_le_length (by omega), List.take_of_length_le (by omega), List.take_append,
      List.take_of_length_le h, List.take_append_of_le_length (by omega)]

theorem makeDir_fill (name serial acc l : Str) (h : acc.length ≤ 79) :
    makeDirLoop 80 name serial acc l = (acc ++ fillPath name serial l).take 79 := by
  have full : ∀ r : Str, acc.length = 79 → (acc ++ r).take 79 = acc := fun r hl => by
    rw [List.take_append_of_le_length (by omega), List.take_of_length_le h]
  fun_induction fillPath name serial l generalizing acc with
  | case1 =>
    unfold makeDirLoop
    rw [List.append_nil, List.take_of_length_le h]
  | case2 c =>
    unfold makeDirLoop
    by_cases hl : acc.length = 79
    · rw [if_pos (by omega), full _ hl]
    · rw [if_neg (by omega)]
      simp only [List.head?_nil, Option.map_none, reduceCtorEq, and_false, if_false]
      unfold makeDirLoop
      rw [List.take_of_length_le (by simp; omega)]
  | case3 c x r hc ih =>
    unfold makeDirLoop
    by_cases hl : acc.length = 79
    · rw [if_pos (by omega), full _ hl]
    · rw [if_neg (by omega), if_pos ⟨hc.1, by simp [(or32bits x).1.2 hc.2]⟩]
      dsimp only
      rw [ih _ (by simp; omega) (fun r hl => by rw [List.take_append_of_le_length (by omega), List.take_of_length_le (by omega)]), take_step _ _ _ h]
  | case4 c x r h1 hc ih =>
    unfold makeDirLoop
    by_cases hl : acc.length = 79
    · rw [if_pos (by omega), full _ hl]
    · rw [if_neg (by omega), if_neg (by simpa [(or32bits x).1] using h1), if_pos ⟨hc.1, by simp [(or32bits x).2.1.2 hc.2]⟩]
      dsimp only
      rw [ih _ (by simp; omega) (fun r hl => by rw [List.take_append_of_le_length (by omega), List.take_of_length_le (by omega)]), take_step _ _ _ h]
  | case5 c x r h1 h2 hc ih =>
    unfold makeDirLoop
    by_cases hl : acc.length = 79
    · rw [if_pos (by omega), full _ hl]
    · rw [if_neg (by omega), if_neg (by simpa [(or32bits x).1] using h1), if_neg (by simpa [(or32bits x).2.1] using h2),
        if_pos ⟨hc.1, by simp [(or32bits x).2.2.2 hc.2]⟩]
      dsimp only
      rw [ih _ (by simp; omega) (fun r hl => by rw [List.take_append_of_le_length (by omega), List.take_of_length_le (by omega)]), take_step _ _ _ h]
  | case6 c x r h1 h2 h3 ih =>
    unfold makeDirLoop
    by_cases hl : acc.length = 79
    · rw [if_pos (by omega), full _ hl]
    · rw [if_neg (by omega), if_neg (by simpa [(or32bits x).1] using h1), if_neg (by simpa [(or32bits x).2.1] using h2),
        if_neg (by simpa [(or32bits x).2.2] using h3)]
      rw [ih _ (by simp; omega) (fun r hl => by rw [List.take_append_of_le_length (by omega), List.take_of_length_le (by omega)]), List.append_assoc,
        List.singleton_append]

theorem findGroupDefault_ok {g : UInt8} {as : List Area} {s t : HSt} {o : Option Area} (h : findGroupDefault g as s = .ok o t) :
    t = s ∧ o = (as.filter fun a => (a.tag.take 8).map lower = b!"default_" ∧ g ∈ (a.tag.drop 8).take 49).head? := by
  induction as with
  | nil => cases h; exact ⟨rfl, rfl⟩
  | cons a as ih =>
    unfold findGroupDefault at h
    have he : eqin a.tag b!"DEFAULT_" 8 = true ↔ (a.tag.take 8).map lower = b!"default_" := by
      unfold eqin; rw [beq_iff_eq]; exact Iff.rfl
    by_cases hc : eqin a.tag b!"DEFAULT_" 8 = true
    · rw [if_pos hc, bind_ok] at h
      obtain ⟨b, u, h1, h⟩ := h
      obtain ⟨k1, rfl⟩ := matchFlags_ok h1
      cases b with
      | true =>
        cases h
        rw [List.filter_cons_of_pos (by rw [decide_eq_true_eq]; exact ⟨he.1 hc, k1.1 rfl⟩)]
        exact ⟨rfl, rfl⟩
      | false =>
        rw [List.filter_cons_of_neg (by
          simp only [decide_eq_true_eq]
          exact fun x => absurd (k1.2 x.2) (by decide))]
        exact ih h
    · rw [if_neg hc] at h
      rw [List.filter_cons_of_neg (by simp only [decide_eq_true_eq]; exact fun x => hc (he.2 x.1))]
      exact ih h

theorem find_filter {α : Type} {p : α → Bool} (l : List α) : l.find? p = (l.filter p).head? := by
  rw [List.head?_filter]

theorem findDefault_ok {c : Config} {k : Option Nat} {s t : HSt} {o : Option Area}
    (h : findDefault c.areas (k.bind (c.nodes[·]?)) s = .ok o t) : t = s ∧ o = templateFor c (newGroup c k) := by
  unfold findDefault at h
  rw [bind_ok] at h
  obtain ⟨d, u, h1, h⟩ := h
  have hd : u = s ∧ d = (if newGroup c k = 0 then [] else
      c.areas.filter fun a => (a.tag.take 8).map lower = b!"default_" ∧ newGroup c k ∈ (a.tag.drop 8).take 49).head? := by
    unfold newGroup
    cases hn : k.bind (c.nodes[·]?) with
    | none => rw [hn] at h1; cases h1; exact ⟨rfl, rfl⟩
    | some n =>
      rw [hn] at h1
      dsimp only at h1
      by_cases hg : n.defaultGroup = 0
      · rw [if_neg (by simp [hg])] at h1
        cases h1
        refine ⟨rfl, ?_⟩
        simp [hg]
      · rw [if_pos hg] at h1
        obtain ⟨e1, e2⟩ := findGroupDefault_ok h1
        refine ⟨e1, ?_⟩
        simp only [Option.map_some, Option.getD_some, if_neg hg]
        exact e2
  obtain ⟨rfl, hd⟩ := hd
  have he : (fun a : Area => eqi a.tag b!"DEFAULT") = fun a => decide (a.tag.map lower = b!"default") := by
    funext a
    rw [Bool.eq_iff_iff, eqi_iff, decide_eq_true_eq]
    exact Iff.rfl
  unfold templateFor
  rw [List.head?_append, ← hd]
  cases d with
  | some a => cases h; exact ⟨rfl, rfl⟩
  | none =>
    rw [he, find_filter] at h
    cases h
    exact ⟨rfl, by rw [Option.none_or]⟩

theorem getDescription_eq (env : Env) (log : List Effect) (c : Config) (tag : Str) (k : Option Nat) :
    getDescription env log tag k c.arealists = (listedDescs env log c k tag).head? := by
  unfold listedDescs
  generalize c.arealists = als
  cases k with
  | none =>
    have : als.filter (fun al => decide (some al.node = none ∧ al.flags &&& 1 ≠ 0)) = [] := by simp
    rw [this]
    cases als <;> rfl
  | some ci =>
    induction als with
    | nil => rfl
    | cons al als ih =>
      unfold getDescription
      by_cases hc : al.node = ci ∧ al.flags &&& AREALIST_DESC ≠ 0
      · rw [if_pos hc, List.filter_cons_of_pos (by simpa [AREALIST_DESC] using hc), List.flatMap_cons, List.head?_append]
        have he : (fun l => eqi (fileTag l) tag && fileDesc l != []) =
            fun l => decide ((tagWord l).map lower = tag.map lower ∧ descText l ≠ []) := by
          funext l
          rw [fileTag_eq, fileDesc_eq, Bool.eq_iff_iff, Bool.and_eq_true, eqi_iff, decide_eq_true_eq]
          simp
        rw [he, find_filter, List.head?_map]
        cases List.head? (List.filter _ ((env.areaFile log al.file).getD [])) with
        | some l => dsimp only; rw [fileDesc_eq]; rfl
        | none => dsimp only; rw [ih]; rfl
      · rw [if_neg hc, List.filter_cons_of_neg (by simpa [AREALIST_DESC] using hc)]
        exact ih

theorem find_addTossNode (ts : List TossNode) (n j : Nat) (f : UInt16) :
    (addTossNode ts n f).find? (fun t => t.node == j) = (ts.find? fun t => t.node == j).or (if n = j then some ⟨n, f⟩ else none) := by
  unfold addTossNode
  by_cases h : ts.any (·.node == n) = true
  · rw [if_pos h]
    by_cases e : n = j
    · subst e
      have : (ts.find? fun t => t.node == n).isSome = true := by rw [List.find?_isSome]; simpa using h
      obtain ⟨x, hx⟩ := Option.isSome_iff_exists.1 this
      rw [hx]; rfl
    · rw [if_neg e, Option.or_none]
  · rw [if_neg h, List.find?_append]
    congr 1
    by_cases e : n = j <;> simp [e, List.find?_cons]

theorem find_foldToss (l acc : List TossNode) (j : Nat) :
    (l.foldl (fun ts t => addTossNode ts t.node t.flags) acc).find? (fun t => t.node == j) =
      (acc.find? fun t => t.node == j).or (l.find? fun t => t.node == j) := by
  induction l generalizing acc with
  | nil => simp
  | cons t l ih =>
    rw [List.foldl_cons, ih, find_addTossNode, Option.or_assoc, List.find?_cons]
    congr 1
    by_cases e : t.node = j
    · subst e; simp
    · rw [if_neg e, Option.none_or, show (t.node == j) = false by simpa using e]

theorem addGroupLinks_find {g : UInt8} {ro : Bool} {ts ts' : List TossNode} {i : Nat} {ns : List ConfigNode} {s t : HSt}
    (h : addGroupLinks g ro ts i ns s = .ok ts' t) (j : Nat) :
    ts'.find? (fun t => t.node == j) = (ts.find? fun t => t.node == j).or (if i ≤ j then
      match ns[j - i]? with
      | some n => if g ∈ n.addGroups then some ⟨j, if ro = true ∨ g ∈ n.readOnlyGroups then TOSSNODE_READONLY else 0⟩ else none
      | none => none else none) := by
  induction ns generalizing ts i s with
  | nil => cases h; simp
  | cons n ns ih =>
    unfold addGroupLinks at h
    rw [bind_ok] at h
    obtain ⟨b, u, h1, h⟩ := h
    obtain ⟨k1, rfl⟩ := matchFlags_ok h1
    have hstep : i ≠ j → (if i ≤ j then match (n :: ns)[j - i]? with
        | some n => if g ∈ n.addGroups then some (⟨j, if ro = true ∨ g ∈ n.readOnlyGroups then TOSSNODE_READONLY else 0⟩ : TossNode) else none
        | none => none else none) = if i + 1 ≤ j then match ns[j - (i + 1)]? with
        | some n => if g ∈ n.addGroups then some ⟨j, if ro = true ∨ g ∈ n.readOnlyGroups then TOSSNODE_READONLY else 0⟩ else none
        | none => none else none := by
      intro hij
      by_cases hl : i ≤ j
      · rw [if_pos hl, if_pos (by omega), show j - i = (j - (i + 1)) + 1 by omega, List.getElem?_cons_succ]
      · rw [if_neg hl, if_neg (by omega)]
    cases b with
    | true =>
      simp only [if_true] at h
      rw [bind_ok] at h
      obtain ⟨r, v, h2, h⟩ := h
      have hr : v = u ∧ (r = true ↔ ro = true ∨ g ∈ n.readOnlyGroups) := by
        cases ro with
        | true => simp only [if_true] at h2; cases h2; simp
        | false =>
          simp only [Bool.false_eq_true, if_false] at h2
          obtain ⟨x1, x2⟩ := matchFlags_ok h2
          exact ⟨x2, by simpa using x1⟩
      obtain ⟨rfl, hr⟩ := hr
      rw [ih h, find_addTossNode, Option.or_assoc]
      congr 1
      by_cases e : i = j
      · subst e
        rw [if_pos rfl, if_pos (Nat.le_refl _), Nat.sub_self, List.getElem?_cons_zero]
        dsimp only
        rw [if_pos (k1.1 rfl), Option.some_or]
        simp only [hr]
      · rw [if_neg e, Option.none_or, hstep e]
    | false =>
      simp only [Bool.false_eq_true, if_false] at h
      rw [ih h]
      congr 1
      by_cases e : i = j
      · subst e
        rw [if_neg (by omega), if_pos (Nat.le_refl _), Nat.sub_self, List.getElem?_cons_zero]
        dsimp only
        rw [if_neg fun x => absurd (k1.2 x) (by decide)]
      · rw [hstep e]

/-- What `AddArea` adds. -/
theorem addArea_setUp {env : Env} {name : Str} {node me : Node4D} {active passthru : Bool} {s t : HSt} {i : Nat}
    (h : addArea env name node me active passthru s = .ok i t) :
    ∃ a, SetUp env s.log s.cfg name node me active passthru a ∧ i = s.cfg.areas.length ∧
      t = { s with cfg := { s.cfg with
        areas := s.cfg.areas ++ [a]
        changed := true } } := by
  obtain ⟨-, b, -, -, b1, b2, -, -, bt⟩ := addArea_new env h
  unfold addArea at h
  rw [get_bind] at h
  dsimp only at h
  rw [bind_ok] at h
  obtain ⟨d, s1, h1, h⟩ := h
  obtain ⟨rfl, hd⟩ := findDefault_ok h1
  rw [bind_ok] at h
  obtain ⟨a, s2, h2, h⟩ := h
  rw [set_bind, pure_run] at h
  injection h with hi ht
  have hab : b = a := by
    rw [← ht] at bt
    have e : s1.cfg.areas ++ [a] = s1.cfg.areas ++ [b] := congrArg (fun x : HSt => x.cfg.areas) bt
    have := List.append_cancel_left e
    injection this with this _
    exact this.symm
  subst hab
  have hl := linkArea_ok h2
  refine ⟨b, ?_, hi.symm, ht.symm⟩
  have hk := firstAt_findIdx (fun n : ConfigNode => same_beq n.node node) s1.cfg.nodes
  generalize s1.cfg.nodes.findIdx? (fun n => compare4D n.node node == 0) = k at hk h2 hl hd
  have hbase : ∀ {α : Type} (f : Area → α), (∀ x g ts, f { x with group := g, tossNodes := ts } = f x) →
      f b = f (newArea env s1 name (areaAka s1.cfg me) k active passthru d) := fun f hf => by rw [hl, hf]
  have hlinks : b.group = newGroup s1.cfg k ∧ ∀ j, b.tossNodes.find? (fun t => t.node == j) =
      ((newArea env s1 name (areaAka s1.cfg me) k active passthru d).tossNodes.find? fun t => t.node == j).or (match k with
        | none => none
        | some i => (if i = j then some ⟨i, TOSSNODE_FEED⟩ else none).or (match s1.cfg.nodes[j]? with
          | some n => if newGroup s1.cfg k ∈ n.addGroups then
              some ⟨j, if b.has AREA_DEFREADONLY = true ∨ newGroup s1.cfg k ∈ n.readOnlyGroups then TOSSNODE_READONLY else 0⟩ else none
          | none => none)) := by
    have hro : b.has AREA_DEFREADONLY = (newArea env s1 name (areaAka s1.cfg me) k active passthru d).has AREA_DEFREADONLY :=
      hbase (·.has AREA_DEFREADONLY) fun _ _ _ => rfl
    rw [hro]
    cases k with
    | none =>
      cases h2
      exact ⟨by cases d <;> rfl, fun j => by rw [Option.or_none]⟩
    | some i =>
      obtain ⟨⟨n, hn, -⟩, -⟩ := hk
      have hg : newGroup s1.cfg (some i) = n.defaultGroup := by simp [newGroup, hn]
      simp only [linkArea, hn] at h2
      rw [bind_ok] at h2
      obtain ⟨ts, u, h3, h2⟩ := h2
      cases h2
      refine ⟨hg.symm, fun j => ?_⟩
      dsimp only
      rw [addGroupLinks_find h3, find_addTossNode, Option.or_assoc, hg, if_pos (Nat.zero_le _)]
      rfl
  constructor
  · rw [hbase (·.tag) fun _ _ _ => rfl]; rfl
  · rw [hbase (·.type) fun _ _ _ => rfl]; rfl
  · rw [hbase (·.changed) fun _ _ _ => rfl]; rfl
  · exact b1
  · rw [hbase (·.importNodes) fun _ _ _ => rfl]; cases d <;> rfl
  · refine ⟨_, firstAt_findIdx (fun x : Aka => same_beq x.node me) _, ?_⟩
    rw [hbase (·.aka) fun _ _ _ => rfl]
    rfl
  · refine ⟨k, hk, ?_, d, hd, ?_, ?_, ?_, ?_, ?_, ?_, b2, fun j => ?_⟩
    · exact hlinks.1
    · rw [hbase (·.path) fun _ _ _ => rfl]
      cases d with
      | none => rfl
      | some d =>
        show makeDirLoop 80 (name.map pathChar) _ [] d.path = _
        rw [makeDir_fill _ _ _ _ (Nat.zero_le _), List.map_congr_left fun c _ => pathChar_eq c]
        rfl
    · rw [hbase (·.base) fun _ _ _ => rfl]
      cases d with
      | none => cases passthru <;> rfl
      | some d => rfl
    · rw [hbase (·.keepDays) fun _ _ _ => rfl]; cases d <;> rfl
    · rw [hbase (·.keepNum) fun _ _ _ => rfl]; cases d <;> rfl
    · rw [hbase (·.flags) fun _ _ _ => rfl]
      cases d with
      | none => cases active <;> rfl
      | some d => rfl
    · rw [hbase (·.description) fun _ _ _ => rfl]
      show (getDescription env s1.log name k s1.cfg.arealists).getD _ = _
      rw [getDescription_eq]
      cases d <;> rfl
    · rw [hlinks.2 j]
      unfold linkWanted
      have hd2 : (newArea env s1 name (areaAka s1.cfg me) k active passthru d).tossNodes.find? (fun t => t.node == j) =
          ((d.map (·.tossNodes)).getD []).find? fun t => t.node == j := by
        cases d with
        | none => rfl
        | some d => exact (find_foldToss _ _ _).trans rfl
      rw [hd2]
      cases ((d.map (·.tossNodes)).getD []).find? (fun t => t.node == j) with
      | some x => rfl
      | none =>
        rw [Option.none_or]
        cases k with
        | none => rfl
        | some k =>
          dsimp only
          by_cases e : k = j
          · subst e; simp
          · rw [if_neg e, if_neg (by simpa using e), Option.none_or]
            cases s1.cfg.nodes[j]? with
            | none => rfl
            | some n =>
              dsimp only
              split <;> rfl

theorem FirstAt.of {α : Type} {p q : α → Prop} {l l' : List α} {o : Option Nat} (h : FirstAt p l o)
    (e : ∀ j : Nat, (∀ x, l[j]? = some x → ∃ y, l'[j]? = some y ∧ (p x ↔ q y)) ∧ ∀ y, l'[j]? = some y → ∃ x, l[j]? = some x) :
    FirstAt q l' o := by
  cases o with
  | none =>
    intro y hy hq
    obtain ⟨j, hj⟩ := List.mem_iff_getElem?.1 hy
    obtain ⟨x, hx⟩ := (e j).2 y hj
    obtain ⟨y', hy', hpq⟩ := (e j).1 x hx
    rw [hj] at hy'
    cases hy'
    exact h x (List.mem_of_getElem? hx) (hpq.2 hq)
  | some k =>
    obtain ⟨⟨x, hx, hp⟩, h2⟩ := h
    obtain ⟨y, hy, hpq⟩ := (e k).1 x hx
    refine ⟨⟨y, hy, hpq.1 hp⟩, fun j z hj hz hq => ?_⟩
    obtain ⟨x', hx'⟩ := (e j).2 z hz
    obtain ⟨z', hz', hpq'⟩ := (e j).1 x' hx'
    rw [hz] at hz'
    cases hz'
    exact h2 j x' hj hx' (hpq'.2 hq)

/-- Commands that wait for the nodes do not matter. -/
theorem SetUp.unqueue {env : Env} {log : List Effect} {c : Config} {i : Nat} {f : ConfigNode → List Str} {tag : Str} {node me : Node4D}
    {active passThru : Bool} {a : Area}
    (h : SetUp env log { c with nodes := c.nodes.modify i fun n => { n with remoteAF := f n } } tag node me active passThru a) :
    SetUp env log c tag node me active passThru a := by
  have key : ∀ j : Nat, (c.nodes.modify i fun n => { n with remoteAF := f n })[j]? =
      (c.nodes[j]?).map fun n => if i = j then { n with remoteAF := f n } else n := fun j => by
    rw [List.getElem?_modify]
    by_cases e : i = j <;> simp [e]
  have hg : ∀ k, newGroup { c with nodes := c.nodes.modify i fun n => { n with remoteAF := f n } } k = newGroup c k := by
    intro k
    unfold newGroup
    cases k with
    | none => rfl
    | some k =>
      dsimp only [Option.bind_some]
      rw [key]
      cases c.nodes[k]? with
      | none => rfl
      | some n => dsimp only [Option.map_some, Option.getD_some]; split <;> rfl
  obtain ⟨h1, h2, h3, h4, h5, h6, k, hk, e1, d, hd, p1, p2, p3, p4, p5, p6, p7, p8⟩ := h
  rw [hg] at e1 hd
  refine ⟨h1, h2, h3, h4, h5, h6, k, hk.of fun j => ?_, e1, d, hd, p1, p2, p3, p4, p5, p6, p7, fun j => ?_⟩
  · dsimp only
    rw [key]
    constructor
    · intro x hx
      cases hy : c.nodes[j]? with
      | none => rw [hy] at hx; cases hx
      | some n =>
        rw [hy] at hx
        injection hx with hx
        refine ⟨n, rfl, ?_⟩
        rw [← hx]
        split <;> rfl
    · intro y hy
      rw [hy]
      exact ⟨_, rfl⟩
  · rw [p8 j]
    unfold linkWanted
    rw [hg]
    dsimp only
    rw [key]
    cases c.nodes[j]? with
    | none => rfl
    | some n => by_cases e : i = j <;> simp only [Option.map_some, e, if_true, if_false] <;> cases k <;> rfl

end CM
