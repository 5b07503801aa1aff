import Verif.Lemmas.Echo
import Verif.Props.PktRound
import Verif.Lemmas.Example
/-! # C17–C20: tossing echomail -/
set_option linter.unusedSimpArgs false

namespace CM

/-! ## The model's notions and those of the specification -/

theorem same_iff (a b : Node4D) : compare4D a b = 0 ↔ SameSystem a b := compare4D_eq_zero_iff a b

theorem same_comm (a b : Node4D) : SameSystem a b ↔ SameSystem b a := by
  unfold SameSystem
  constructor <;> rintro ⟨h1, h2, h3, h4⟩ <;> refine ⟨h1.symm, h2.symm, h3.symm, ?_⟩ <;>
    (rcases h4 with h | h | h
     · exact .inl h.symm
     · exact .inr (.inr h)
     · exact .inr (.inl h))

/-- A link as a pair. -/
def Link.pair (l : Link) : TossNode × ConfigNode := (⟨l.idx, l.flags⟩, l.node)

theorem resolveLinks_links (cfg : Config) (a : Area) (ls : List Link)
    (h : resolveLinks cfg.nodes a.tossNodes = some ls) :
    links cfg a = ls.map Link.pair ∧ ∀ l ∈ ls, Linked cfg a l.idx l.flags l.node := by
  unfold links Linked
  generalize a.tossNodes = ts at h
  induction ts generalizing ls with
  | nil => cases h; exact ⟨rfl, by simp⟩
  | cons t ts ih =>
    unfold resolveLinks at h
    cases hn : cfg.nodes[t.node]? with
    | none => rw [hn] at h; cases h
    | some n =>
      cases hr : resolveLinks cfg.nodes ts with
      | none => rw [hn, hr] at h; cases h
      | some r =>
        rw [hn, hr] at h
        cases h
        obtain ⟨e1, e2⟩ := ih r hr
        refine ⟨?_, ?_⟩
        · rw [List.filterMap_cons, hn]
          dsimp only [Option.map_some]
          rw [e1]; rfl
        · intro l hl
          rcases List.mem_cons.1 hl with rfl | hl
          · exact ⟨by simp, hn⟩
          · exact ⟨List.mem_cons_of_mem _ (e2 l hl).1, (e2 l hl).2⟩

theorem denied_none_iff (cfg : Config) (a : Area) (m : MemMsg) (ls : List Link)
    (h : resolveLinks cfg.nodes a.tossNodes = some ls) : denied m ls = none ↔ MayPost cfg a m := by
  obtain ⟨e, _⟩ := resolveLinks_links cfg a ls h
  unfold denied MayPost
  rw [e]
  by_cases h1 : (m.has MMFLAG_EXPORTED || m.has MMFLAG_NOSECURITY) = true
  · rw [if_pos h1]
    simp only [Bool.or_eq_true] at h1
    simp only [true_iff]
    rcases h1 with h | h
    · exact .inl h
    · exact .inr (.inl h)
  · rw [if_neg h1]
    simp only [Bool.or_eq_true, not_or] at h1
    cases hf : ls.find? fun l => compare4D l.node.node m.pktOrig == 0 with
    | none =>
      simp only [reduceCtorEq, false_iff, not_or]
      refine ⟨h1.1, h1.2, ?_⟩
      rintro ⟨l1, l, l2, hl, hs, _⟩
      obtain ⟨p1, p2, rfl, rfl, hp2⟩ := List.map_eq_append_iff.1 hl
      obtain ⟨x, p3, rfl, rfl, rfl⟩ := List.map_eq_cons_iff.1 hp2
      have := List.find?_eq_none.1 hf x (by simp)
      rw [beq_iff_eq, same_iff] at this
      exact this hs
    | some l =>
      obtain ⟨hp, p1, p2, rfl, hno⟩ := List.find?_eq_some_iff_append.1 hf
      rw [beq_iff_eq, same_iff] at hp
      dsimp only
      constructor
      · intro h2
        refine .inr (.inr ⟨p1.map Link.pair, l.pair, p2.map Link.pair, by simp, hp, ?_, ?_⟩)
        · intro x hx
          obtain ⟨y, hy, rfl⟩ := List.mem_map.1 hx
          have := hno y hy
          simp only [Bool.not_eq_true', beq_eq_false_iff_ne] at this
          rw [Ne, same_iff] at this
          exact this
        · split at h2
          · cases h2
          · next hr => exact Bool.eq_false_iff.2 hr
      · rintro (h | h | ⟨l1, l', l2, hl, hs, hno', hr⟩)
        · exact absurd h h1.1
        · exact absurd h h1.2
        · obtain ⟨q1, q2, hq, rfl, hq2⟩ := List.map_eq_append_iff.1 hl
          obtain ⟨x, q3, rfl, rfl, rfl⟩ := List.map_eq_cons_iff.1 hq2
          have hx : (q1 ++ x :: q3).find? (fun l => compare4D l.node.node m.pktOrig == 0) = some x := by
            rw [List.find?_eq_some_iff_append]
            refine ⟨by rw [beq_iff_eq, same_iff]; exact hs, q1, q3, rfl, ?_⟩
            intro y hy
            have := hno' y.pair (List.mem_map_of_mem hy)
            rw [← same_iff] at this
            simpa [Link.pair] using this
          rw [← hq, hf] at hx
          cases hx
          rw [if_neg (by rw [show l.has TOSSNODE_READONLY = false from hr]; simp)]

theorem findArea_areaOf (cfg : Config) (tag : Str) (i : Nat) (h : cfg.findArea tag = some i) :
    ∃ a, AreaOf cfg tag i a := by
  unfold Config.findArea at h
  rw [List.findIdx?_eq_some_iff_getElem] at h
  obtain ⟨hi, h1, h2⟩ := h
  refine ⟨cfg.areas[i], by simp [hi], (eqi_iff _ _).1 h1, fun j hj b hb => ?_⟩
  have := h2 j hj
  rw [List.getElem?_eq_some_iff] at hb
  obtain ⟨hjl, rfl⟩ := hb
  rw [Ne, ← eqi_iff]; exact this

theorem findArea_none (cfg : Config) (tag : Str) (h : cfg.findArea tag = none) :
    ∀ b ∈ cfg.areas, b.tag.map lower ≠ tag.map lower := by
  unfold Config.findArea at h
  rw [List.findIdx?_eq_none_iff] at h
  intro b hb
  have := h b hb
  rw [Ne, ← eqi_iff]
  simp [this]

/-- The area a message is handled in, found or added. -/
theorem findOrAddArea_areaOf {env : Env} {m : MemMsg} {s t : HSt} {i : Nat} {a : Area}
    (h : findOrAddArea env m s = .ok i t) (ha : t.cfg.areas[i]? = some a) :
    AreaOf t.cfg m.area i a ∧ t.cfg.nodes = s.cfg.nodes ∧ t.cfg.akas = s.cfg.akas ∧ t.seen = s.seen ∧
      t.dupe = s.dupe ∧ t.log = s.log := by
  rcases findOrAddArea_ok h with ⟨h1, rfl⟩ | ⟨h1, rfl, b, h2, _, _, _, _, rfl⟩
  · obtain ⟨b, hb⟩ := findArea_areaOf _ _ _ h1
    rw [hb.1] at ha
    cases ha
    exact ⟨hb, rfl, rfl, rfl, rfl, rfl⟩
  · simp only [List.getElem?_append_right (Nat.le_refl _), Nat.sub_self, List.getElem?_cons_zero,
      Option.some.injEq] at ha
    subst ha
    refine ⟨⟨by simp, by rw [h2], fun j hj c hc => ?_⟩, rfl, rfl, rfl, rfl, rfl⟩
    simp only [List.getElem?_append_left hj] at hc
    exact findArea_none _ _ h1 c (List.mem_of_getElem? hc)

/-- The conditions of the code for sending to a link. -/
theorem wants_iff {cfg : Config} {a : Area} {aka : Node4D} {m m' : MemMsg} {ls : List Link} {seen : Nat → Bool}
    (hr : resolveLinks cfg.nodes a.tossNodes = some ls) {l : Link} (hl : l ∈ ls) (hm : m'.pktOrig = m.pktOrig) :
    wants cfg (markSeen cfg a aka ls (zoneSeenBy aka m) seen) m' l = true ↔
      Due cfg a aka m l.pair ∧ ¬ Stale cfg seen a l.idx := by
  have hseen : (markSeen cfg a aka ls (zoneSeenBy aka m) seen l.idx && cfg.has CFG_CHECKSEENBY) = true ↔
      HasSeen cfg a aka m l.node.node ∨ Stale cfg seen a l.idx := by
    unfold HasSeen Stale markSeen
    cases c1 : cfg.has CFG_CHECKSEENBY with
    | false => simp
    | true =>
      cases c2 : a.has AREA_IGNORESEENBY with
      | true => simp
      | false =>
        simp only [Bool.not_false, Bool.and_self, if_true, Bool.and_true]
        cases hf : ls.find? (·.idx == l.idx) with
        | none =>
          have := List.find?_eq_none.1 hf l hl
          simp at this
        | some l' =>
          have e1 := List.find?_some hf
          rw [beq_iff_eq] at e1
          have hm' := List.mem_of_find?_eq_some hf
          have k1 := ((resolveLinks_links cfg a ls hr).2 l hl).2
          have k2 := ((resolveLinks_links cfg a ls hr).2 l' hm').2
          rw [e1, k1] at k2
          injection k2 with k2
          dsimp only
          rw [← k2, show inZone aka l' = inZone aka l by unfold inZone; rw [k2]]
          simp only [Bool.and_eq_true, findNodes2D_iff, inZone, beq_iff_eq, zoneSeenBy, true_and,
            Bool.false_eq_true, false_and, or_false]
          split
          · next hz => simp [hz]
          · next hz =>
            have hz : aka.zone = m.pktOrig.zone := by simpa using hz
            constructor
            · rintro ⟨⟨h1, h2⟩, h3⟩; exact ⟨hz, h1, h2, h3⟩
            · rintro ⟨_, h1, h2, h3⟩; exact ⟨⟨h1, h2⟩, h3⟩
  have hw : wants cfg (markSeen cfg a aka ls (zoneSeenBy aka m) seen) m' l = true ↔
      (¬ SameSystem m.pktOrig l.node.node ∧ l.node.has NODE_PASSIVE = false ∧ l.has TOSSNODE_WRITEONLY = false) ∧
      ¬ (markSeen cfg a aka ls (zoneSeenBy aka m) seen l.idx && cfg.has CFG_CHECKSEENBY) = true := by
    unfold wants
    rw [← same_iff, hm]
    generalize (markSeen cfg a aka ls (zoneSeenBy aka m) seen l.idx && cfg.has CFG_CHECKSEENBY) = z
    simp only [Bool.and_eq_true, bne_iff_ne, ne_eq, Bool.not_eq_true', Link.active, Bool.not_eq_true]
  rw [hw, hseen, not_or]
  unfold Due
  constructor
  · rintro ⟨⟨h1, h2, h3⟩, h4, h5⟩; exact ⟨⟨h1, h2, h3, h4⟩, h5⟩
  · rintro ⟨⟨h1, h2, h3, h4⟩, h5⟩; exact ⟨⟨h1, h2, h3⟩, h4, h5⟩

theorem wants_recipients {cfg : Config} {a : Area} {aka : Node4D} {m m' : MemMsg} {ls : List Link} {seen : Nat → Bool}
    (hr : resolveLinks cfg.nodes a.tossNodes = some ls) (hm : m'.pktOrig = m.pktOrig)
    (hs : m'.has MMFLAG_RESCANNED = m.has MMFLAG_RESCANNED) :
    (if m'.has MMFLAG_RESCANNED then [] else
      ls.filter (wants cfg (markSeen cfg a aka ls (zoneSeenBy aka m) seen) m')).map Link.pair =
      recipients cfg seen a aka m := by
  unfold recipients
  rw [hs]
  split
  · rfl
  · rw [(resolveLinks_links cfg a ls hr).1, List.filter_map]
    congr 1
    refine List.filter_congr fun l hl => ?_
    rw [Bool.eq_iff_iff, wants_iff hr hl hm]
    exact decide_eq_true_iff.symm

theorem mem_foldl_add {α : Type} (f : α → N2) (xs : List α) (bs : List (List N2)) (y : N2) :
    y ∈ (xs.foldl (fun sb x => mmAddNodes2D sb (f x)) bs).flatten ↔ y ∈ bs.flatten ∨ ∃ x ∈ xs, y = f x := by
  induction xs generalizing bs with
  | nil => simp
  | cons x xs ih =>
    rw [List.foldl_cons, ih, mmAddNodes2D_flatten]
    split
    · next hm =>
      constructor
      · rintro (h | ⟨z, hz, e⟩)
        · exact .inl h
        · exact .inr ⟨z, List.mem_cons_of_mem _ hz, e⟩
      · rintro (h | ⟨z, hz, e⟩)
        · exact .inl h
        · rcases List.mem_cons.1 hz with rfl | hz
          · exact .inl (e ▸ hm)
          · exact .inr ⟨z, hz, e⟩
    · rw [List.mem_append, List.mem_singleton]
      simp only [List.mem_cons, exists_eq_or_imp, or_assoc]

theorem mem_foldl_rem (ps : List Pat2) (bs : List (List N2)) (y : N2) (hy : y ≠ (0, 0)) :
    y ∈ (ps.foldl mmRemNodes2DPat bs).flatten ↔ y ∈ bs.flatten ∧ ∀ p ∈ ps, compare2DPat p y = false := by
  induction ps generalizing bs with
  | nil => simp
  | cons p ps ih =>
    have h1 : y ∈ (mmRemNodes2DPat bs p).flatten ↔ y ∈ bs.flatten ∧ compare2DPat p y = false := by
      have := congrArg (fun l => y ∈ l) (mmRemNodes2DPat_visible bs p)
      simp only [mem_visible, List.mem_filter, eq_iff_iff, hy, ne_eq, not_false_eq_true, and_true,
        Bool.not_eq_true'] at this
      exact this
    rw [List.foldl_cons, ih, h1]
    simp [and_assoc]

/-- The new SEEN-BY list of a message. -/
theorem newSeenBy_iff {cfg : Config} {a : Area} {aka : Aka} {m : MemMsg} {ls : List Link}
    (hr : resolveLinks cfg.nodes a.tossNodes = some ls) (y : N2) (hy : y ≠ (0, 0)) :
    y ∈ (newSeenBy aka ls (zoneSeenBy aka.node m)).flatten ↔ SeenAfter cfg a aka m y := by
  unfold newSeenBy SeenAfter
  dsimp only
  have own : ∀ bs : List (List N2),
      y ∈ (if aka.node.point = 0 then mmAddNodes2D bs (aka.node.net, aka.node.node) else bs).flatten ↔
        y ∈ bs.flatten ∨ (aka.node.point = 0 ∧ y = (aka.node.net, aka.node.node)) := by
    intro bs
    split
    · next hp =>
      have := mem_foldl_add (fun _ : Unit => (aka.node.net, aka.node.node)) [()] bs y
      simpa [hp] using this
    · next hp => simp [hp]
  rw [own, mem_foldl_add (fun n : Node4D => (n.net, n.node)), mem_foldl_rem _ _ _ hy,
    mem_foldl_add (fun l : Link => (l.node.node.net, l.node.node.node)), or_assoc]
  refine or_congr (and_congr ?_ Iff.rfl) Iff.rfl
  refine or_congr ?_ ?_
  · unfold zoneSeenBy
    split
    · next hz => simp [hz]
    · next hz => simp only [ne_eq, Decidable.not_not] at hz; simp [hz]
  · rw [(resolveLinks_links cfg a ls hr).1]
    constructor
    · rintro ⟨l, hl, e⟩
      simp only [List.mem_filter, inZone, Link.active, Bool.and_eq_true, beq_iff_eq, Bool.not_eq_true'] at hl
      exact ⟨l.pair, List.mem_map_of_mem hl.1, hl.2.1.1, hl.2.1.2, hl.2.2.1, hl.2.2.2, e⟩
    · rintro ⟨p, hp, h1, h2, h3, h4, e⟩
      obtain ⟨l, hl, rfl⟩ := List.mem_map.1 hp
      refine ⟨l, ?_, e⟩
      simp only [List.mem_filter, inZone, Link.active, Bool.and_eq_true, beq_iff_eq, Bool.not_eq_true']
      exact ⟨hl, ⟨h1, h2⟩, h3, h4⟩

theorem calm_noEcho {s t : HSt} (h : Calm s t) : ∃ es, t.log = s.log ++ es ∧ ∀ k ak x, Effect.echo k ak x ∉ es := by
  obtain ⟨_, _, _, es, h1, h2⟩ := h
  exact ⟨es, h1, fun k ak x hm => by have := h2 _ hm; cases this⟩

/-! ## C20 -/

/-- C20. Every echomail message has one of the dispositions listed, in the first area with its tag; if
there was no such area one has been added, and it stays unconfirmed unless the sender may create
areas. -/
theorem echomail_disposition (env : Env) (af : (MemMsg → M Unit) → MemMsg → M Unit) (n : Nat) (m : MemMsg) (s t : HSt)
    (b : Bool) (ha : m.area ≠ []) (hb : Blocks m.seenBy) (h : Ret (handleMessage env af (n + 1) m) s b t) :
    ∃ i a es, AreaOf t.cfg m.area i a ∧ t.log = s.log ++ es ∧
      Disposition env (handleMessage env af n) s t.cfg i a m b es ∧
      ((a.has AREA_UNCONFIRMED = true ∨ ¬ MayPost t.cfg a m) → t.dupe = s.dupe ∧ t.seen = s.seen) ∧
      (t.cfg = s.cfg ∨ (∀ c ∈ s.cfg.areas, c.tag.map lower ≠ m.area.map lower) ∧
        t.cfg = { s.cfg with
          areas := s.cfg.areas ++ [a]
          changed := true } ∧ i = s.cfg.areas.length ∧ a.tag = m.area ∧ a.type = .echomail ∧
        (a.has AREA_UNCONFIRMED = false ↔ ∃ nd, findNode s.cfg.nodes m.pktOrig = some nd ∧ nd.has NODE_AUTOADD = true)) := by
  have hs : ∀ m, Gen m → Sat Calm (handleMessage env af n m) := fun m g => handleMessage_gen Calm.good env af n m g
  unfold handleMessage at h
  rw [if_neg ha] at h
  obtain ⟨i, s1, a, h1, h2, h⟩ := handleEchomail_ends h
  obtain ⟨hao, e1, e2, e3, e4, e5⟩ := findOrAddArea_areaOf h1 h2
  -- the configuration
  have hcfg : s1.cfg = s.cfg ∨ (∀ c ∈ s.cfg.areas, c.tag.map lower ≠ m.area.map lower) ∧
        s1.cfg = { s.cfg with
          areas := s.cfg.areas ++ [a]
          changed := true } ∧ i = s.cfg.areas.length ∧ a.tag = m.area ∧ a.type = .echomail ∧
        (a.has AREA_UNCONFIRMED = false ↔
          ∃ nd, findNode s.cfg.nodes m.pktOrig = some nd ∧ nd.has NODE_AUTOADD = true) := by
    rcases findOrAddArea_ok h1 with ⟨_, rfl⟩ | ⟨k1, rfl, c, k2, k3, k4, k5, k6, rfl⟩
    · exact .inl rfl
    · simp only [List.getElem?_append_right (Nat.le_refl _), Nat.sub_self, List.getElem?_cons_zero,
        Option.some.injEq] at h2
      subst h2
      refine .inr ⟨findArea_none _ _ k1, rfl, rfl, k2, k3, ?_, ?_⟩
      · intro hu
        cases hn : findNode s.cfg.nodes m.pktOrig with
        | none =>
          have := k5 (fun nd e => by rw [hn] at e; cases e)
          unfold Area.has at hu; rw [this] at hu; simp [AREA_UNCONFIRMED] at hu
        | some nd =>
          refine ⟨nd, rfl, ?_⟩
          cases hx : nd.has NODE_AUTOADD with
          | true => rfl
          | false =>
            have := k5 (fun nd' e => by rw [hn] at e; cases e; exact hx)
            unfold Area.has at hu; rw [this] at hu; simp [AREA_UNCONFIRMED] at hu
      · rintro ⟨nd, k7, k8⟩; exact k6 nd k7 k8
  have bad : ∀ {m1 : MemMsg} {reason} {s2 : HSt}, s2.cfg = s1.cfg → s2.log = s.log → m1.type = PKTS_ECHOMAIL →
      Ret (writeBad env m1 reason) s2 b t →
      t.cfg = s1.cfg ∧ (t.dupe = s2.dupe ∧ t.seen = s2.seen) ∧ ((b = false ∧ t.log = s.log ++ []) ∨ (b = true ∧ ∃ es, t.log = s.log ++ es ∧ OnlyBad s1.cfg m1 es)) := by
    intro m1 reason s2 k1 k2 k3 k4
    obtain ⟨es, r1, r2, r3⟩ := writeBad_ends k4
    subst r1
    refine ⟨k1, ⟨rfl, rfl⟩, ?_⟩
    cases b with
    | false => exact .inl ⟨rfl, by rw [r2 rfl, ← k2]⟩
    | true =>
      refine .inr ⟨rfl, es, by rw [← k2], ?_⟩
      rw [k1] at r3
      rcases r3 rfl with ⟨j, c, r4, r5, r6⟩ | r4
      · refine .inl ⟨j, c, badHeader m1 reason, r4, r5, ?_⟩
        rw [r6, ← k3]
      · exact .inr r4
  have onlyBad_type : ∀ {cfg es} {m1 : MemMsg}, OnlyBad cfg { m1 with type := PKTS_ECHOMAIL } es → OnlyBad cfg m1 es :=
    fun h => h
  rcases h with ⟨hu, reason, h⟩ | ⟨hu, ls, hls, h⟩
  · obtain ⟨k1, kd, k2⟩ := bad rfl e5 rfl h
    rw [k1]
    rcases k2 with ⟨rfl, k2⟩ | ⟨rfl, es, k2, k3⟩
    · exact ⟨i, a, [], hao, k2, .refusedErr (.inl hu), fun _ => ⟨kd.1.trans e4, kd.2.trans e3⟩, hcfg⟩
    · exact ⟨i, a, es, hao, k2, .refused es (.inl hu) (onlyBad_type k3), fun _ => ⟨kd.1.trans e4, kd.2.trans e3⟩, hcfg⟩
  · have hpost := denied_none_iff s1.cfg a m ls hls
    rcases h with ⟨reason, hd, h⟩ | ⟨hd, k, aka, hk, hak, h⟩
    · have hno : ¬ MayPost s1.cfg a m := by rw [← hpost, hd]; simp
      obtain ⟨k1, kd, k2⟩ := bad rfl e5 rfl h
      rw [k1]
      rcases k2 with ⟨rfl, k2⟩ | ⟨rfl, es, k2, k3⟩
      · exact ⟨i, a, [], hao, k2, .refusedErr (.inr hno), fun _ => ⟨kd.1.trans e4, kd.2.trans e3⟩, hcfg⟩
      · exact ⟨i, a, es, hao, k2, .refused es (.inr hno) (onlyBad_type k3), fun _ => ⟨kd.1.trans e4, kd.2.trans e3⟩, hcfg⟩
    · have hr : a.has AREA_UNCONFIRMED = false ∧ MayPost s1.cfg a m := ⟨hu, hpost.1 hd⟩
      have hnr : (a.has AREA_UNCONFIRMED = true ∨ ¬ MayPost s1.cfg a m) → t.dupe = s.dupe ∧ t.seen = s.seen := by
        rintro (x | x)
        · rw [hu] at x; cases x
        · exact absurd hr.2 x
      obtain ⟨path, d, s2, hdc, h⟩ := tossEcho_ends h
      have hs2 : s2.cfg = s1.cfg ∧ s2.log = s.log ∧
          s2.seen = markSeen s1.cfg a aka.node ls (zoneSeenBy aka.node m) s1.seen ∧
          (d = true ↔ Duplicate s1.cfg s.dupe a m) := by
        rcases dupeCheck_cases hdc with ⟨q1, q2, q3, rfl⟩ | ⟨q1, rfl, rfl⟩
        · refine ⟨rfl, e5, rfl, ?_⟩
          simp only [dupeChecked, Bool.and_eq_true, decide_eq_true_eq, Bool.not_eq_true', seenMsg] at q1 q3
          rw [e4] at q3
          constructor
          · rintro rfl; exact ⟨q1.1.1, q1.1.2, q1.2, _, q3⟩
          · rintro ⟨_, _, _, d', q4⟩
            rw [q3] at q4
            injection q4 with q4
            injection q4
        · refine ⟨rfl, e5, rfl, by simp, ?_⟩
          rintro ⟨q2, q3, q4, _⟩
          exfalso
          simp only [dupeChecked, seenMsg] at q1
          simp only [q4, Bool.not_false, Bool.and_true, Bool.and_eq_false_iff, decide_eq_false_iff_not] at q1
          rcases q1 with q1 | q1
          · exact q1 q2
          · exact absurd (q3.symm.trans q1) (by simp)
      obtain ⟨c1, c2, c3, c4⟩ := hs2
      rcases h with ⟨hdt, hm1, h⟩ | ⟨hdt, hm1, hbt, ht⟩ | ⟨hdf, sb, hsb, h⟩
      · obtain ⟨k1, _, k2⟩ := bad c1 c2 rfl h
        rw [k1]
        rcases k2 with ⟨rfl, k2⟩ | ⟨rfl, es, k2, k3⟩
        · exact ⟨i, a, [], hao, k2, .dupeBadErr hr (c4.1 hdt) hm1, hnr, hcfg⟩
        · exact ⟨i, a, es, hao, k2, .dupeBad es hr (c4.1 hdt) hm1 _ _ (onlyBad_type k3), hnr, hcfg⟩
      · subst hbt ht
        rw [c1]
        exact ⟨i, a, [], hao, by rw [c2, List.append_nil], .dupeKill hr (c4.1 hdt) hm1, hnr, hcfg⟩
      · have hnd : ¬ Duplicate s1.cfg s.dupe a m := by rw [← c4, hdf]; simp
        have hbl := newSeenBy_blocks aka ls _ (zoneSeenBy_blocks aka.node m hb)
        have hss := sortedSB_of_sort hbl hsb
        rcases deliverEcho_ends hs (by exact ha) hss h with ⟨rfl, q1, q2⟩ | ⟨m', s3, q1, q2, q3, q4⟩
        · obtain ⟨es, r1, r2⟩ := calm_noEcho q2
          rw [q2.1, c1]
          exact ⟨i, a, es, hao, by rw [r1, c2], .filterErr hr hnd sb path _ _ c1 c2 q1 es (by rw [r1, c2]) r2, hnr, hcfg⟩
        · obtain ⟨fe, r1, r2⟩ := calm_noEcho q2
          rw [c2] at r1
          rcases q4 with ⟨u1, rfl, rfl⟩ | ⟨u1, sent, u2, imp, u3, u4, u5⟩
          · rw [q2.1, c1]
            exact ⟨i, a, fe, hao, r1, .killed hr hnd sb path m' _ _ c1 c2 q1 u1 fe r1 r2, hnr, hcfg⟩
          · have k1 : t.cfg = s1.cfg := by rw [u3]; exact q2.1.trans c1
            have hrec : (if m'.has MMFLAG_RESCANNED then [] else ls.filter (wants s3.cfg s3.seen m')).map Link.pair =
                recipients s1.cfg s.seen a aka.node m := by
              rw [q2.1, q2.2.1, c1, c3, e3]
              exact wants_recipients hls q3.keep.pktOrig q3.rescanned
            rw [k1]
            refine ⟨i, a, fe ++ (sent.map Link.pair).map (copyFor aka.node m') ++ imp, hao, ?_, ?_, hnr, hcfg⟩
            · rw [u3]
              simp only [r1, List.map_map, List.append_assoc]
              rfl
            · refine .delivered b hr hnd aka (by rw [hk]; exact hak) sb path m' s2 s3 ?_ q1 u1 fe c1 c2 r1 r2 _ ?_ ?_
                imp ?_
              · intro y hy
                rw [← newSeenBy_iff hls y hy]
                obtain ⟨r, w1, w2, _⟩ := mmSort_spec _ hbl
                have hsb' : mmSortNodes2D (newSeenBy aka ls (zoneSeenBy aka.node m)) = .ok sb := hsb
                rw [w1] at hsb'
                cases hsb'
                rw [w2]
                exact (isort_perm compareSort _).mem_iff
              · rw [← hrec]; exact List.IsPrefix.map _ u2
              · intro hb1; rw [u4 hb1]; exact hrec
              · have hx : m'.has MMFLAG_EXPORTED = m.has MMFLAG_EXPORTED := q3.keep.has _ (by decide)
                rw [hx] at u5
                rcases u5 with u5 | ⟨v1, v2, v3, v4, ty, dd, o, v5⟩
                · exact .inl u5
                · refine .inr ⟨v1, v2, v3, v4, _, v5, ty, dd, o, ?_⟩
                  rw [q2.1, c1]
                  unfold markSent stripSubject
                  split <;> rfl

theorem areaOf_unique {cfg : Config} {tag : Str} {i j : Nat} {a b : Area} (h1 : AreaOf cfg tag i a)
    (h2 : AreaOf cfg tag j b) : i = j ∧ a = b := by
  have : i = j := by
    rcases Nat.lt_trichotomy i j with h | h | h
    · exact absurd h1.2.1 (h2.2.2 i h a h1.1)
    · exact h
    · exact absurd h2.2.1 (h1.2.2 j h b h2.1)
  subst this
  have := h1.1.symm.trans h2.1
  injection this with this
  exact ⟨rfl, this⟩

/-- C20, without filters: the message is refused and goes to the bad area only; or it is a duplicate,
which goes to the bad area or nowhere; or every recipient gets its copy and the message is stored,
unless it was exported from this system or the area has no message base. -/
theorem echomail_disposition_nofilters (env : Env) (af : (MemMsg → M Unit) → MemMsg → M Unit) (n : Nat) (m : MemMsg)
    (s t : HSt) (ha : m.area ≠ []) (hb : Blocks m.seenBy) (hf : t.cfg.filters = []) (hk : m.has MMFLAG_KILL = false)
    (ht : m.has MMFLAG_TWIT = false) (h : handleMessage env af n m s = .ok () t) :
    ∃ i a es, AreaOf t.cfg m.area i a ∧ t.log = s.log ++ es ∧
      (((a.has AREA_UNCONFIRMED = true ∨ ¬ MayPost t.cfg a m) ∧ OnlyBad t.cfg m es) ∨
       (a.has AREA_UNCONFIRMED = false ∧ MayPost t.cfg a m ∧ Duplicate t.cfg s.dupe a m ∧
        ((t.cfg.dupeMode = 1 ∧ ∃ sb pa, OnlyBad t.cfg { m with
          seenBy := sb
          path := pa } es) ∨ (t.cfg.dupeMode ≠ 1 ∧ es = []))) ∨
       (a.has AREA_UNCONFIRMED = false ∧ MayPost t.cfg a m ∧ ¬ Duplicate t.cfg s.dupe a m ∧
        ∃ aka sb pa imp, a.aka.bind (t.cfg.akas[·]?) = some aka ∧
          es = (recipients t.cfg s.seen a aka.node m).map (copyFor aka.node { m with
            seenBy := sb
            path := pa }) ++ imp ∧
          (∀ y, y ≠ (0, 0) → (y ∈ sb.flatten ↔ SeenAfter t.cfg a aka m y)) ∧
          ((imp = [] ∧ (m.has MMFLAG_EXPORTED = true ∨ a.base = none)) ∨
           (m.has MMFLAG_EXPORTED = false ∧ a.base.isSome = true ∧ ∃ e, imp = [e] ∧ Stored t.cfg i { m with
             seenBy := sb
             path := pa } e)))) := by
  cases n with
  | zero => cases h
  | succ n =>
    obtain ⟨i, a, es, h1, h2, h3, _⟩ := echomail_disposition env af n m s t true ha hb ⟨(), h⟩
    refine ⟨i, a, es, h1, h2, ?_⟩
    have run : ∀ m1 m' (s2 s3 : HSt), s2.cfg.filters = [] →
        filterMsg env (handleMessage env af n) m1 s2 = .ok m' s3 → m' = m1 ∧ s3 = s2 := by
      intro m1 m' s2 s3 e h
      unfold filterMsg at h
      rw [get_bind, e] at h
      cases h; exact ⟨rfl, rfl⟩
    cases h3 with
    | refused es hr ho => exact .inl ⟨hr, ho⟩
    | dupeBad es hr hd hm sb pa ho => exact .inr (.inl ⟨hr.1, hr.2, hd, .inl ⟨hm, sb, pa, ho⟩⟩)
    | dupeKill hr hd hm => exact .inr (.inl ⟨hr.1, hr.2, hd, .inr ⟨hm, rfl⟩⟩)
    | killed hr hd sb pa m' s2 s3 hc hl2 hf' hk' es hl he =>
      obtain ⟨rfl, rfl⟩ := run _ _ _ _ (by rw [hc, hf]) hf'
      exact absurd hk' (by rw [show MemMsg.has { m with
        type := PKTS_ECHOMAIL
        seenBy := sb
        path := pa } MMFLAG_KILL = m.has MMFLAG_KILL from rfl, hk]; simp)
    | delivered b hr hd aka haka sb pa m' s2 s3 hsb hf' hk' fe hc hl2 hl he rs hp hall imp hi =>
      obtain ⟨rfl, rfl⟩ := run _ _ _ _ (by rw [hc, hf]) hf'
      have hfe : fe = [] := by rw [hl2] at hl; simpa using hl
      subst hfe
      refine .inr (.inr ⟨hr.1, hr.2, hd, aka, sb, pa, imp, haka, ?_, hsb, ?_⟩)
      · rw [hall rfl]; rfl
      · rcases hi with ⟨e1, e2⟩ | ⟨e1, e2, e3, e4, e, e5, e6⟩
        · refine .inl ⟨e1, ?_⟩
          rcases e2 rfl with x | x | x
          · exact absurd x (by rw [show MemMsg.has { m with
                type := PKTS_ECHOMAIL
                seenBy := sb
                path := pa } MMFLAG_TWIT = m.has MMFLAG_TWIT from rfl, ht]; simp)
          · exact .inl x
          · exact .inr x
        · obtain ⟨ty, d, o, e6⟩ := e6
          exact .inr ⟨e3, e4, e, e5, ty, d, o, e6⟩

/-! ## C17 -/

/-- C17. Whatever the outcome, every copy sent goes to a link of the message's area that is not the
sender, not passive, not write-only, and of which the SEEN-BY lines do not say that it has the
message already. -/
theorem echomail_recipients (env : Env) (af : (MemMsg → M Unit) → MemMsg → M Unit) (n : Nat) (m : MemMsg) (s t : HSt)
    (b : Bool) (ha : m.area ≠ []) (hb : Blocks m.seenBy) (h : Ret (handleMessage env af n m) s b t) :
    ∃ es, t.log = s.log ++ es ∧ ∀ k ak x, Effect.echo k ak x ∈ es →
      ∃ i a aka fl nd, AreaOf t.cfg m.area i a ∧ a.aka.bind (t.cfg.akas[·]?) = some aka ∧ ak = aka.node ∧
        Linked t.cfg a k fl nd ∧ x.dest = nd.node ∧ ¬ SameSystem m.pktOrig nd.node ∧ nd.has NODE_PASSIVE = false ∧
        TossNode.has ⟨k, fl⟩ TOSSNODE_WRITEONLY = false ∧ ¬ HasSeen t.cfg a ak m nd.node := by
  cases n with
  | zero => exact absurd h Ret.stuck
  | succ n =>
    obtain ⟨i, a, es, h1, h2, h3, _⟩ := echomail_disposition env af n m s t b ha hb h
    refine ⟨es, h2, fun k ak x hx => ?_⟩
    have nobad : ∀ {m1 : MemMsg} {es}, OnlyBad t.cfg m1 es → Effect.echo k ak x ∉ es := by
      rintro m1 es (⟨j, c, note, _, _, rfl⟩ | ⟨rfl, _⟩) <;> simp
    cases h3 with
    | refused es hr ho => exact absurd hx (nobad ho)
    | refusedErr hr => simp at hx
    | dupeBad es hr hd hm sb pa ho => exact absurd hx (nobad ho)
    | dupeBadErr hr hd hm => simp at hx
    | dupeKill hr hd hm => simp at hx
    | filterErr hr hd sb pa s2 t hc hl2 hf es hl he => exact absurd hx (he _ _ _)
    | killed hr hd sb pa m' s2 s3 hc hl2 hf' hk' es hl he => exact absurd hx (he _ _ _)
    | delivered b hr hd aka haka sb pa m' s2 s3 hsb hf' hk' fe hc hl2 hl he rs hp hall imp hi =>
      rcases List.mem_append.1 hx with hx | hx
      · rcases List.mem_append.1 hx with hx | hx
        · exact absurd hx (he _ _ _)
        · obtain ⟨l, hl, e⟩ := List.mem_map.1 hx
          unfold copyFor at e
          injection e with e1 e2 e3
          subst e1 e2 e3
          have hm := hp.subset hl
          unfold recipients at hm
          split at hm
          · simp at hm
          · rw [List.mem_filter, decide_eq_true_eq] at hm
            obtain ⟨hl1, ⟨d1, d2, d3, d4⟩, _⟩ := hm
            unfold links at hl1
            rw [List.mem_filterMap] at hl1
            obtain ⟨tn, ht1, ht2⟩ := hl1
            rw [Option.map_eq_some_iff] at ht2
            obtain ⟨nd, hn1, rfl⟩ := ht2
            exact ⟨i, a, aka, tn.flags, nd, h1, haka, rfl, ⟨ht1, hn1⟩, rfl, d1, d2, d3, d4⟩
      · rcases hi with ⟨rfl, _⟩ | ⟨_, _, _, _, e, rfl, ty, d, o, rfl⟩ <;> simp at hx

/-! ## C19 -/

/-- C19. A message from a system that may not post, or in an area that is not confirmed, goes to the
bad area and nowhere else; the configuration of existing areas, the duplicate database and the marks
stay as they were. -/
theorem echomail_refused (env : Env) (af : (MemMsg → M Unit) → MemMsg → M Unit) (n : Nat) (m : MemMsg) (s t : HSt)
    (i : Nat) (a : Area) (ha : m.area ≠ []) (hb : Blocks m.seenBy) (h : handleMessage env af n m s = .ok () t)
    (hao : AreaOf t.cfg m.area i a) (hr : a.has AREA_UNCONFIRMED = true ∨ ¬ MayPost t.cfg a m) :
    ∃ es, t.log = s.log ++ es ∧ OnlyBad t.cfg m es ∧ t.dupe = s.dupe ∧ t.seen = s.seen ∧
      s.cfg.areas <+: t.cfg.areas ∧ t.cfg.nodes = s.cfg.nodes := by
  cases n with
  | zero => cases h
  | succ n =>
    obtain ⟨j, c, es, h1, h2, h3, h4, h5⟩ := echomail_disposition env af n m s t true ha hb ⟨(), h⟩
    obtain ⟨rfl, rfl⟩ := areaOf_unique hao h1
    have no : ¬ (a.has AREA_UNCONFIRMED = false ∧ MayPost t.cfg a m) := by
      rintro ⟨x, y⟩
      rcases hr with hr | hr
      · rw [x] at hr; cases hr
      · exact hr y
    have hcfg : s.cfg.areas <+: t.cfg.areas ∧ t.cfg.nodes = s.cfg.nodes := by
      rcases h5 with h5 | ⟨_, h5, _⟩
      · rw [h5]; exact ⟨List.prefix_refl _, rfl⟩
      · rw [h5]; exact ⟨List.prefix_append _ _, rfl⟩
    cases h3 with
    | refused es hr' ho => exact ⟨es, h2, ho, (h4 hr).1, (h4 hr).2, hcfg⟩
    | dupeBad es hr' => exact absurd hr' no
    | dupeKill hr' => exact absurd hr' no
    | killed hr' => exact absurd hr' no
    | delivered b hr' => exact absurd hr' no

/-- C19, in particular: a sender that is not linked to an area that exists, or whose (first) link is
read-only, cannot post, unless packets are not checked. -/
theorem mayPost_iff (cfg : Config) (a : Area) (m : MemMsg) (h1 : m.has MMFLAG_EXPORTED = false)
    (h2 : m.has MMFLAG_NOSECURITY = false) : MayPost cfg a m ↔
      ∃ l, (links cfg a).find? (fun l => decide (SameSystem l.2.node m.pktOrig)) = some l ∧
        l.1.has TOSSNODE_READONLY = false := by
  unfold MayPost
  simp only [h1, h2, Bool.false_eq_true, false_or]
  constructor
  · rintro ⟨l1, l, l2, e1, e2, e3, e4⟩
    refine ⟨l, ?_, e4⟩
    rw [List.find?_eq_some_iff_append]
    exact ⟨by simpa using e2, l1, l2, e1, fun x hx => by simpa using e3 x hx⟩
  · rintro ⟨l, e1, e4⟩
    rw [List.find?_eq_some_iff_append] at e1
    obtain ⟨e2, l1, l2, e1, e3⟩ := e1
    exact ⟨l1, l, l2, e1, by simpa using e2, fun x hx => by simpa using e3 x hx, e4⟩

/-! ## C18 -/

/-- The filter commands that can kill a message. -/
def Command.mayKill : Command → Bool
  | .kill => true
  | .execute _ => true
  | _ => false

theorem runCommand_kill {env : Env} {self : MemMsg → M Unit} {m m' : MemMsg} {c : Command} {s t : HSt}
    (hc : c.mayKill = false) (h : runCommand env self m c s = .ok m' t) :
    m'.has MMFLAG_KILL = m.has MMFLAG_KILL := by
  cases c with
  | kill => cases hc
  | execute x => cases hc
  | twit => cases h; exact has_or _ _ _ (by decide)
  | copy tag => rw [filterCopy_text h]; rfl
  | writeLog x =>
    simp only [runCommand, filterWriteLog] at h
    rw [bind_ok] at h
    obtain ⟨l, s1, _, h⟩ := h
    rw [emit_bind] at h
    cases h; rfl
  | writeBad x =>
    simp only [runCommand] at h
    rw [bind_ok] at h
    obtain ⟨l, s1, _, h⟩ := h
    cases h; rfl
  | bounce b x =>
    simp only [runCommand, filterBounce] at h
    rw [bind_ok] at h
    obtain ⟨l, s1, _, h⟩ := h
    rw [bind_ok] at h
    obtain ⟨_, s2, _, h⟩ := h
    cases h; rfl
  | remap n d => exact (filterRemap_flags h).kill
  | masquerade n d => unfold MemMsg.has; rw [filterMasquerade_flags h]

theorem runCommands_kill {env : Env} {self : MemMsg → M Unit} {m : MemMsg} {cs : List Command} {s t : HSt}
    {r : MemMsg × Bool} (hc : ∀ c ∈ cs, c.mayKill = false)
    (h : runCommands env self m cs s = .ok r t) : r.1.has MMFLAG_KILL = m.has MMFLAG_KILL := by
  induction cs generalizing m s with
  | nil => cases h; rfl
  | cons c cs ih =>
    rw [runCommands, bind_ok] at h
    obtain ⟨m1, s1, h1, h⟩ := h
    have k := runCommand_kill (hc c (by simp)) h1
    split at h
    · cases h; exact k
    · exact (ih (fun c h => hc c (List.mem_cons_of_mem _ h)) h).trans k

theorem runFilters_kill {env : Env} {self : MemMsg → M Unit} {m m' : MemMsg} {fs : List Filter} {s t : HSt}
    (hc : ∀ f ∈ fs, ∀ c ∈ f.commands, c.mayKill = false)
    (h : runFilters env self m fs s = .ok m' t) : m'.has MMFLAG_KILL = m.has MMFLAG_KILL := by
  induction fs generalizing m s with
  | nil => cases h; rfl
  | cons f fs ih =>
    have hc' : ∀ f ∈ fs, ∀ c ∈ f.commands, c.mayKill = false := fun f h => hc f (List.mem_cons_of_mem _ h)
    rw [runFilters, get_bind, bind_ok] at h
    obtain ⟨v, s1, h1, h⟩ := h
    split at h
    · cases h; rfl
    · exact ih hc' h
    · rw [bind_ok] at h
      obtain ⟨r, s2, h2, h⟩ := h
      have k := runCommands_kill (hc f (by simp)) h2
      obtain ⟨m1, b⟩ := r
      dsimp only at h k
      split at h
      · cases h; exact k
      · exact (ih hc' h).trans k

/-- Is this a copy for node number `k`? -/
def Effect.isEchoTo (k : Nat) : Effect → Bool
  | .echo j _ _ => j == k
  | _ => false

/-- C18. A message that may be posted, is no duplicate and is not killed by a filter goes to every
link that is due, in the order of the configuration, one copy for each entry; and (unless a filter
masquerades it) all of them are in the SEEN-BY list of every copy. Not covered: nodes marked by an
earlier message in areas that ignore SEEN-BYs. -/
theorem echomail_every_link (env : Env) (af : (MemMsg → M Unit) → MemMsg → M Unit) (n : Nat) (m : MemMsg) (s t : HSt)
    (i : Nat) (a : Area) (ha : m.area ≠ []) (hb : Blocks m.seenBy) (h : handleMessage env af n m s = .ok () t)
    (hao : AreaOf t.cfg m.area i a) (hu : a.has AREA_UNCONFIRMED = false) (hp : MayPost t.cfg a m)
    (hd : ¬ Duplicate t.cfg s.dupe a m) (hr : m.has MMFLAG_RESCANNED = false) (hk : m.has MMFLAG_KILL = false)
    (hf : ∀ f ∈ t.cfg.filters, ∀ c ∈ f.commands, c.mayKill = false)
    (hs : ∀ x ∈ a.tossNodes, ¬ Stale t.cfg s.seen a x.node) :
    ∃ es aka m', t.log = s.log ++ es ∧ a.aka.bind (t.cfg.akas[·]?) = some aka ∧
      es.filter Effect.isEcho =
        ((links t.cfg a).filter fun l => decide (Due t.cfg a aka.node m l)).map (copyFor aka.node m') ∧
      ((∀ f ∈ t.cfg.filters, ∀ c ∈ f.commands, c.isMasquerade = false) →
        ∀ y, y ≠ (0, 0) → (y ∈ m'.seenBy.flatten ↔ SeenAfter t.cfg a aka m y)) := by
  cases n with
  | zero => cases h
  | succ n =>
    obtain ⟨j, c, es, h1, h2, h3, _⟩ := echomail_disposition env af n m s t true ha hb ⟨(), h⟩
    obtain ⟨rfl, rfl⟩ := areaOf_unique hao h1
    cases h3 with
    | refused es hr' ho =>
      rcases hr' with hr' | hr'
      · rw [hu] at hr'; cases hr'
      · exact absurd hp hr'
    | dupeBad es hr' hd' => exact absurd hd' hd
    | dupeKill hr' hd' => exact absurd hd' hd
    | killed hr' hd' sb pa m' s2 s3 hc hl2 hf' hk' es hl he =>
      unfold filterMsg at hf'
      rw [get_bind] at hf'
      rw [← hc] at hf
      have := runFilters_kill hf hf'
      rw [hk'] at this
      exact absurd (this.trans hk) (by simp)
    | delivered b hr' hd' aka haka sb pa m' s2 s3 hsb hf' hk' fe hc hl2 hl he rs hpre hall imp hi =>
      refine ⟨_, aka, m', h2, haka, ?_, ?_⟩
      · have e1 : fe.filter Effect.isEcho = [] := by
          rw [List.filter_eq_nil_iff]
          intro e hm
          cases e <;> simp [Effect.isEcho]
          exact he _ _ _ hm
        have e2 : imp.filter Effect.isEcho = [] := by
          rcases hi with ⟨rfl, _⟩ | ⟨_, _, _, _, e, rfl, ty, d, o, rfl⟩ <;> rfl
        have e3 : ∀ xs : List (TossNode × ConfigNode),
            (xs.map (copyFor aka.node m')).filter Effect.isEcho = xs.map (copyFor aka.node m') := by
          intro xs
          rw [List.filter_eq_self]
          intro e hm
          obtain ⟨x, _, rfl⟩ := List.mem_map.1 hm
          rfl
        rw [List.filter_append, List.filter_append, e1, e2, e3, List.nil_append, List.append_nil, hall rfl]
        unfold recipients
        rw [if_neg (by rw [hr]; simp)]
        congr 1
        refine List.filter_congr fun l hl => ?_
        unfold links at hl
        rw [List.mem_filterMap] at hl
        obtain ⟨tn, ht1, ht2⟩ := hl
        rw [Option.map_eq_some_iff] at ht2
        obtain ⟨nd, hn1, rfl⟩ := ht2
        have := hs tn ht1
        simp only [this, not_false_eq_true, and_true]
      · intro hm y hy
        unfold filterMsg at hf'
        rw [get_bind] at hf'
        rw [hc] at hf'
        have := (runFilters_ekeep (by exact ha) hf').2 hm
        rw [this]
        exact hsb y hy

/-- C18, counted: when no node is listed twice in the area, every link gets one copy if it is due and
none otherwise. -/
theorem echomail_exactly_once (env : Env) (af : (MemMsg → M Unit) → MemMsg → M Unit) (n : Nat) (m : MemMsg) (s t : HSt)
    (i : Nat) (a : Area) (ha : m.area ≠ []) (hb : Blocks m.seenBy) (h : handleMessage env af n m s = .ok () t)
    (hao : AreaOf t.cfg m.area i a) (hu : a.has AREA_UNCONFIRMED = false) (hp : MayPost t.cfg a m)
    (hd : ¬ Duplicate t.cfg s.dupe a m) (hr : m.has MMFLAG_RESCANNED = false) (hk : m.has MMFLAG_KILL = false)
    (hf : ∀ f ∈ t.cfg.filters, ∀ c ∈ f.commands, c.mayKill = false)
    (hs : ∀ x ∈ a.tossNodes, ¬ Stale t.cfg s.seen a x.node) (hn : (a.tossNodes.map (·.node)).Nodup) :
    ∃ es aka, t.log = s.log ++ es ∧ a.aka.bind (t.cfg.akas[·]?) = some aka ∧ ∀ l ∈ links t.cfg a,
      es.countP (Effect.isEchoTo l.1.node) = if Due t.cfg a aka.node m l then 1 else 0 := by
  obtain ⟨es, aka, m', h1, h2, h3, _⟩ := echomail_every_link env af n m s t i a ha hb h hao hu hp hd hr hk hf hs
  refine ⟨es, aka, h1, h2, fun l hl => ?_⟩
  have e1 : es.countP (Effect.isEchoTo l.1.node) = (es.filter Effect.isEcho).countP (Effect.isEchoTo l.1.node) := by
    rw [List.countP_filter]
    refine List.countP_congr fun e _ => ?_
    cases e <;> simp [Effect.isEcho, Effect.isEchoTo]
  rw [e1, h3, List.countP_map]
  have hnd : ((links t.cfg a).map (·.1.node)).Nodup := by
    refine List.Nodup.sublist ?_ hn
    unfold links
    generalize a.tossNodes = ts
    induction ts with
    | nil => simp
    | cons x ts ih =>
      rw [List.filterMap_cons]
      cases t.cfg.nodes[x.node]? with
      | none => simp only [Option.map_none]; exact List.Sublist.cons _ ih
      | some nd => simp only [Option.map_some, List.map_cons]; exact List.Sublist.cons_cons _ ih
  generalize links t.cfg a = L at hl hnd
  induction L with
  | nil => simp at hl
  | cons x L ih =>
    rw [List.map_cons, List.nodup_cons] at hnd
    have zero : ∀ p : TossNode × ConfigNode → Bool, x.1.node = l.1.node →
        (L.filter p).countP (Effect.isEchoTo l.1.node ∘ copyFor aka.node m') = 0 := by
      intro p e
      rw [List.countP_eq_zero]
      intro y hy
      have hy := (List.mem_filter.1 hy).1
      simp only [Function.comp, copyFor, Effect.isEchoTo, beq_iff_eq]
      intro e'
      exact hnd.1 (by rw [e, ← e']; exact List.mem_map_of_mem hy)
    rcases List.mem_cons.1 hl with rfl | hl
    · by_cases hdue : Due t.cfg a aka.node m l
      · rw [List.filter_cons_of_pos (by simpa using hdue), List.countP_cons, zero _ rfl, if_pos hdue]
        simp [copyFor, Effect.isEchoTo]
      · rw [List.filter_cons_of_neg (by simpa using hdue), zero _ rfl, if_neg hdue]
    · have hne : ¬ x.1.node = l.1.node := by
        intro e
        exact hnd.1 (by rw [e]; exact List.mem_map_of_mem hl)
      rw [← ih hl hnd.2]
      by_cases hdue : Due t.cfg a aka.node m x
      · rw [List.filter_cons_of_pos (by simpa using hdue), List.countP_cons]
        simp [copyFor, Effect.isEchoTo, hne]
      · rw [List.filter_cons_of_neg (by simpa using hdue)]

/-! ## Concrete cases -/

namespace Ex

def lk (k : Nat) (fl : UInt16 := 0) : TossNode := ⟨k, fl⟩

def testArea : Area := area b!"TEST" 0 [lk 0, lk 1, lk 2, lk 3]

/-- The nodes copies were sent to, with the SEEN-BY list of the message. -/
def sent (l : List Effect) : List (Nat × List N2) := l.filterMap fun e => match e with
  | .echo k _ m => some (k, m.seenBy.flatten)
  | _ => none

def noAf : (MemMsg → M Unit) → MemMsg → M Unit := fun _ _ => pure ()

/-- A message from 1:2/4 that 1:2/7 has seen goes to 1:2/5 (6 is passive), and is stored. -/
theorem run_ok : ∃ t, handleMessage env noAf 2 (msg b!"test" [[(2, 7)]]) (st (cfg [testArea])) = .ok () t ∧
    (sent t.log == [(1, [(2, 3), (2, 4), (2, 5), (2, 7)])] && t.log.length == 2 && t.cfg.areas == [testArea] &&
      t.cfg.nodes == (cfg []).nodes && t.cfg.flags == 1 && t.cfg.filters.isEmpty && t.cfg.dupeMode == 0) = true :=
  ok_of (by decide +kernel)

/-- The hypotheses of `echomail_exactly_once` (and so of `echomail_every_link`) are met. -/
example : ∃ t i a, handleMessage env noAf 2 (msg b!"test" [[(2, 7)]]) (st (cfg [testArea])) = .ok () t ∧
    (msg b!"test" [[(2, 7)]]).area ≠ [] ∧ Blocks (msg b!"test" [[(2, 7)]]).seenBy ∧
    AreaOf t.cfg b!"test" i a ∧ a.has AREA_UNCONFIRMED = false ∧ MayPost t.cfg a (msg b!"test" [[(2, 7)]]) ∧
    ¬ Duplicate t.cfg (st (cfg [])).dupe a (msg b!"test" [[(2, 7)]]) ∧
    (msg b!"test" [[(2, 7)]]).has MMFLAG_RESCANNED = false ∧ (msg b!"test" [[(2, 7)]]).has MMFLAG_KILL = false ∧
    (∀ f ∈ t.cfg.filters, ∀ c ∈ f.commands, c.mayKill = false) ∧
    (∀ x ∈ a.tossNodes, ¬ Stale t.cfg (st (cfg [])).seen a x.node) ∧ (a.tossNodes.map (·.node)).Nodup := by
  obtain ⟨t, h, hp⟩ := run_ok
  simp only [Bool.and_eq_true, beq_iff_eq, List.isEmpty_iff] at hp
  obtain ⟨⟨⟨⟨⟨⟨h1, h2⟩, h3⟩, h4⟩, h5⟩, h6⟩, h7⟩ := hp
  refine ⟨t, 0, testArea, h, by decide, ⟨by decide, by decide⟩, ⟨by rw [h3]; rfl, by decide, by simp⟩, by decide, ?_, ?_,
    by decide, by decide, by rw [h6]; simp, ?_, by decide⟩
  · refine .inr (.inr ⟨[], (lk 0, node 4 0), [(lk 1, node 5 0), (lk 2, node 6 2), (lk 3, node 7 0)], ?_, by decide, by simp,
      by decide⟩)
    unfold links
    rw [h4]
    decide
  · rintro ⟨x, _⟩; exact x h7
  · rintro x hx ⟨_, y, _⟩; revert y; decide

/-- C19: 1:2/9 is not linked. Its message ends up in the bad area. -/
theorem refused_run : ∃ t, handleMessage env noAf 2 { msg b!"test" [] with pktOrig := ⟨1, 2, 9, 0⟩ }
      (st (cfg [testArea, { area b!"BAD" 0 [] with type := .bad }])) = .ok () t ∧
    (t.log == [.importMsg 1 { msg b!"test" [] with
      pktOrig := ⟨1, 2, 9, 0⟩
      type := PKTS_ECHOMAIL
      text := [b!"AREA:test\rPKTORIG:1:2/9.0\rPKTDEST:0:0/0.0\rERROR:Node does not receive this area\r",
        b!"hello\r"] }]) = true :=
  ok_of (by decide +kernel)

/-- C20: without a bad area the message of an unlinked system is lost. -/
theorem refused_lost : ∃ t, handleMessage env noAf 2 { msg b!"test" [] with pktOrig := ⟨1, 2, 9, 0⟩ }
      (st (cfg [testArea])) = .ok () t ∧ (t.log == []) = true :=
  ok_of (by decide +kernel)

/-- C18 (violated): a node listed twice in an area gets the message twice. -/
theorem twice_listed : ∃ t, handleMessage env noAf 2 (msg b!"test" []) (st (cfg [area b!"TEST" 0 [lk 0, lk 1, lk 1]])) =
      .ok () t ∧ ((sent t.log).map (·.1) == [1, 1]) = true :=
  ok_of (by decide +kernel)

/-- C18 (violated): 1:2/5 has seen the first message. The second one is in an area that ignores
SEEN-BYs, and 1:2/5 does not get it although it is not in its SEEN-BY lines. -/
theorem stale_mark : ∃ t, (do
      handleMessage env noAf 2 (msg b!"test" [[(2, 5)]])
      handleMessage env noAf 2 (msg b!"other" []))
      (st (cfg [testArea, area b!"OTHER" AREA_IGNORESEENBY [lk 0, lk 1, lk 3]])) = .ok () t ∧
      ((t.log.filterMap fun e => match e with
        | .echo k _ m => some (k, m.area)
        | _ => none) == [(3, b!"test"), (3, b!"other")]) = true :=
  ok_of (by decide +kernel)

/-- Without the first message 1:2/5 does get it. -/
theorem stale_mark_without : ∃ t, handleMessage env noAf 2 (msg b!"other" [])
      (st (cfg [testArea, area b!"OTHER" AREA_IGNORESEENBY [lk 0, lk 1, lk 3]])) = .ok () t ∧
      ((sent t.log).map (·.1) == [1, 3]) = true :=
  ok_of (by decide +kernel)

/-- C18 (violated): after MASQUERADE neither the links nor the own address are in SEEN-BY. -/
theorem masquerade_seenBy : ∃ t, handleMessage env noAf 2 (msg b!"test" []) (st { cfg [testArea] with
      filters := [⟨b!"TYPE=ECHOMAIL", [.masquerade b!"*" ⟨.pattern, b!"1", b!"9", b!"9", b!"0"⟩]⟩] }) = .ok () t ∧
      (sent t.log == [(1, [(9, 9)]), (3, [(9, 9)])]) = true :=
  ok_of (by decide +kernel)

end Ex

end CM
