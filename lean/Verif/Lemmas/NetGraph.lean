import Verif.Lemmas.Net
import Verif.Spec.NetGraph
/-! # An echomail in a network with loops -/

set_option linter.unusedSimpArgs false

namespace CM

/-! ## Duplicates -/

/-- A duplicate that is killed. -/
theorem handle_dupe (env : Env) (af : (MemMsg → M Unit) → MemMsg → M Unit) (n : Nat) (m : MemMsg) (s : HSt) {i : Nat} {a : Area} {aka : Aka} {ls : List Link} (ha : m.area ≠ [])
    (hf : s.cfg.findArea m.area = some i) (hi : s.cfg.areas[i]? = some a) (hu : a.has AREA_UNCONFIRMED = false) (hin : a.importNodes = []) (hr : resolveLinks s.cfg.nodes a.tossNodes = some ls)
    (hd : denied m ls = none) (hk : a.aka.bind (s.cfg.akas[·]?) = some aka) (hm : s.cfg.dupeMode = 2) (ht : m.has MMFLAG_TOSSED = true) (hg : a.has AREA_IGNOREDUPES = false)
    (hdup : checkDupe s.cfg.dupeSize s.dupe m.msgid m.area = .ok (s.dupe, true)) :
    ∃ t, handleMessage env af (n + 1) m s = .ok () t ∧ t.cfg = s.cfg ∧ t.log = s.log ∧ t.dupe = s.dupe := by
  obtain ⟨p, hp⟩ := addNodePath_total m.path aka.node
  have e1 : handleMessage env af (n + 1) m s = tossEcho env (handleMessage env af n) i a aka ls { m with type := PKTS_ECHOMAIL } s := by
    unfold handleMessage
    rw [if_neg ha]
    unfold handleEchomail
    dsimp only
    have e0 : findOrAddArea env { m with type := PKTS_ECHOMAIL } s = .ok i s := by
      unfold findOrAddArea
      rw [get_bind]
      dsimp only
      rw [hf]
      rfl
    rw [bind_of_ok e0, get_bind, hi]
    dsimp only
    rw [if_neg (by rw [hu]; simp), if_neg (by rw [hin]; simp), hr]
    dsimp only
    rw [show denied { m with type := PKTS_ECHOMAIL } ls = denied m ls from rfl, hd]
    dsimp only
    rw [hk]
  rw [e1]
  unfold tossEcho
  rw [get_bind]
  dsimp only
  rw [set_bind]
  have e2 : ∀ u : HSt, ∃ q, (if (decide (aka.node.point = 0) || s.cfg.has CFG_PATH3D) = true then M.liftO (.ok (addNodePath m.path aka.node)) else pure m.path : M (List (List Str))) u = .ok q u := by
    intro u
    split
    · exact ⟨p, by rw [hp]; rfl⟩
    · exact ⟨m.path, rfl⟩
  obtain ⟨q, e2⟩ := e2 { s with seen := markSeen s.cfg a aka.node ls (zoneSeenBy aka.node m) s.seen }
  rw [show zoneSeenBy aka.node { m with type := PKTS_ECHOMAIL } = zoneSeenBy aka.node m from rfl, bind_of_ok e2]
  have e3 : dupeCheck a { m with type := PKTS_ECHOMAIL, seenBy := newSeenBy aka ls (zoneSeenBy aka.node m), path := q } { s with seen := markSeen s.cfg a aka.node ls (zoneSeenBy aka.node m) s.seen } =
      .ok true { s with seen := markSeen s.cfg a aka.node ls (zoneSeenBy aka.node m) s.seen } := by
    unfold dupeCheck
    rw [get_bind]
    have ht' : MemMsg.has { m with type := PKTS_ECHOMAIL, seenBy := newSeenBy aka ls (zoneSeenBy aka.node m), path := q } MMFLAG_TOSSED = true := ht
    rw [if_pos (by dsimp only; rw [ht', hg, hm]; rfl)]
    rw [bind_of_ok (lift_ok.2 ⟨hdup, rfl⟩)]
    rfl
  rw [bind_of_ok e3, if_pos rfl, if_neg (by rw [hm]; decide)]
  exact ⟨_, rfl, rfl, rfl, rfl⟩

theorem last_mem {α : Type} {n : Nat} (h : 0 < n) (l : List α) (x : α) : x ∈ lastN n (l ++ [x]) := by
  unfold lastN
  rw [List.drop_append_of_le_length (by rw [List.length_append, List.length_singleton]; omega)]
  simp

/-- The system has the message in its database. -/
def Knows (s : HSt) (id tag : Str) : Prop := checkDupe s.cfg.dupeSize s.dupe id tag = .ok (s.dupe, true)

/-! ## One system -/

/-- A message that has come to system `v` from `u`. -/
structure Coming (n : Net) (m0 : MemMsg) (u : Nat) (m : MemMsg) : Prop where
  orig : m.pktOrig = n.addr u
  words : SameWords m0 m
  subject : m.subject = m0.subject
  id : m.msgid = msgidOf m0.text.flatten
  flags : m.flags = 4
  blocks : Blocks m.seenBy
  nodup : m.seenBy.flatten.Nodup
  path : PathOK m.path
  lines : ∀ l ∈ m.path.flatten, PathLineOK l

/-- The address of system `u` as it is in SEEN-BY lines of the zone of `v`. -/
def Named (n : Net) (v u : Nat) (y : N2) : Prop :=
  (n.addr u).zone = (n.addr v).zone ∧ (n.addr u).point = 0 ∧ y = ((n.addr u).net, (n.addr u).node)

/-- The message `m` is handled by system `v` in state `s`, which goes to `t` and sends the packets `ps`. -/
structure Visit (n : Net) (nb : Nat → Nat → Prop) (m0 m : MemMsg) (v i : Nat) (a : Area) (s t : HSt) (ps : List Pkt) : Prop where
  runs : Handles n v [m] s t ps
  cfg : t.cfg = s.cfg
  log : ∃ es, t.log = s.log ++ es ∧ (m.has MMFLAG_EXPORTED = true → storedIn es = []) ∧
    (m.has MMFLAG_EXPORTED = false → ∃ x, storedIn es = [(i, x)] ∧ SameWords m0 x ∧ x.subject = if (n.start v).cfg.has CFG_STRIPRE then stripRe m0.subject else m0.subject)
  same : m.has MMFLAG_TOSSED = false → t.dupe = s.dupe
  noted : m.has MMFLAG_TOSSED = true → ∀ db, checkDupe s.cfg.dupeSize s.dupe m.msgid m.area = .ok (db, false) → t.dupe = db
  nodup : (ps.map (·.dest)).Nodup
  sent : ∀ p ∈ ps, ∃ w, nb v w ∧ p.dest = n.addr w ∧ n.addr w ≠ m.pktOrig ∧ ¬ HasSeen (n.start v).cfg a (n.addr v) m (n.addr w) ∧
    ∃ m', readPkt (pktCfgOf (n.start w).cfg (n.zone w)) (fun _ _ => true) (fun _ => false) n.junk p.data = .ok (some (.done, [m'])) ∧ Coming n m0 v m' ∧
      ((n.addr v).zone = (n.addr w).zone → ∀ y ∈ m'.seenBy.flatten, (m.pktOrig.zone = (n.addr v).zone ∧ y ∈ m.seenBy.flatten) ∨ ∃ u, (u = v ∨ nb v u) ∧ Named n v u y) ∧
      ((n.addr v).zone = (n.addr w).zone → (∀ l ∈ links (n.start v).cfg a, l.2.has NODE_TINYSEENBY = false ∧ l.2.has NODE_NOSEENBY = false) →
        ∀ y, y ≠ (0, 0) → (m.pktOrig.zone = (n.addr v).zone ∧ y ∈ m.seenBy.flatten) ∨ Named n v v y → y ∈ m'.seenBy.flatten)
  cover : (∀ k, ¬ Stale s.cfg s.seen a k) → ∀ w, nb v w → n.addr w ∈ ps.map (·.dest) ∨ n.addr w = m.pktOrig ∨ HasSeen (n.start v).cfg a (n.addr v) m (n.addr w)

theorem visit (n : Net) (root : Nat) (nb : Nat → Nat → Prop) (m0 m : MemMsg) (v i : Nat) (a : Area) (aka : Aka) (s : HSt) (hA : Addresses n) (hP : LinksAgree n nb) (hlt : ∀ w, nb v w → w < n.size)
    (hj : n.junk.length = 14) (hfu : 0 < n.fuel) (hm0 : Posted n root m0) (hv : v < n.size) (h : Joins n nb m0.area (msgidOf m0.text.flatten) v i a aka) (hcs : s.cfg = (n.start v).cfg)
    (own : ∀ c, c < n.size → ∃ b ∈ (n.start c).cfg.akas, b.node = n.addr c)
    (hw : SameWords m0 m) (hsub : m.subject = m0.subject) (hk : m.has MMFLAG_KILL = false) (hr : m.has MMFLAG_RESCANNED = false) (ht : m.has MMFLAG_TWIT = false)
    (hpost : MayPost (n.start v).cfg a m) (hdup : NotDupe s a m) (hb : Blocks m.seenBy) (hnd : m.seenBy.flatten.Nodup) (hpo : PathOK m.path) (hpl : ∀ l ∈ m.path.flatten, PathLineOK l)
    (hoz : m.pktOrig.zone ≠ 0) :
    ∃ t ps, Visit n nb m0 m v i a s t ps := by
  obtain ⟨f, hf⟩ : ∃ f, n.fuel = f + 1 := ⟨n.fuel - 1, by omega⟩
  obtain ⟨ls, hls⟩ := resolveLinks_some (n.start v).cfg a.tossNodes h.known
  have hlk := resolveLinks_links _ _ _ hls
  have hlink : ∀ l ∈ links (n.start v).cfg a, ∃ w, nb v w ∧ l.2.node = n.addr w :=
    fun l hl => (h.neighbours l.2.node).1 (List.mem_map_of_mem (f := fun l : TossNode × ConfigNode => l.2.node) hl)
  generalize hRe : recipients (n.start v).cfg s.seen a aka.node m = R
  have hR : ∀ l, l ∈ R ↔ l ∈ links (n.start v).cfg a ∧ Due (n.start v).cfg a (n.addr v) m l ∧ ¬ Stale (n.start v).cfg s.seen a l.1.node := by
    intro l
    rw [← hRe]
    unfold recipients
    rw [if_neg (by rw [hr]; simp), List.mem_filter, decide_eq_true_eq, h.addr]
  have hRn : (R.map fun l => l.2.node).Nodup := by
    refine List.Nodup.sublist (List.Sublist.map _ ?_) h.once
    rw [← hRe]
    unfold recipients
    split
    · exact List.nil_sublist _
    · exact List.filter_sublist
  have hne : m.area ≠ [] := by
    rw [hw.area]
    intro h0
    obtain ⟨c, hc, _⟩ := hm0.area.last
    rw [h0] at hc; simp at hc
  have hfind : (n.start v).cfg.findArea m.area = some i := by
    rw [hw.area]
    cases hfa : (n.start v).cfg.findArea m0.area with
    | none => exact absurd h.area.2.1 (findArea_none _ _ hfa a (List.mem_of_getElem? h.area.1))
    | some j =>
      obtain ⟨b, hb⟩ := findArea_areaOf _ _ _ hfa
      rw [(areaOf_unique hb h.area).1]
  obtain ⟨sb, pa, t, imp, e1, e2, e3, e4, e5, e6, e7, e8, e9, e10, e11⟩ := handle_delivers (n.env v) n.af f m s (aka := aka) (a := a) (i := i) (ls := ls) hne (by rw [hcs]; exact hfind) (by rw [hcs]; exact h.area.1)
    h.confirmed h.echo (by rw [hcs]; exact hls) ((denied_none_iff _ _ _ _ hls).2 hpost) (by rw [hcs]; exact h.own) h.lists.2 hb hdup (by rw [hcs]; exact h.filters) hk hr ht h.works.1 h.works.2
  rw [hcs] at e3 e6 e9 e11
  rw [hRe] at e3
  have himp : ∀ e ∈ imp, ∃ i y, e = Effect.importMsg i y := by
    intro e he
    by_cases hx : m.has MMFLAG_EXPORTED = true
    · rw [e8 (.inl hx)] at he; cases he
    · obtain ⟨y, rfl, ty, d, o, rfl⟩ := e9 (by simpa using hx) h.stores
      simp only [List.mem_singleton] at he
      subst he
      exact ⟨_, _, rfl⟩
  have hpa : PathOK pa ∧ ∀ l ∈ pa.flatten, PathLineOK l := by
    rcases e7 with rfl | e7
    · exact ⟨hpo, hpl⟩
    · exact addNodePath_lines hpo hpl e7
  have hzv : aka.node.zone ≠ 0 := by rw [h.addr]; exact hA.zone v hv
  have hnode : ∀ l ∈ links (n.start v).cfg a, (n.start v).cfg.nodes[l.1.node]? = some l.2 := by
    intro l hl
    rw [hlk.1] at hl
    obtain ⟨l', hl', rfl⟩ := List.mem_map.1 hl
    exact (hlk.2 l' hl').2
  have hpack := packCopies_runs n t.cfg aka.node hzv { m with seenBy := sb, path := pa } e4.1 imp himp R {} (by
      intro l hl
      have hl := ((hR l).1 hl).1
      obtain ⟨w, w1, w2⟩ := hlink l hl
      rw [e2, hcs]
      exact ⟨hnode l hl, (h.plain l hl).2.1, by rw [w2]; exact hA.zone w (hlt w w1)⟩) hRn (by intro l _ p hp; cases hp)
  have hsto : storedIn (R.map (copyFor aka.node { m with seenBy := sb, path := pa }) ++ imp) = storedIn imp := by
    unfold storedIn
    rw [List.filterMap_append, List.filterMap_map, List.filterMap_eq_nil_iff.2 (by intro e he; rfl), List.nil_append]
  have hfin : (closePackets { ({} : PktState) with opened := ({} : PktState).opened ++ R.map (copyPkt n aka.node { m with seenBy := sb, path := pa }) }).finished =
      R.map (fun l => (copyPkt n aka.node { m with seenBy := sb, path := pa } l).finish) := by
    simp [closePackets]
  have hdst : ((closePackets { ({} : PktState) with opened := ({} : PktState).opened ++ R.map (copyPkt n aka.node { m with seenBy := sb, path := pa }) }).finished.map (·.dest)) =
      R.map (fun l => l.2.node) := by
    rw [hfin, List.map_map]
    rfl
  have hsame : ∀ w, w < n.size → (SameSystem m.pktOrig (n.addr w) ↔ n.addr w = m.pktOrig) := by
    intro w hw
    rw [← same_iff, compare4D_eq_zero_iff_eq _ _ hoz (hA.zone w hw)]
    exact eq_comm
  refine ⟨t, _, ⟨⟨?_, _, _, e3, hpack, rfl⟩, e2, ⟨_, e3, ?_, ?_⟩, e10, ?_, ?_, ?_, ?_⟩⟩
  · rw [hf, handleAll, bind_of_ok e1]
    rfl
  · intro hx
    rw [hsto, e8 (.inl hx)]
    rfl
  · intro hx
    obtain ⟨y, rfl, ty, d, o, rfl⟩ := e9 hx h.stores
    rw [hsto]
    refine ⟨_, rfl, ⟨hw.area, hw.text, hw.to, hw.frm, hw.date⟩, ?_⟩
    show (if (n.start v).cfg.has CFG_STRIPRE then stripRe m.subject else m.subject) = _
    rw [hsub]
  · intro htt db hdb
    rw [hcs] at hdb
    exact e11 (by rw [h.kills.1]; decide) htt h.kills.2 db hdb
  · rw [hdst]; exact hRn
  · intro p hp
    rw [hfin] at hp
    obtain ⟨l, hl, rfl⟩ := List.mem_map.1 hp
    obtain ⟨hl1, hdue, -⟩ := (hR l).1 hl
    obtain ⟨w, hnb, hlw⟩ := hlink l hl1
    have w1 := hlt w hnb
    obtain ⟨q1, q2, q3, q4, q5, q6⟩ := h.plain l hl1
    obtain ⟨m', r0, r1, r2, r3, r4, r5, r6, r7, r8, r9, r10, r11, r12, r13, r14⟩ := copy_arrives n aka.node { m with seenBy := sb, path := pa } l (n.start w).cfg (n.zone w) ⟨hzv, by rw [hlw]; exact hA.zone w w1⟩
      (by rw [h.addr]; exact hA.net v hv) hj ⟨q5, q6⟩ (by
        intro nd hnd
        rw [h.addr] at hnd
        exact hP v w hnb l.2 (List.mem_of_getElem? (hnode l hl1)) hlw nd hnd) (by rw [hlw]; exact own w w1)
      ⟨by rw [show ({ m with seenBy := sb, path := pa } : MemMsg).date = m0.date from hw.date]; exact hm0.strings.date, by rw [show ({ m with seenBy := sb, path := pa } : MemMsg).to = m0.to from hw.to]; exact hm0.strings.to,
        by rw [show ({ m with seenBy := sb, path := pa } : MemMsg).frm = m0.frm from hw.frm]; exact hm0.strings.frm, by rw [show ({ m with seenBy := sb, path := pa } : MemMsg).subject = m0.subject from hsub]; exact hm0.strings.subject⟩
      (by rw [show ({ m with seenBy := sb, path := pa } : MemMsg).area = m0.area from hw.area]; exact hm0.area)
      (by rw [show ({ m with seenBy := sb, path := pa } : MemMsg).text.flatten = m0.text.flatten from hw.text]; exact hm0.ends)
      (by rw [show ({ m with seenBy := sb, path := pa } : MemMsg).text.flatten = m0.text.flatten from hw.text]; exact hm0.noNul)
      (by rw [show ({ m with seenBy := sb, path := pa } : MemMsg).text.flatten = m0.text.flatten from hw.text]; exact hm0.lines)
      e4.1 (e5 hnd) hpa.2
    refine ⟨w, hnb, hlw, ?_, ?_, m', r0, ⟨?_, ⟨r1.trans hw.area, r2.trans hw.text, r3.trans hw.to, r4.trans hw.frm, r6.trans hw.date⟩, r5.trans hsub, ?_, r14, r12, r11, r9, ?_⟩, ?_, ?_⟩
    · intro e
      exact hdue.1 (by rw [hlw]; exact (hsame w w1).2 e)
    · rw [← hlw]; exact hdue.2.2.2
    · rw [r7, h.addr]
    · rw [r13]; exact congrArg msgidOf hw.text
    · rw [r8]; exact hpa.2
    · intro hz y hy
      have hy := r10.mem_iff.1 hy
      rw [List.mem_filter] at hy
      obtain ⟨hy, hy0⟩ := hy
      have hy0 : y ≠ (0, 0) := by simpa using hy0
      unfold sentSeenBy at hy
      split at hy
      · rw [List.mem_eraseDups, List.mem_append] at hy
        rw [hlw, h.addr] at hy
        rcases hy with hy | hy
        · split at hy
          · next h0 =>
            simp only [List.mem_singleton] at hy
            exact .inr ⟨w, .inr hnb, hz.symm, h0, hy⟩
          · cases hy
        · split at hy
          · next h0 =>
            simp only [List.mem_singleton] at hy
            exact .inr ⟨v, .inl rfl, rfl, h0, hy⟩
          · cases hy
      · split at hy
        · cases hy
        · rcases (e6 y hy0).1 hy with ⟨(⟨s1, s2⟩ | ⟨l', s1, s2, s3, -, -, s4⟩), -⟩ | ⟨x, hx, -⟩ | ⟨s1, s2⟩
          · rw [h.addr] at s1
            exact .inl ⟨s1.symm, s2⟩
          · obtain ⟨u, u1, u3⟩ := hlink l' s1
            rw [u3] at s2 s3 s4
            rw [h.addr] at s2
            exact .inr ⟨u, .inr u1, s2, s3, s4⟩
          · rw [h.lists.1] at hx; cases hx
          · rw [h.addr] at s1 s2
            exact .inr ⟨v, .inl rfl, rfl, s1, s2⟩
    · intro hz hfull y hy0 hy
      refine r10.mem_iff.2 (List.mem_filter.2 ⟨?_, by simpa using hy0⟩)
      unfold sentSeenBy
      rw [if_neg (by
        rw [hlw, h.addr]
        rintro (hc | hc)
        · exact hc hz.symm
        · rw [(hfull l hl1).1] at hc; cases hc), if_neg (by rw [(hfull l hl1).2]; simp)]
      refine (e6 y hy0).2 ?_
      rcases hy with ⟨y1, y2⟩ | ⟨-, y1, y2⟩
      · exact .inl ⟨.inl ⟨by rw [h.addr]; exact y1.symm, y2⟩, by rw [h.lists.2]; intro p hp; cases hp⟩
      · exact .inr (.inr (by rw [h.addr]; exact ⟨y1, y2⟩))
  · intro hst w hnb
    obtain ⟨l, hl, e⟩ := List.mem_map.1 ((h.neighbours (n.addr w)).2 ⟨w, hnb, rfl⟩)
    have e : l.2.node = n.addr w := e
    by_cases h1 : n.addr w = m.pktOrig
    · exact .inr (.inl h1)
    by_cases h2 : HasSeen (n.start v).cfg a (n.addr v) m (n.addr w)
    · exact .inr (.inr h2)
    refine .inl ?_
    rw [hdst]
    obtain ⟨q1, q2, q3, q4, q5, q6⟩ := h.plain l hl
    rw [hcs] at hst
    exact List.mem_map.2 ⟨l, (hR l).2 ⟨hl, ⟨by rw [e]; exact fun hc => h1 ((hsame w (hlt w hnb)).1 hc), q1, q4, by rw [e]; exact h2⟩, hst _⟩, e⟩

/-! ## The network -/

section
variable {n : Net} {root : Nat} {nb : Nat → Nat → Prop} {m : MemMsg} {i : Nat → Nat} {a : Nat → Area} {aka : Nat → Aka}

theorem EchoGraph.own (h : EchoGraph n root nb m i a aka) : ∀ c, c < n.size → ∃ b ∈ (n.start c).cfg.akas, b.node = n.addr c := by
  intro c hc
  have hp := h.part c hc
  refine ⟨aka c, ?_, hp.addr⟩
  have := hp.own
  cases ho : (a c).aka with
  | none => rw [ho] at this; cases this
  | some k =>
    rw [ho] at this
    exact List.mem_of_getElem? this

theorem EchoGraph.lt (h : EchoGraph n root nb m i a aka) {v w : Nat} (e : nb v w) : w < n.size := h.graph.lt w v (h.graph.both v w e)

theorem EchoGraph.areaOK (h : EchoGraph n root nb m i a aka) : AreaOK m.area :=
  ⟨by have := h.posted.area.len; omega, fun c hc e => h.posted.area.noNul (e ▸ hc)⟩

/-- The message at the system where it is posted. -/
theorem posts (h : EchoGraph n root nb m i a aka) : ∃ t ps, Visit n nb m m root (i root) (a root) (n.start root) t ps := by
  have hp := h.posted
  obtain ⟨f1, f2, f3, f4, f5⟩ := hp.exported
  exact visit n root nb m m root (i root) (a root) (aka root) (n.start root) h.addresses h.passwords (fun w hw => h.lt hw) h.buffer h.depth hp h.graph.inside (h.part root h.graph.inside) rfl h.own
    ⟨rfl, rfl, rfl, rfl, rfl⟩ rfl f4 f3 f5 (.inl f1) (fun _ ht => by rw [f2] at ht; cases ht) (by rw [hp.seenBy]; simp [Blocks]) (by rw [hp.seenBy]; simp) (by rw [hp.path]; intro b hb; cases hb) (by rw [hp.path]; simp)
    (by rw [hp.orig]; exact h.addresses.zone _ h.graph.inside)

theorem coming_flags {u : Nat} {x : MemMsg} (hx : Coming n m u x) (k : UInt16) : x.has k = (4 &&& k != 0) := by
  unfold MemMsg.has; rw [hx.flags]

theorem coming_may (h : EchoGraph n root nb m i a aka) {u v : Nat} (e : nb u v) {x : MemMsg} (hx : Coming n m u x) : MayPost (n.start v).cfg (a v) x := by
  have hp := h.part v (h.lt e)
  obtain ⟨l, hl, e⟩ := List.mem_map.1 ((hp.neighbours (n.addr u)).2 ⟨u, h.graph.both u v e, rfl⟩)
  have hno : x.has MMFLAG_EXPORTED = false := by rw [coming_flags hx]; decide
  have hns : x.has MMFLAG_NOSECURITY = false := by rw [coming_flags hx]; decide
  rw [mayPost_iff _ _ _ hno hns]
  cases hf : (links (n.start v).cfg (a v)).find? (fun l => decide (SameSystem l.2.node x.pktOrig)) with
  | some l' => exact ⟨l', rfl, (hp.plain l' (List.mem_of_find?_eq_some hf)).2.2.1⟩
  | none =>
    have := List.find?_eq_none.1 hf l hl
    rw [hx.orig, e] at this
    simp [SameSystem] at this

/-- The database before and after the message has come for the first time. -/
theorem notes (h : EchoGraph n root nb m i a aka) {v : Nat} (hv : v < n.size) :
    ∃ db, checkDupe (n.start v).cfg.dupeSize (n.start v).dupe (msgidOf m.text.flatten) m.area = .ok (db, false) ∧
      checkDupe (n.start v).cfg.dupeSize db (msgidOf m.text.flatten) m.area = .ok (db, true) := by
  obtain ⟨all, h1, h2, h3⟩ := (h.part v hv).new
  obtain ⟨db, d1, d2, d3⟩ := (checkDupe_spec _ _ all h1 _ _ h.id.1 h.id.2 h.areaOK (by omega)).2 h2
  refine ⟨db, d1, (checkDupe_spec _ _ _ d2 _ _ h.id.1 h.id.2 h.areaOK (by omega)).1 (last_mem ?_ _ _)⟩
  have := h1.ring.num_lt
  omega

/-- The message comes to a system that does not know it. -/
theorem first_time (h : EchoGraph n root nb m i a aka) {u v : Nat} (e : nb u v) {x : MemMsg} (hx : Coming n m u x) {s : HSt} (hc : s.cfg = (n.start v).cfg) (hd : s.dupe = (n.start v).dupe) :
    ∃ t ps, Visit n nb m x v (i v) (a v) s t ps ∧ Knows t (msgidOf m.text.flatten) m.area := by
  have hv := h.lt e
  obtain ⟨db, d1, d2⟩ := notes h hv
  have fl := coming_flags hx
  obtain ⟨t, ps, hvis⟩ := visit n root nb m x v (i v) (a v) (aka v) s h.addresses h.passwords (fun w hw => h.lt hw) h.buffer h.depth h.posted hv (h.part v hv) hc h.own hx.words hx.subject (by rw [fl]; decide) (by rw [fl]; decide)
    (by rw [fl]; decide) (coming_may h e hx) (by
      intro _ _ _
      refine ⟨db, ?_⟩
      rw [hc, hd, hx.id, hx.words.area]
      exact d1) hx.blocks hx.nodup hx.path hx.lines (by rw [hx.orig]; exact h.addresses.zone _ (h.graph.lt u v e))
  refine ⟨t, ps, hvis, ?_⟩
  have ed := hvis.noted (by rw [fl]; decide) db (by rw [hc, hd, hx.id, hx.words.area]; exact d1)
  unfold Knows
  rw [hvis.cfg, hc, ed]
  exact d2

/-- The message comes to a system that knows it. -/
theorem next_time (h : EchoGraph n root nb m i a aka) {u v : Nat} (e : nb u v) {x : MemMsg} (hx : Coming n m u x) {s : HSt} (hc : s.cfg = (n.start v).cfg) (hk : Knows s (msgidOf m.text.flatten) m.area) :
    ∃ t, Handles n v [x] s t [] ∧ t.cfg = s.cfg ∧ t.log = s.log ∧ t.dupe = s.dupe := by
  have hv := h.lt e
  have hp := h.part v hv
  have fl := coming_flags hx
  obtain ⟨f, hf⟩ : ∃ f, n.fuel = f + 1 := ⟨n.fuel - 1, by have := h.depth; omega⟩
  obtain ⟨ls, hls⟩ := resolveLinks_some (n.start v).cfg (a v).tossNodes hp.known
  have hne : x.area ≠ [] := by
    rw [hx.words.area]
    intro h0
    obtain ⟨c, hc, _⟩ := h.posted.area.last
    rw [h0] at hc; simp at hc
  have hfind : (n.start v).cfg.findArea x.area = some (i v) := by
    rw [hx.words.area]
    cases hfa : (n.start v).cfg.findArea m.area with
    | none => exact absurd hp.area.2.1 (findArea_none _ _ hfa (a v) (List.mem_of_getElem? hp.area.1))
    | some j =>
      obtain ⟨b, hb⟩ := findArea_areaOf _ _ _ hfa
      rw [(areaOf_unique hb hp.area).1]
  obtain ⟨t, t1, t2, t3, t4⟩ := handle_dupe (n.env v) n.af f x s (aka := aka v) (a := a v) (i := i v) (ls := ls) hne (by rw [hc]; exact hfind) (by rw [hc]; exact hp.area.1) hp.confirmed hp.echo (by rw [hc]; exact hls)
    ((denied_none_iff _ _ _ _ hls).2 (coming_may h e hx)) (by rw [hc]; exact hp.own) (by rw [hc]; exact hp.kills.1) (by rw [fl]; decide) hp.kills.2 (by rw [hx.id, hx.words.area]; exact hk)
  refine ⟨t, ⟨?_, [], {}, by rw [t3, List.append_nil], rfl, rfl⟩, t2, t3, t4⟩
  rw [hf, handleAll, bind_of_ok t1]
  rfl

/-- The system has had the message or a packet is on its way to it. -/
def Told (n : Net) (vs : List Nat) (mail : List Pkt) (w : Nat) : Prop := w ∈ vs ∨ n.addr w ∈ mail.map (·.dest)

/-- A packet on its way. -/
def OnItsWay (n : Net) (nb : Nat → Nat → Prop) (m : MemMsg) (vs : List Nat) (mail : List Pkt) (p : Pkt) : Prop :=
  ∃ u w x, u ∈ vs ∧ nb u w ∧ p.dest = n.addr w ∧
    readPkt (pktCfgOf (n.start w).cfg (n.zone w)) (fun _ _ => true) (fun _ => false) n.junk p.data = .ok (some (.done, [x])) ∧ Coming n m u x ∧
    ((n.addr u).zone = (n.addr w).zone → ∀ y ∈ x.seenBy.flatten, ∃ z, z < n.size ∧ Told n vs mail z ∧ Named n w z y)

/-- What holds in every state of a run: `ks` are the systems that have the message in their databases. -/
structure GraphInv (n : Net) (root : Nat) (nb : Nat → Nat → Prop) (m : MemMsg) (i : Nat → Nat) (vs ks : List Nat) (s : NetSt) : Prop where
  rootIn : root ∈ vs
  lt : ∀ v ∈ vs, v < n.size
  nodup : ks.Nodup
  sub : ∀ v ∈ ks, v ∈ vs
  sup : ∀ v ∈ vs, v ≠ root → v ∈ ks
  cfg : ∀ v, (s.sys v).cfg = (n.start v).cfg
  rest : ∀ v, v ∉ vs → s.sys v = n.start v
  before : ∀ v, v ∉ ks → (s.sys v).dupe = (n.start v).dupe ∧ ∃ es, (s.sys v).log = (n.start v).log ++ es ∧ storedIn es = []
  after : ∀ v ∈ ks, Knows (s.sys v) (msgidOf m.text.flatten) m.area ∧ ∃ es x, (s.sys v).log = (n.start v).log ++ es ∧ storedIn es = [(i v, x)] ∧ SameWords m x ∧
    x.subject = if (n.start v).cfg.has CFG_STRIPRE then stripRe m.subject else m.subject
  mail : ∀ p ∈ s.mail, OnItsWay n nb m vs s.mail p
  cover : ∀ v ∈ vs, ∀ w, nb v w → Told n vs s.mail w
  count : vs.length + s.mail.length + (n.size - ks.length) * n.size ≤ 1 + n.size + n.size * n.size

theorem told_mono {vs vs' : List Nat} {l l' : List Pkt} {w : Nat} (h : Told n vs l w) (h1 : ∀ v ∈ vs, v ∈ vs') (h2 : ∀ p ∈ l, p ∈ l' ∨ ∃ v ∈ vs', p.dest = n.addr v) (hA : Addresses n) (hw : w < n.size)
    (hlt : ∀ v ∈ vs', v < n.size) : Told n vs' l' w := by
  rcases h with h | h
  · exact .inl (h1 w h)
  · obtain ⟨p, hp, e⟩ := List.mem_map.1 h
    rcases h2 p hp with hp | ⟨v, hv, e'⟩
    · exact .inr (List.mem_map.2 ⟨p, hp, e⟩)
    · refine .inl ?_
      rw [hA.distinct w v hw (hlt v hv) (by rw [← e', ← e])]
      exact hv

theorem onItsWay_mono {vs vs' : List Nat} {l l' : List Pkt} {p : Pkt} (h : OnItsWay n nb m vs l p) (h1 : ∀ v ∈ vs, v ∈ vs') (h2 : ∀ w, w < n.size → Told n vs l w → Told n vs' l' w) : OnItsWay n nb m vs' l' p := by
  obtain ⟨u, w, x, x1, x2, x3, x4, x5, x6⟩ := h
  refine ⟨u, w, x, h1 u x1, x2, x3, x4, x5, fun e y hy => ?_⟩
  obtain ⟨z, z1, z2, z3⟩ := x6 e y hy
  exact ⟨z, z1, h2 z z1 z2, z3⟩

theorem named_inj (hA : Addresses n) {v u w : Nat} {y : N2} (hu : u < n.size) (hw : w < n.size) (h1 : Named n v u y) (h2 : Named n v w y) : u = w := by
  obtain ⟨a1, a2, a3⟩ := h1
  obtain ⟨b1, b2, b3⟩ := h2
  refine hA.distinct u w hu hw ?_
  rw [a3] at b3
  simp only [Prod.mk.injEq] at b3
  cases hx : n.addr u
  cases hy : n.addr w
  rw [hx, hy] at b3
  rw [hx] at a1 a2
  rw [hy] at b1 b2
  dsimp only at *
  rw [b3.1, b3.2, a2, b2, a1, b1]

/-- The packets of a visit are on their way, and the neighbours have been told. -/
theorem visit_told (h : EchoGraph n root nb m i a aka) {x : MemMsg} {v : Nat} {s t : HSt} {ps : List Pkt} (hvis : Visit n nb m x v (i v) (a v) s t ps) {vs : List Nat} {l : List Pkt} (hv : v ∈ vs) (hvl : v < n.size)
    (hseen : x.pktOrig.zone = (n.addr v).zone → ∀ y ∈ x.seenBy.flatten, ∃ z, z < n.size ∧ Told n vs l z ∧ Named n v z y)
    (hcov : ∀ w, nb v w → Told n vs l w) : ∀ p ∈ ps, OnItsWay n nb m vs l p := by
  intro p hp
  obtain ⟨w, w1, w2, -, -, m', w3, w4, w5, -⟩ := hvis.sent p hp
  refine ⟨v, w, m', hv, w1, w2, w3, w4, fun e y hy => ?_⟩
  rcases w5 e y hy with ⟨c1, c2⟩ | ⟨u, c1, c2⟩
  · obtain ⟨z, z1, z2, z3, z4⟩ := hseen c1 y c2
    exact ⟨z, z1, z2, z3.trans e, z4⟩
  · rcases c1 with rfl | c1
    · exact ⟨u, hvl, .inl hv, c2.1.trans e, c2.2⟩
    · exact ⟨u, h.lt c1, hcov u c1, c2.1.trans e, c2.2⟩

theorem visit_cover (h : EchoGraph n root nb m i a aka) {x : MemMsg} {v : Nat} {s t : HSt} {ps : List Pkt} (hvis : Visit n nb m x v (i v) (a v) s t ps) {vs : List Nat} {l : List Pkt}
    (hst : ∀ k, ¬ Stale s.cfg s.seen (a v) k) (hps : ∀ p ∈ ps, p ∈ l) (horig : ∀ w, w < n.size → n.addr w = x.pktOrig → w ∈ vs)
    (hseen : x.pktOrig.zone = (n.addr v).zone → ∀ y ∈ x.seenBy.flatten, ∃ z, z < n.size ∧ Told n vs l z ∧ Named n v z y) : ∀ w, nb v w → Told n vs l w := by
  intro w hw
  rcases hvis.cover hst w hw with c | c | ⟨-, -, c1, c2, c3, c4⟩
  · obtain ⟨p, hp, e⟩ := List.mem_map.1 c
    exact .inr (List.mem_map.2 ⟨p, hps p hp, e⟩)
  · exact .inl (horig w (h.lt hw) c)
  · obtain ⟨z, z1, z2, z3⟩ := hseen c1.symm _ c4
    rw [named_inj h.addresses (h.lt hw) z1 ⟨c2, c3, rfl⟩ z3]
    exact z2

theorem visit_few (h : EchoGraph n root nb m i a aka) {x : MemMsg} {v : Nat} {s t : HSt} {ps : List Pkt} (hvis : Visit n nb m x v (i v) (a v) s t ps) : ps.length ≤ n.size := by
  have : ps.map (·.dest) ⊆ (List.range n.size).map n.addr := by
    intro y hy
    obtain ⟨p, hp, rfl⟩ := List.mem_map.1 hy
    obtain ⟨w, w1, w2, -⟩ := hvis.sent p hp
    rw [w2]
    exact List.mem_map_of_mem (List.mem_range.2 (h.lt w1))
  have := List.Nodup.length_le_of_subset hvis.nodup this
  simpa using this

theorem graph_inv (h : EchoGraph n root nb m i a aka) {vs : List Nat} {s : NetSt} (hr : NetRun n root m vs s) : ∃ ks, GraphInv n root nb m i vs ks s := by
  induction hr with
  | post t ps hh =>
    obtain ⟨t', ps', h1⟩ := posts h
    obtain ⟨rfl, rfl⟩ := handles_unique hh h1.runs
    have hp := h.posted
    have hlt : ∀ v ∈ [root], v < n.size := by
      intro v hv
      simp only [List.mem_singleton] at hv
      subst hv; exact h.graph.inside
    have hs0 : m.pktOrig.zone = (n.addr root).zone → ∀ y ∈ m.seenBy.flatten, ∃ z, z < n.size ∧ Told n [root] ps z ∧ Named n root z y := by
      intro _ y hy
      rw [hp.seenBy] at hy; cases hy
    have hcov := visit_cover h h1 (vs := [root]) (l := ps) (h.part root h.graph.inside).fresh (fun p hp => hp) (by
      intro w hw e
      rw [hp.orig] at e
      rw [h.addresses.distinct w root hw h.graph.inside e]
      simp) hs0
    refine ⟨[], ⟨by simp, hlt, by simp, by simp, ?_, ?_, ?_, ?_, by simp, ?_, ?_, ?_⟩⟩
    · intro v hv hvr
      simp only [List.mem_singleton] at hv
      exact absurd hv hvr
    · intro v
      dsimp only
      split
      · next e => subst e; exact h1.cfg
      · rfl
    · intro v hv
      simp only [List.mem_singleton] at hv
      simp [hv]
    · intro v _
      dsimp only
      split
      · next e =>
        subst e
        obtain ⟨es, l1, l2, -⟩ := h1.log
        exact ⟨h1.same hp.exported.2.1, es, l1, l2 hp.exported.1⟩
      · exact ⟨rfl, [], by simp, rfl⟩
    · exact visit_told h h1 (by simp) h.graph.inside hs0 hcov
    · intro v hv
      simp only [List.mem_singleton] at hv
      subst hv
      exact hcov
    · have := visit_few h h1
      simp only [List.length_singleton, List.length_nil, Nat.sub_zero]
      omega
  | toss vs s l1 l2 p v ms t ps before mail lt to read hh ih =>
    obtain ⟨ks, ih⟩ := ih
    obtain ⟨u, w, x, u1, u2, u3, u4, u5, u6⟩ := ih.mail p (by rw [mail]; simp)
    have hvw : v = w := h.addresses.distinct v w lt (h.lt u2) (by rw [← to, ← u3])
    subst hvw
    rw [ih.cfg v, u4] at read
    simp only [Except.ok.injEq, Option.some.injEq, Prod.mk.injEq, true_and] at read
    subst read
    have hsub : ∀ z ∈ vs, z ∈ vs ++ [v] := fun z hz => List.mem_append_left _ hz
    have hlt : ∀ z ∈ vs ++ [v], z < n.size := by
      intro z hz
      simp only [List.mem_append, List.mem_singleton] at hz
      rcases hz with hz | rfl
      · exact ih.lt z hz
      · exact lt
    have hmono : ∀ z, z < n.size → Told n vs s.mail z → Told n (vs ++ [v]) (l1 ++ l2 ++ ps) z := by
      intro z hz ht
      refine told_mono ht hsub (fun q hq => ?_) h.addresses hz hlt
      rw [mail] at hq
      simp only [List.mem_append, List.mem_cons] at hq
      rcases hq with hq | rfl | hq
      · exact .inl (by simp [hq])
      · exact .inr ⟨v, by simp, to⟩
      · exact .inl (by simp [hq])
    have hold : ∀ q ∈ l1 ++ l2, OnItsWay n nb m (vs ++ [v]) (l1 ++ l2 ++ ps) q := by
      intro q hq
      refine onItsWay_mono (ih.mail q ?_) hsub hmono
      rw [mail]
      simp only [List.mem_append, List.mem_cons] at hq ⊢
      rcases hq with hq | hq <;> simp [hq]
    have hlen : s.mail.length = (l1 ++ l2).length + 1 := by
      rw [mail]; simp; omega
    have hcnt := ih.count
    have hnp : ∀ q ∈ ps, q ∈ l1 ++ l2 ++ ps := fun q hq => List.mem_append_right _ hq
    by_cases hk : v ∈ ks
    · -- a duplicate
      obtain ⟨k1, es, y, k2, k3, k4⟩ := ih.after v hk
      obtain ⟨t', c1, c2, c3, c4⟩ := next_time h u2 u5 (ih.cfg v) k1
      obtain ⟨rfl, rfl⟩ := handles_unique hh c1
      have hvs := ih.sub v hk
      refine ⟨ks, ⟨by simp [ih.rootIn], hlt, ih.nodup, fun z hz => hsub z (ih.sub z hz), ?_, ?_, ?_, ?_, ?_, ?_, ?_, ?_⟩⟩
      · intro z hz hzr
        simp only [List.mem_append, List.mem_singleton] at hz
        rcases hz with hz | rfl
        · exact ih.sup z hz hzr
        · exact hk
      · intro z
        dsimp only
        split
        · next e => subst e; rw [c2]; exact ih.cfg z
        · exact ih.cfg z
      · intro z hz
        simp only [List.mem_append, List.mem_singleton, not_or] at hz
        simp only [hz.2, if_false]
        exact ih.rest z hz.1
      · intro z hz
        have : z ≠ v := fun e => hz (e ▸ hk)
        simp only [this, if_false]
        exact ih.before z hz
      · intro z hz
        dsimp only
        split
        · next e =>
          subst e
          refine ⟨?_, es, y, by rw [c3]; exact k2, k3, k4⟩
          unfold Knows
          rw [c2, c4]
          exact k1
        · exact ih.after z hz
      · intro q hq
        exact hold q (by simpa using hq)
      · intro z hz w hw
        simp only [List.mem_append, List.mem_singleton] at hz
        rcases hz with hz | rfl
        · exact hmono w (h.lt hw) (ih.cover z hz w hw)
        · exact hmono w (h.lt hw) (ih.cover z hvs w hw)
      · dsimp only
        rw [List.append_nil, List.length_append, List.length_singleton]
        omega
    · -- the message is new
      obtain ⟨b1, es0, b2, b3⟩ := ih.before v hk
      obtain ⟨t', ps', h1, h2⟩ := first_time h u2 u5 (ih.cfg v) b1
      obtain ⟨rfl, rfl⟩ := handles_unique hh h1.runs
      have hno : x.has MMFLAG_EXPORTED = false := by rw [coming_flags u5]; decide
      have hs0 : x.pktOrig.zone = (n.addr v).zone → ∀ y ∈ x.seenBy.flatten, ∃ z, z < n.size ∧ Told n (vs ++ [v]) (l1 ++ l2 ++ ps) z ∧ Named n v z y := by
        intro e y hy
        rw [u5.orig] at e
        obtain ⟨z, z1, z2, z3⟩ := u6 e y hy
        exact ⟨z, z1, hmono z z1 z2, z3⟩
      have hcov : ∀ w, nb v w → Told n (vs ++ [v]) (l1 ++ l2 ++ ps) w := by
        by_cases hvs : v ∈ vs
        · exact fun w hw => hmono w (h.lt hw) (ih.cover v hvs w hw)
        · refine visit_cover h h1 ?_ hnp ?_ hs0
          · rw [ih.rest v hvs]
            exact (h.part v lt).fresh
          · intro w hw e
            rw [u5.orig] at e
            rw [h.addresses.distinct w u hw (h.graph.lt u v u2) e]
            exact hsub u u1
      have hkl : (v :: ks).length ≤ n.size := by
        have : (v :: ks) ⊆ List.range n.size := by
          intro z hz
          rw [List.mem_range]
          rcases List.mem_cons.1 hz with rfl | hz
          · exact lt
          · exact ih.lt z (ih.sub z hz)
        have := List.Nodup.length_le_of_subset (List.nodup_cons.2 ⟨hk, ih.nodup⟩) this
        simpa using this
      refine ⟨v :: ks, ⟨by simp [ih.rootIn], hlt, List.nodup_cons.2 ⟨hk, ih.nodup⟩, ?_, ?_, ?_, ?_, ?_, ?_, ?_, ?_, ?_⟩⟩
      · intro z hz
        rcases List.mem_cons.1 hz with rfl | hz
        · simp
        · exact hsub z (ih.sub z hz)
      · intro z hz hzr
        simp only [List.mem_append, List.mem_singleton] at hz
        rcases hz with hz | rfl
        · exact List.mem_cons_of_mem _ (ih.sup z hz hzr)
        · simp
      · intro z
        dsimp only
        split
        · next e => subst e; rw [h1.cfg]; exact ih.cfg z
        · exact ih.cfg z
      · intro z hz
        simp only [List.mem_append, List.mem_singleton, not_or] at hz
        simp only [hz.2, if_false]
        exact ih.rest z hz.1
      · intro z hz
        rw [List.mem_cons, not_or] at hz
        simp only [hz.1, if_false]
        exact ih.before z hz.2
      · intro z hz
        dsimp only
        split
        · next e =>
          subst e
          obtain ⟨es, g1, -, g2⟩ := h1.log
          obtain ⟨y, y1, y2, y3⟩ := g2 hno
          refine ⟨h2, es0 ++ es, y, by rw [g1, b2, List.append_assoc], ?_, y2, y3⟩
          rw [show storedIn (es0 ++ es) = storedIn es0 ++ storedIn es from List.filterMap_append, b3, y1]
          rfl
        · next e => exact ih.after z ((List.mem_cons.1 hz).resolve_left e)
      · intro q hq
        rcases List.mem_append.1 hq with hq | hq
        · exact hold q hq
        · exact visit_told h h1 (by simp) lt hs0 hcov q hq
      · intro z hz w hw
        simp only [List.mem_append, List.mem_singleton] at hz
        rcases hz with hz | rfl
        · exact hmono w (h.lt hw) (ih.cover z hz w hw)
        · exact hcov w hw
      · have hf := visit_few h h1
        have e : (n.size - ks.length) * n.size = (n.size - (v :: ks).length) * n.size + n.size := by
          rw [← Nat.succ_mul]
          congr 1
          rw [List.length_cons] at hkl ⊢
          omega
        dsimp only
        rw [e] at hcnt
        simp only [List.length_append, List.length_singleton] at hlen ⊢
        omega

end

end CM
