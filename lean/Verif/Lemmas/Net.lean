import Verif.Lemmas.Rescan
import Verif.Spec.Net
import Verif.Props.PktList
/-! # An echomail in a network -/

set_option linter.unusedSimpArgs false

namespace CM

/-! ## One system -/

theorem add_nodup {bs : List (List N2)} (x : N2) (h : bs.flatten.Nodup) : (mmAddNodes2D bs x).flatten.Nodup := by
  rw [mmAddNodes2D_flatten]
  split
  · exact h
  · next hx =>
    rw [List.nodup_append]
    refine ⟨h, by simp, ?_⟩
    intro a ha b hb
    simp only [List.mem_singleton] at hb
    subst hb
    exact fun e => hx (e ▸ ha)

theorem addAll_nodup {α : Type} (f : α → N2) (xs : List α) {bs : List (List N2)} (h : bs.flatten.Nodup) : (xs.foldl (fun sb x => mmAddNodes2D sb (f x)) bs).flatten.Nodup := by
  induction xs generalizing bs with
  | nil => exact h
  | cons x xs ih => exact ih (add_nodup _ h)

theorem newSeenBy_nodup {aka : Aka} {ls : List Link} {bs : List (List N2)} (hr : aka.remList = []) (h : bs.flatten.Nodup) : (newSeenBy aka ls bs).flatten.Nodup := by
  unfold newSeenBy
  rw [hr]
  simp only [List.foldl_nil]
  have h1 := addAll_nodup (fun n : Node4D => (n.net, n.node)) aka.addList (addAll_nodup (fun l : Link => (l.node.node.net, l.node.node.node)) (ls.filter fun l => inZone aka.node l && l.active) h)
  split
  · exact add_nodup _ h1
  · exact h1

/-- Sending to all links, when every packet can be written. -/
theorem sendAll_runs (env : Env) (he : ∀ log k x, env.echoOk log k x = true) (aka : Node4D) : ∀ (ls : List Link) (m : MemMsg) (s : HSt), SortedSB m.seenBy → ∃ m' t, sendAll env aka m ls s = .ok m' t
  | [], m, s, _ => ⟨m, s, rfl⟩
  | l :: ls, m, s, hb => by
    rw [sendAll, get_bind]
    by_cases hw : wants s.cfg s.seen m l = true
    · rw [if_pos hw]
      obtain ⟨m1, t1, h1⟩ := (sendEcho_runs env aka m l s hb.1).1 (he _ _ _)
      obtain ⟨e1, e2⟩ := sendEcho_ok hb h1
      obtain ⟨m2, t2, h2⟩ := sendAll_runs env he aka ls m1 t1 (by rw [e1]; exact hb)
      exact ⟨m2, t2, bind_ok.2 ⟨m1, t1, h1, h2⟩⟩
    · rw [if_neg hw]
      exact sendAll_runs env he aka ls m s hb

theorem bind_of_ok {α β : Type} {x : M α} {f : α → M β} {s u : HSt} {a : α} (h : x s = .ok a u) : (x >>= f) s = f a u := by
  rw [bind_run, h]

/-- The message is not a duplicate. -/
def NotDupe (s : HSt) (a : Area) (m : MemMsg) : Prop :=
  s.cfg.dupeMode ≠ 0 → m.has MMFLAG_TOSSED = true → a.has AREA_IGNOREDUPES = false → ∃ db, checkDupe s.cfg.dupeSize s.dupe m.msgid m.area = .ok (db, false)

/-- A message that is neither refused nor a duplicate, without filters. -/
theorem handle_delivers (env : Env) (af : (MemMsg → M Unit) → MemMsg → M Unit) (n : Nat) (m : MemMsg) (s : HSt) {i : Nat} {a : Area} {aka : Aka} {ls : List Link} (ha : m.area ≠ [])
    (hf : s.cfg.findArea m.area = some i) (hi : s.cfg.areas[i]? = some a) (hu : a.has AREA_UNCONFIRMED = false) (hin : a.importNodes = []) (hr : resolveLinks s.cfg.nodes a.tossNodes = some ls)
    (hd : denied m ls = none) (hk : a.aka.bind (s.cfg.akas[·]?) = some aka) (hrem : aka.remList = []) (hb : Blocks m.seenBy) (hdup : NotDupe s a m) (hfl : s.cfg.filters = [])
    (h1 : m.has MMFLAG_KILL = false) (h2 : m.has MMFLAG_RESCANNED = false) (h3 : m.has MMFLAG_TWIT = false) (he : ∀ log k x, env.echoOk log k x = true) (him : ∀ log k x, env.importOk log k x = true) :
    ∃ sb pa t imp, handleMessage env af (n + 1) m s = .ok () t ∧ t.cfg = s.cfg ∧
      t.log = s.log ++ ((recipients s.cfg s.seen a aka.node m).map (copyFor aka.node { m with seenBy := sb, path := pa }) ++ imp) ∧ SortedSB sb ∧
      (m.seenBy.flatten.Nodup → sb.flatten.Nodup) ∧ (∀ y, y ≠ (0, 0) → (y ∈ sb.flatten ↔ SeenAfter s.cfg a aka m y)) ∧ (pa = m.path ∨ addNodePath m.path aka.node = some pa) ∧
      ((m.has MMFLAG_EXPORTED = true ∨ a.base = none) → imp = []) ∧
      (m.has MMFLAG_EXPORTED = false → a.base ≠ none → ∃ e, imp = [e] ∧ Stored s.cfg i { m with seenBy := sb, path := pa } e) ∧
      (m.has MMFLAG_TOSSED = false → t.dupe = s.dupe) ∧
      (s.cfg.dupeMode ≠ 0 → m.has MMFLAG_TOSSED = true → a.has AREA_IGNOREDUPES = false → ∀ db, checkDupe s.cfg.dupeSize s.dupe m.msgid m.area = .ok (db, false) → t.dupe = db) := by
  obtain ⟨p, hp⟩ := addNodePath_total m.path aka.node
  generalize hq : (if (aka.node.point = 0 || s.cfg.has CFG_PATH3D) = true then p else m.path) = q
  have hbz : (m.seenBy.flatten.Nodup → (zoneSeenBy aka.node m).flatten.Nodup) := by
    unfold zoneSeenBy
    split
    · exact fun _ => by simp
    · exact id
  have hbn := newSeenBy_blocks aka ls _ (zoneSeenBy_blocks aka.node m hb)
  obtain ⟨r, r1, r2, r3⟩ := mmSortNodes2D_sorts _ hbn
  have hs := sortedSB_of_sort hbn r1
  obtain ⟨s2, c1, c2, c3, c4, hrun⟩ : ∃ s2 : HSt, s2.cfg = s.cfg ∧ s2.log = s.log ∧ s2.seen = markSeen s.cfg a aka.node ls (zoneSeenBy aka.node m) s.seen ∧
      ((m.has MMFLAG_TOSSED = false → s2.dupe = s.dupe) ∧
        (s.cfg.dupeMode ≠ 0 → m.has MMFLAG_TOSSED = true → a.has AREA_IGNOREDUPES = false → ∀ db, checkDupe s.cfg.dupeSize s.dupe m.msgid m.area = .ok (db, false) → s2.dupe = db)) ∧
      handleMessage env af (n + 1) m s = deliverEcho env (handleMessage env af n) i a aka.node ls { m with type := PKTS_ECHOMAIL, seenBy := r, path := q } s2 := by
    have e1 : handleMessage env af (n + 1) m s = tossEcho env (handleMessage env af n) i a aka ls { m with type := PKTS_ECHOMAIL } s := by
      unfold handleMessage
      rw [if_neg ha]
      unfold handleEchomail
      dsimp only
      have e0 : findOrAddArea env { m with type := PKTS_ECHOMAIL } s = .ok i s := by
        unfold findOrAddArea
        rw [get_bind]
        dsimp only
        rw [hf]
        rfl
      rw [bind_of_ok e0, get_bind, hi]
      dsimp only
      rw [if_neg (by rw [hu]; simp), if_neg (by rw [hin]; simp), hr]
      dsimp only
      rw [show denied { m with type := PKTS_ECHOMAIL } ls = denied m ls from rfl, hd]
      dsimp only
      rw [hk]
    rw [e1]
    unfold tossEcho
    rw [get_bind]
    dsimp only
    rw [set_bind]
    have e2 : ∀ u : HSt, (if (decide (aka.node.point = 0) || s.cfg.has CFG_PATH3D) = true then M.liftO (.ok (addNodePath m.path aka.node)) else pure m.path : M (List (List Str))) u = .ok q u := by
      intro u
      rw [← hq]
      split
      · rw [hp]; rfl
      · rfl
    rw [bind_of_ok (e2 _)]
    have e3 : ∃ s2 : HSt, s2.cfg = s.cfg ∧ s2.log = s.log ∧ s2.seen = markSeen s.cfg a aka.node ls (zoneSeenBy aka.node m) s.seen ∧
      ((m.has MMFLAG_TOSSED = false → s2.dupe = s.dupe) ∧
        (s.cfg.dupeMode ≠ 0 → m.has MMFLAG_TOSSED = true → a.has AREA_IGNOREDUPES = false → ∀ db, checkDupe s.cfg.dupeSize s.dupe m.msgid m.area = .ok (db, false) → s2.dupe = db)) ∧
        dupeCheck a { m with type := PKTS_ECHOMAIL, seenBy := newSeenBy aka ls (zoneSeenBy aka.node m), path := q } { s with seen := markSeen s.cfg a aka.node ls (zoneSeenBy aka.node m) s.seen } = .ok false s2 := by
      unfold dupeCheck
      rw [get_bind]
      split
      · next hc =>
        simp only [Bool.and_eq_true, decide_eq_true_eq, Bool.not_eq_true'] at hc
        obtain ⟨db, hdb⟩ := hdup hc.1.1 hc.1.2 hc.2
        refine ⟨{ s with seen := markSeen s.cfg a aka.node ls (zoneSeenBy aka.node m) s.seen, dupe := db }, rfl, rfl, rfl, ⟨(fun h => absurd (hc.1.2.symm.trans h) (by simp)), (fun _ _ _ db' h => by
          rw [hdb] at h
          cases h
          rfl)⟩, ?_⟩
        rw [bind_of_ok (lift_ok.2 ⟨hdb, rfl⟩)]
        rfl
      · next hc =>
        refine ⟨{ s with seen := markSeen s.cfg a aka.node ls (zoneSeenBy aka.node m) s.seen }, rfl, rfl, rfl, ⟨fun _ => rfl, fun h1 h2 h3 => ?_⟩, rfl⟩
        exfalso
        apply hc
        have h2 : MemMsg.has { m with type := PKTS_ECHOMAIL, seenBy := newSeenBy aka ls (zoneSeenBy aka.node m), path := q } MMFLAG_TOSSED = true := h2
        rw [h2, h3, decide_eq_true h1]
        rfl
    obtain ⟨s2, c1, c2, c3, c4, e3⟩ := e3
    refine ⟨s2, c1, c2, c3, c4, ?_⟩
    rw [show zoneSeenBy aka.node { m with type := PKTS_ECHOMAIL } = zoneSeenBy aka.node m from rfl, bind_of_ok e3]
    rw [if_neg (by simp), bind_of_ok (lift_ok.2 ⟨r1, rfl⟩)]
  rw [hrun]
  unfold deliverEcho
  have e4 : filterMsg env (handleMessage env af n) { m with type := PKTS_ECHOMAIL, seenBy := r, path := q } s2 = .ok { m with type := PKTS_ECHOMAIL, seenBy := r, path := q } s2 := by
    unfold filterMsg
    rw [get_bind, c1, hfl]
    rfl
  obtain ⟨m3, t3, e5⟩ := sendAll_runs env he aka.node ls { m with type := PKTS_ECHOMAIL, seenBy := r, path := q } s2 hs
  obtain ⟨⟨ty, d, o, e6⟩, e7⟩ := sendAll_ok hs e5
  rw [bind_of_ok e4, if_neg (by rw [show MemMsg.has { m with type := PKTS_ECHOMAIL, seenBy := r, path := q } MMFLAG_KILL = m.has MMFLAG_KILL from rfl, h1]; simp)]
  rw [if_neg (by rw [show MemMsg.has { m with type := PKTS_ECHOMAIL, seenBy := r, path := q } MMFLAG_RESCANNED = m.has MMFLAG_RESCANNED from rfl, h2]; simp)]
  rw [bind_of_ok e5]
  have e8 : m3.has MMFLAG_TWIT = false := by rw [e6]; exact h3
  have e9 : m3.has MMFLAG_EXPORTED = m.has MMFLAG_EXPORTED := by rw [e6]; rfl
  rw [if_neg (by rw [e8]; simp), e9]
  have hrec := wants_recipients (m' := { m with type := PKTS_ECHOMAIL, seenBy := r, path := q }) (m := m) (aka := aka.node) (seen := s.seen) hr rfl rfl
  rw [if_neg (by rw [show MemMsg.has { m with type := PKTS_ECHOMAIL, seenBy := r, path := q } MMFLAG_RESCANNED = m.has MMFLAG_RESCANNED from rfl, h2]; simp)] at hrec
  have hlog : t3.log = s.log ++ (recipients s.cfg s.seen a aka.node m).map (copyFor aka.node { m with seenBy := r, path := q }) := by
    rw [e7, ← hrec, List.map_map, ← c2, ← c3, ← c1]
    rfl
  have hcfg : t3.cfg = s.cfg := by rw [e7]; exact c1
  have hdb : t3.dupe = s2.dupe := by rw [e7]
  have hsb : ∀ y, y ≠ (0, 0) → (y ∈ r.flatten ↔ SeenAfter s.cfg a aka m y) := by
    intro y hy
    rw [← newSeenBy_iff hr y hy]
    exact r3.1.mem_iff
  have hnd : m.seenBy.flatten.Nodup → r.flatten.Nodup := by
    intro h
    exact r3.1.nodup_iff.2 (newSeenBy_nodup (ls := ls) hrem (hbz h))
  have hpa : q = m.path ∨ addNodePath m.path aka.node = some q := by
    rw [← hq]
    split
    · exact .inr hp
    · exact .inl rfl
  cases hx : (!m.has MMFLAG_EXPORTED && a.base.isSome) with
  | false =>
    refine ⟨r, q, t3, [], rfl, hcfg, by rw [hlog, List.append_nil], hs, hnd, hsb, hpa, fun _ => rfl, fun x1 x2 => ?_, fun x => hdb.trans (c4.1 x), fun x1 x2 x3 db x => hdb.trans (c4.2 x1 x2 x3 db x)⟩
    rw [x1] at hx
    cases hb : a.base with
    | none => exact absurd hb x2
    | some v => rw [hb] at hx; simp at hx
  | true =>
    rw [if_pos rfl, get_bind]
    unfold importMsg
    rw [if_pos (him _ _ _)]
    simp only [Bool.and_eq_true, Bool.not_eq_true'] at hx
    refine ⟨r, q, _, [.importMsg i (markSent (stripSubject t3.cfg m3))], rfl, hcfg, by rw [hlog, List.append_assoc], hs, hnd, hsb, hpa, fun x => ?_, fun _ _ => ⟨_, rfl, ty, d, o, ?_⟩, fun x => hdb.trans (c4.1 x), fun x1 x2 x3 db x => hdb.trans (c4.2 x1 x2 x3 db x)⟩
    · rcases x with x | x
      · rw [hx.1] at x; cases x
      · rw [x] at hx; simp at hx
    · rw [e6, hcfg]
      unfold markSent stripSubject
      split <;> simp [*]

/-! ## PATH lines -/

theorem hopWord_lineOK (n : Node4D) (b : Bool) : 13 ∉ hopWord n b ∧ 10 ∉ hopWord n b ∧ NoNul (hopWord n b) ∧ ∃ c, (hopWord n b).getLast? = some c ∧ below33 c = false := by
  have hc := hopWord_chars n b
  have : ∀ c : UInt8, isDigit c = true ∨ c = 47 ∨ c = 46 → c ≠ 13 ∧ c ≠ 10 ∧ c ≠ 0 ∧ below33 c = false := by decide +kernel
  refine ⟨fun h => (this _ (hc _ h)).1 rfl, fun h => (this _ (hc _ h)).2.1 rfl, fun h => (this _ (hc _ h)).2.2.1 rfl, ?_⟩
  cases hl : (hopWord n b).getLast? with
  | none => exact absurd (List.getLast?_eq_none_iff.1 hl) (hopWord_ne_nil n b)
  | some c => exact ⟨c, rfl, (this _ (hc _ (List.mem_of_getLast? hl))).2.2.2⟩

theorem addNodePath_lines {ps r : List (List Str)} {n : Node4D} (hok : PathOK ps) (hl : ∀ l ∈ ps.flatten, PathLineOK l) (h : addNodePath ps n = some r) :
    PathOK r ∧ ∀ l ∈ r.flatten, PathLineOK l := by
  obtain ⟨h1, h2⟩ := addNodePath_shape ps n r hok h
  refine ⟨h1, ?_⟩
  have hlen : ∀ l ∈ r.flatten, l.length < 100 := by
    intro l hl
    obtain ⟨b, hb, hl⟩ := List.mem_flatten.1 hl
    exact (h1 b hb).2.2 l hl
  rcases h2 with rfl | ⟨b, init, l, e1, e2⟩ | e
  · exact hl
  · intro x hx
    have hlx := hlen x hx
    rw [e2] at hx
    rw [e1] at hl
    rcases List.mem_append.1 hx with hx | hx
    · exact hl x (List.mem_append_left _ hx)
    · simp only [List.mem_singleton] at hx
      obtain ⟨k1, k2, k3, k4, k5⟩ := hl l (by simp)
      obtain ⟨w1, w2, w3, w4, w5, w6⟩ := hopWord_lineOK n b
      subst hx
      refine ⟨by simp [k1, w1], by simp [k2, w2], ?_, hlx, w4, ?_, w6⟩
      · unfold NoNul at *
        simp [k3, w3]
      · rw [List.getLast?_append, w5]; rfl
  · intro x hx
    have hlx := hlen x hx
    rw [e] at hx
    rcases List.mem_append.1 hx with hx | hx
    · exact hl x hx
    · simp only [List.mem_singleton] at hx
      subst hx
      obtain ⟨w1, w2, w3, w4⟩ := hopWord_lineOK n true
      exact ⟨w1, w2, w3, hlx, w4⟩

/-! ## The packets of a run -/

/-- The SEEN-BY lines of a copy. -/
def copySB (aka : Node4D) (x : MemMsg) (nd : ConfigNode) : Str :=
  match echoSeenBy x nd aka with
  | .ok sb => sb
  | .error _ => []

/-- The packet of a copy, not yet closed. -/
def copyPkt (n : Net) (aka : Node4D) (x : MemMsg) (l : TossNode × ConfigNode) : Pkt :=
  ⟨l.2.node, aka, PKTS_ECHOMAIL, pktHeader aka l.2.node l.2.packetPW n.date ++ (toRaw { x with dest := l.2.node, orig := aka } (echoText x (copySB aka x l.2))).bytes⟩

theorem sentSeenBy_nodup (x : MemMsg) (node : ConfigNode) (aka : Node4D) (hnd : x.seenBy.flatten.Nodup) : (sentSeenBy x node aka).Nodup := by
  unfold sentSeenBy
  split
  · by_cases p1 : node.node.point = 0 <;> by_cases p2 : aka.point = 0
    all_goals simp only [p1, p2, if_true, if_false, List.cons_append, List.nil_append, List.eraseDups_cons, List.filter_cons, List.filter_nil]
    · split <;> simp [List.eraseDups_cons]
      rename_i hx
      intro x1 x2
      simp [x1, x2] at hx
    · simp [List.eraseDups_cons]
    · simp [List.eraseDups_cons]
    · simp
  · split
    · simp
    · exact hnd

theorem packCopies_runs (n : Net) (c : Config) (aka : Node4D) (hz : aka.zone ≠ 0) (x : MemMsg) (hb : Blocks x.seenBy) (imp : List Effect) (hi : ∀ e ∈ imp, ∃ i y, e = Effect.importMsg i y) :
    ∀ (rs : List (TossNode × ConfigNode)) (st : PktState), (∀ l ∈ rs, c.nodes[l.1.node]? = some l.2 ∧ l.2.has NODE_PKTFROM = false ∧ l.2.node.zone ≠ 0) →
      (rs.map fun l => l.2.node).Nodup → (∀ l ∈ rs, ∀ p ∈ st.opened, p.dest ≠ l.2.node ∧ p.dest.zone ≠ 0 ∧ p.orig.zone ≠ 0) →
      packCopies n c st (rs.map (copyFor aka x) ++ imp) = some { st with opened := st.opened ++ rs.map (copyPkt n aka x) }
  | [], st, _, _, _ => by
    have : ∀ (imp : List Effect) (st : PktState), (∀ e ∈ imp, ∃ i y, e = Effect.importMsg i y) → packCopies n c st imp = some st := by
      intro imp
      induction imp with
      | nil => intro st _; rfl
      | cons e imp ih =>
        intro st hi
        obtain ⟨i, y, rfl⟩ := hi e (by simp)
        exact ih st (fun e he => hi e (by simp [he]))
    simpa using this imp st hi
  | l :: rs, st, h1, h2, h3 => by
    obtain ⟨a1, a2, a3⟩ := h1 l (by simp)
    rw [List.map_cons, List.cons_append]
    unfold copyFor
    rw [packCopies, a1]
    dsimp only
    obtain ⟨sb, e1⟩ : ∃ sb, echoSeenBy x l.2 aka = .ok sb := by
      obtain ⟨bs, e1, _⟩ := echoSeenBy_spec x l.2 aka hb
      obtain ⟨G, e2, _⟩ := mmMakeSeenByBuf_lines bs
      exact ⟨_, e1.trans e2⟩
    have ho : fromAddr (some l.2) aka = aka := by simp [fromAddr, a2]
    have hs : copySB aka x l.2 = sb := by unfold copySB; rw [e1]
    rw [writeEchoMail_op _ _ _ _ _ _ sb (by exact e1), ho]
    dsimp only
    have hnone : st.opened.find? (Pkt.isFor l.2.node aka PKTS_ECHOMAIL) = none := by
      rw [List.find?_eq_none]
      intro p hp hq
      obtain ⟨b1, b2, b3⟩ := h3 l (by simp) p hp
      have := (isFor_iff ⟨l.2.node, aka, PKTS_ECHOMAIL, [], n.date, toRaw x []⟩ p ⟨a3, hz⟩ ⟨b2, b3⟩).1 hq
      simp only [Pkt.key, WOp.key, Prod.mk.injEq] at this
      exact b1 this.1
    have hw : writeOp n.maxSize st ⟨l.2.node, aka, PKTS_ECHOMAIL, createPassword (some l.2) PKTS_ECHOMAIL, n.date, toRaw { x with type := PKTS_ECHOMAIL, dest := l.2.node, orig := aka } (echoText x sb)⟩ =
        { st with opened := st.opened ++ [copyPkt n aka x l] } := by
      unfold writeOp writeMsg
      dsimp only
      rw [hnone]
      dsimp only
      rw [show createPassword (some l.2) PKTS_ECHOMAIL = l.2.packetPW by simp [createPassword]]
      unfold copyPkt
      rw [hs]
      rfl
    rw [show (toRaw { x with type := PKTS_ECHOMAIL, dest := l.2.node, orig := aka } (echoText { x with type := PKTS_ECHOMAIL, dest := l.2.node, orig := if l.2.has NODE_PKTFROM then l.2.pktFrom else aka } sb)) =
      toRaw { x with type := PKTS_ECHOMAIL, dest := l.2.node, orig := aka } (echoText x sb) from rfl, hw]
    rw [List.map_cons, List.nodup_cons] at h2
    have hrec := packCopies_runs n c aka hz x hb imp hi rs { st with opened := st.opened ++ [copyPkt n aka x l] } (fun l' hl' => h1 l' (by simp [hl'])) h2.2 (by
      intro l' hl' p hp
      simp only [List.mem_append, List.mem_singleton] at hp
      rcases hp with hp | rfl
      · exact h3 l' (by simp [hl']) p hp
      · refine ⟨fun e => h2.1 (List.mem_map.2 ⟨l', hl', e.symm⟩), a3, hz⟩)
    unfold copyFor at hrec
    rw [hrec]
    simp

/-- A copy sent to a neighbour arrives there. -/
theorem copy_arrives (n : Net) (aka : Node4D) (x : MemMsg) (l : TossNode × ConfigNode) (c : Config) (dz : UInt16) (hz : aka.zone ≠ 0 ∧ l.2.node.zone ≠ 0) (hn : aka.point = 0 ∨ aka.net ≠ 0xffff)
    (hj : n.junk.length = 14) (hpw : NoNul l.2.packetPW ∧ l.2.packetPW.length ≤ 8) (hexp : ∀ nd, findNode c.nodes aka = some nd → nd.packetPW = [] ∨ l.2.packetPW.map lower = nd.packetPW.map lower)
    (hto : ∃ a ∈ c.akas, a.node = l.2.node) (hx : Packable x) (ha : AreaName x.area) (he : EndsCR x.text.flatten) (hnn : NoNul x.text.flatten)
    (hs : ∀ l ∈ pieces x.text.flatten, SafeEcho l ∧ ¬ b!"SEEN-BY:" <+: l ∧ ¬ (1 :: b!"PATH:") <+: l ∧ ¬ (1 :: b!"RESCANNED") <+: l)
    (hb : Blocks x.seenBy) (hnd : x.seenBy.flatten.Nodup) (hp : ∀ l ∈ x.path.flatten, PathLineOK l) :
    ∃ m', readPkt (pktCfgOf c dz) (fun _ _ => true) (fun _ => false) n.junk (copyPkt n aka x l).finish.data = .ok (some (.done, [m'])) ∧
      m'.area = x.area ∧ m'.text.flatten = x.text.flatten ∧ m'.to = x.to ∧ m'.frm = x.frm ∧
      m'.subject = x.subject ∧ m'.date = x.date ∧ m'.pktOrig = aka ∧ m'.path.flatten = x.path.flatten ∧ PathOK m'.path ∧
      m'.seenBy.flatten.Perm ((sentSeenBy x l.2 aka).filter (· ≠ (0, 0))) ∧ m'.seenBy.flatten.Nodup ∧ Blocks m'.seenBy ∧ m'.msgid = msgidOf x.text.flatten ∧ m'.flags = 4 := by
  obtain ⟨sb, e1, e2, m', e3, r1, r2, r3, r4, r5, r6, r7, r8, r9, r10, r11, r12, r13, r14, r15, r16, r17⟩ :=
    echomail_roundtrip (pktCfgOf c dz) aka l.2.node { x with dest := l.2.node, orig := aka } l.2 aka ⟨hx.date, hx.to, hx.frm, hx.subject⟩ ha he hnn (fun l hl => ⟨(hs l hl).1, (hs l hl).2.1, (hs l hl).2.2.1⟩) hb hnd hp
  have hsb : copySB aka x l.2 = sb := by
    unfold copySB
    rw [show echoSeenBy x l.2 aka = .ok sb from e1]
  refine ⟨m', ?_, r1, r2, r3, r4, r5, r6, r9, r11, r15, r12, ?_, r14, r16, ?_⟩
  · have hh : PktHolds ((copyPkt n aka x l).finish, [⟨l.2.node, aka, PKTS_ECHOMAIL, l.2.packetPW, n.date, toRaw { x with dest := l.2.node, orig := aka } (echoText x sb)⟩]) [0, 0] := by
      refine ⟨by simp, ⟨⟨l.2.node, aka, PKTS_ECHOMAIL, l.2.packetPW, n.date, toRaw { x with dest := l.2.node, orig := aka } (echoText x sb)⟩, List.mem_singleton_self _, ?_⟩, ?_, hz.2, hz.1⟩
      · simp [copyPkt, Pkt.finish, hsb]
      · intro o ho
        simp only [List.mem_singleton] at ho
        subst ho; rfl
    refine packet_read (pktCfgOf c dz) n.junk _ hh hj ?_ hn ?_ ?_ [m'] ?_
    · intro o ho
      simp only [List.mem_singleton] at ho
      subst ho
      exact toRaw_ok _ _ ⟨hx.date, hx.to, hx.frm, hx.subject⟩ e2
    · intro _ _
      obtain ⟨a, h1, h2⟩ := hto
      refine ⟨a, h1, ?_⟩
      show compare4D a.node l.2.node = 0
      rw [h2]; exact (compare4D_eq_zero_iff _ _).2 ⟨rfl, rfl, rfl, .inl rfl⟩
    · intro o ho
      simp only [List.mem_singleton] at ho
      subst ho
      exact ⟨hpw.1, hpw.2, .inr hexp⟩
    · simp only [List.map_cons, List.map_nil]
      rw [← e3]
      rfl
  · refine r12.nodup_iff.2 (List.Pairwise.filter _ (sentSeenBy_nodup _ _ _ hnd))
  · rw [r17 (fun l hl => (hs l hl).2.2.2)]; simp [pktCfgOf]

/-! ## A message at a system -/

/-- A message that has come to system `v` from its parent. -/
structure Arriving (n : Net) (parent depth : Nat → Nat) (m0 : MemMsg) (v : Nat) (m : MemMsg) : Prop where
  orig : m.pktOrig = n.addr (parent v)
  words : SameWords m0 m
  subject : m.subject = m0.subject
  id : m.msgid = msgidOf m0.text.flatten
  flags : m.flags = 4
  blocks : Blocks m.seenBy
  nodup : m.seenBy.flatten.Nodup
  path : PathOK m.path
  lines : ∀ l ∈ m.path.flatten, PathLineOK l
  seen : (n.addr (parent v)).zone = (n.addr v).zone → ∀ y ∈ m.seenBy.flatten, ∃ u, u < n.size ∧ depth u ≤ depth v ∧ (n.addr u).zone = (n.addr v).zone ∧ (n.addr u).point = 0 ∧ y = ((n.addr u).net, (n.addr u).node)

/-- What a system has done with the message. -/
structure DoneAt (n : Net) (root : Nat) (parent : Nat → Nat) (m0 : MemMsg) (v i : Nat) (t : HSt) : Prop where
  log : ∃ es, t.log = (n.start v).log ++ es ∧ (copiesTo es).Nodup ∧ (∀ x, x ∈ copiesTo es ↔ ∃ w, w < n.size ∧ w ≠ root ∧ parent w = v ∧ x = n.addr w) ∧
    (v = root → storedIn es = []) ∧ (v ≠ root → ∃ x, storedIn es = [(i, x)] ∧ SameWords m0 x ∧ x.subject = if (n.start v).cfg.has CFG_STRIPRE then stripRe m0.subject else m0.subject)

theorem resolveLinks_some (cfg : Config) : ∀ ts : List TossNode, (∀ t ∈ ts, ∃ nd, cfg.nodes[t.node]? = some nd) → ∃ ls, resolveLinks cfg.nodes ts = some ls
  | [], _ => ⟨[], rfl⟩
  | t :: ts, h => by
    obtain ⟨nd, h1⟩ := h t (by simp)
    obtain ⟨ls, h2⟩ := resolveLinks_some cfg ts (fun t ht => h t (by simp [ht]))
    unfold resolveLinks
    rw [h1, h2]
    exact ⟨_, rfl⟩

theorem hop (n : Net) (root : Nat) (parent depth : Nat → Nat) (m0 m : MemMsg) (v i : Nat) (a : Area) (aka : Aka) (hT : Tree n.size root parent depth) (hA : Addresses n) (hP : PasswordsAgree n root parent)
    (hj : n.junk.length = 14) (hfu : 0 < n.fuel) (hm0 : Posted n root m0) (hv : v < n.size) (h : TakesPart n root parent m0.area (msgidOf m0.text.flatten) v i a aka)
    (own : ∀ c, c < n.size → ∃ b ∈ (n.start c).cfg.akas, b.node = n.addr c)
    (hw : SameWords m0 m) (hsub : m.subject = m0.subject) (hk : m.has MMFLAG_KILL = false) (hr : m.has MMFLAG_RESCANNED = false) (ht : m.has MMFLAG_TWIT = false)
    (hpost : MayPost (n.start v).cfg a m) (hdup : NotDupe (n.start v) a m) (hb : Blocks m.seenBy) (hnd : m.seenBy.flatten.Nodup) (hpo : PathOK m.path) (hpl : ∀ l ∈ m.path.flatten, PathLineOK l)
    (hexp : m.has MMFLAG_EXPORTED = true ↔ v = root) (hfrom : m.pktOrig = if v = root then n.addr root else n.addr (parent v))
    (hseen : m.pktOrig.zone = (n.addr v).zone → ∀ y ∈ m.seenBy.flatten, ∃ u, u < n.size ∧ depth u ≤ depth v ∧ (n.addr u).zone = (n.addr v).zone ∧ (n.addr u).point = 0 ∧ y = ((n.addr u).net, (n.addr u).node)) :
    ∃ t ps, Handles n v [m] (n.start v) t ps ∧ DoneAt n root parent m0 v i t ∧ (ps.map (·.dest)).Nodup ∧
      (∀ x, x ∈ ps.map (·.dest) ↔ ∃ w, w < n.size ∧ w ≠ root ∧ parent w = v ∧ x = n.addr w) ∧
      ∀ p ∈ ps, ∀ w, w < n.size → w ≠ root → parent w = v → p.dest = n.addr w →
        ∃ m', readPkt (pktCfgOf (n.start w).cfg (n.zone w)) (fun _ _ => true) (fun _ => false) n.junk p.data = .ok (some (.done, [m'])) ∧ Arriving n parent depth m0 w m' := by
  obtain ⟨f, hf⟩ : ∃ f, n.fuel = f + 1 := ⟨n.fuel - 1, by omega⟩
  obtain ⟨ls, hls⟩ := resolveLinks_some (n.start v).cfg a.tossNodes h.known
  have hlk := resolveLinks_links _ _ _ hls
  have child : ∀ w, w < n.size → w ≠ root → parent w = v → Neighbour n.size root parent v w ∧ depth w = depth v + 1 := by
    intro w h1 h2 h3
    exact ⟨⟨hv, h1, .inr ⟨h2, h3.symm⟩⟩, by rw [← h3]; exact (hT.up w h1 h2).2⟩
  -- who gets a copy
  have hR : ∀ l, l ∈ recipients (n.start v).cfg (n.start v).seen a aka.node m ↔ l ∈ links (n.start v).cfg a ∧ ∃ w, w < n.size ∧ w ≠ root ∧ parent w = v ∧ l.2.node = n.addr w := by
    intro l
    unfold recipients
    rw [if_neg (by rw [hr]; simp), List.mem_filter, decide_eq_true_eq]
    refine and_congr_right fun hl => ?_
    constructor
    · rintro ⟨⟨d1, -⟩, -⟩
      obtain ⟨w, ⟨w1, w2, w3⟩, w4⟩ := (h.neighbours l.2.node).1 (List.mem_map_of_mem (f := fun l : TossNode × ConfigNode => l.2.node) hl)
      rcases w3 with ⟨w3, w5⟩ | ⟨w3, w5⟩
      · exfalso
        apply d1
        rw [hfrom, if_neg w3, w4, w5]
        exact ⟨rfl, rfl, rfl, .inl rfl⟩
      · exact ⟨w, w2, w3, w5.symm, w4⟩
    · rintro ⟨w, w1, w2, w3, w4⟩
      obtain ⟨-, hd⟩ := child w w1 w2 w3
      obtain ⟨p1, p2, p3, p4, p5⟩ := h.plain l hl
      refine ⟨⟨?_, p1, p4, ?_⟩, h.fresh _⟩
      · rw [← same_iff, hfrom, w4]
        split
        · rw [compare4D_eq_zero_iff_eq _ _ (hA.zone _ hT.inside) (hA.zone _ w1)]
          exact fun e => w2 (hA.distinct _ _ hT.inside w1 e).symm
        · next hvr =>
          obtain ⟨u1, u2⟩ := hT.up v hv hvr
          rw [compare4D_eq_zero_iff_eq _ _ (hA.zone _ u1) (hA.zone _ w1)]
          intro e
          have := hA.distinct _ _ u1 w1 e
          rw [this] at u2
          omega
      · rintro ⟨-, -, z1, z2, z3, z4⟩
        rw [h.addr] at z1 z2
        obtain ⟨u, u1, u2, u3, u4, u5⟩ := hseen z1.symm _ z4
        rw [w4] at z2 z3 u5
        have : n.addr w = n.addr u := by
          simp only [Prod.mk.injEq] at u5
          cases hx : n.addr w
          cases hy : n.addr u
          rw [hx, hy] at u5
          rw [hx] at z2 z3
          rw [hy] at u3 u4
          dsimp only at *
          rw [u5.1, u5.2, z3, u4, z2, u3]
        have := hA.distinct _ _ w1 u1 this
        subst this
        omega
  have hRn : ((recipients (n.start v).cfg (n.start v).seen a aka.node m).map fun l => l.2.node).Nodup := by
    refine List.Nodup.sublist (List.Sublist.map _ ?_) h.once
    unfold recipients
    split
    · exact List.nil_sublist _
    · exact List.filter_sublist
  have hRm : ∀ x, (x ∈ (recipients (n.start v).cfg (n.start v).seen a aka.node m).map fun l => l.2.node) ↔ ∃ w, w < n.size ∧ w ≠ root ∧ parent w = v ∧ x = n.addr w := by
    intro x
    constructor
    · intro hx
      obtain ⟨l, hl, rfl⟩ := List.mem_map.1 hx
      exact ((hR l).1 hl).2
    · rintro ⟨w, w1, w2, w3, rfl⟩
      obtain ⟨l, hl, e⟩ := List.mem_map.1 ((h.neighbours (n.addr w)).2 ⟨w, (child w w1 w2 w3).1, rfl⟩)
      exact List.mem_map.2 ⟨l, (hR l).2 ⟨hl, w, w1, w2, w3, e⟩, e⟩
  have hne : m.area ≠ [] := by
    rw [hw.area]
    intro h0
    obtain ⟨c, hc, _⟩ := hm0.area.last
    rw [h0] at hc; simp at hc
  have hfind : (n.start v).cfg.findArea m.area = some i := by
    rw [hw.area]
    cases hfa : (n.start v).cfg.findArea m0.area with
    | none => exact absurd h.area.2.1 (findArea_none _ _ hfa a (List.mem_of_getElem? h.area.1))
    | some j =>
      obtain ⟨b, hb⟩ := findArea_areaOf _ _ _ hfa
      rw [(areaOf_unique hb h.area).1]
  obtain ⟨sb, pa, t, imp, e1, e2, e3, e4, e5, e6, e7, e8, e9, -⟩ := handle_delivers (n.env v) n.af f m (n.start v) hne hfind h.area.1 h.confirmed h.echo hls ((denied_none_iff _ _ _ _ hls).2 hpost)
    h.own h.lists.2 hb hdup h.filters hk hr ht h.works.1 h.works.2
  have himp : ∀ e ∈ imp, ∃ i y, e = Effect.importMsg i y := by
    intro e he
    by_cases hx : m.has MMFLAG_EXPORTED = true
    · rw [e8 (.inl hx)] at he; cases he
    · obtain ⟨y, rfl, ty, d, o, rfl⟩ := e9 (by simpa using hx) h.stores
      simp only [List.mem_singleton] at he
      subst he
      exact ⟨_, _, rfl⟩
  have hpa : PathOK pa ∧ ∀ l ∈ pa.flatten, PathLineOK l := by
    rcases e7 with rfl | e7
    · exact ⟨hpo, hpl⟩
    · exact addNodePath_lines hpo hpl e7
  have hzv : aka.node.zone ≠ 0 := by rw [h.addr]; exact hA.zone v hv
  have hnode : ∀ l ∈ links (n.start v).cfg a, (n.start v).cfg.nodes[l.1.node]? = some l.2 := by
    intro l hl
    rw [hlk.1] at hl
    obtain ⟨l', hl', rfl⟩ := List.mem_map.1 hl
    exact (hlk.2 l' hl').2
  have hpack := packCopies_runs n t.cfg aka.node hzv { m with seenBy := sb, path := pa } e4.1 imp himp (recipients (n.start v).cfg (n.start v).seen a aka.node m) {} (by
      intro l hl
      obtain ⟨hl, w, w1, w2, w3, w4⟩ := (hR l).1 hl
      rw [e2]
      exact ⟨hnode l hl, (h.plain l hl).2.1, by rw [w4]; exact hA.zone w w1⟩) hRn (by intro l _ p hp; cases hp)
  have hcop : copiesTo ((recipients (n.start v).cfg (n.start v).seen a aka.node m).map (copyFor aka.node { m with seenBy := sb, path := pa }) ++ imp) =
      (recipients (n.start v).cfg (n.start v).seen a aka.node m).map fun l => l.2.node := by
    have hci : copiesTo imp = [] := by
      refine List.filterMap_eq_nil_iff.2 ?_
      intro e he
      obtain ⟨j, y, rfl⟩ := himp e he
      rfl
    rw [show ∀ x y, copiesTo (x ++ y) = copiesTo x ++ copiesTo y from fun x y => List.filterMap_append, hci, List.append_nil]
    unfold copiesTo
    rw [List.filterMap_map, ← List.filterMap_eq_map]
    rfl
  have hsto : storedIn ((recipients (n.start v).cfg (n.start v).seen a aka.node m).map (copyFor aka.node { m with seenBy := sb, path := pa }) ++ imp) = storedIn imp := by
    unfold storedIn
    rw [List.filterMap_append, List.filterMap_map, List.filterMap_eq_nil_iff.2 (by intro e he; rfl), List.nil_append]
  have hfin : (closePackets { ({} : PktState) with opened := ({} : PktState).opened ++ (recipients (n.start v).cfg (n.start v).seen a aka.node m).map (copyPkt n aka.node { m with seenBy := sb, path := pa }) }).finished =
      (recipients (n.start v).cfg (n.start v).seen a aka.node m).map (fun l => (copyPkt n aka.node { m with seenBy := sb, path := pa } l).finish) := by
    simp [closePackets]
  have hdst : ((closePackets { ({} : PktState) with opened := ({} : PktState).opened ++ (recipients (n.start v).cfg (n.start v).seen a aka.node m).map (copyPkt n aka.node { m with seenBy := sb, path := pa }) }).finished.map (·.dest)) =
      (recipients (n.start v).cfg (n.start v).seen a aka.node m).map (fun l => l.2.node) := by
    rw [hfin, List.map_map]
    rfl
  refine ⟨t, _, ⟨?_, _, _, e3, hpack, rfl⟩, ⟨_, e3, ?_, ?_, ?_, ?_⟩, ?_, ?_, ?_⟩
  · rw [hf, handleAll, bind_of_ok e1]
    rfl
  · rw [hcop]; exact hRn
  · rw [hcop]; exact hRm
  · intro hvr
    rw [hsto, e8 (.inl (hexp.2 hvr))]
    rfl
  · intro hvr
    have hx : m.has MMFLAG_EXPORTED = false := by
      rw [Bool.eq_false_iff]; exact fun hx => hvr (hexp.1 hx)
    obtain ⟨y, rfl, ty, d, o, rfl⟩ := e9 hx h.stores
    rw [hsto]
    refine ⟨_, rfl, ⟨hw.area, hw.text, hw.to, hw.frm, hw.date⟩, ?_⟩
    show (if (n.start v).cfg.has CFG_STRIPRE then stripRe m.subject else m.subject) = _
    rw [hsub]
  · rw [hdst]; exact hRn
  · rw [hdst]; exact hRm
  · intro p hp w w1 w2 w3 hpd
    rw [hfin] at hp
    obtain ⟨l, hl, rfl⟩ := List.mem_map.1 hp
    have hlw : l.2.node = n.addr w := hpd
    obtain ⟨hl1, -⟩ := (hR l).1 hl
    obtain ⟨q1, q2, q3, q4, q5, q6⟩ := h.plain l hl1
    obtain ⟨hnb, hdep⟩ := child w w1 w2 w3
    obtain ⟨m', r0, r1, r2, r3, r4, r5, r6, r7, r8, r9, r10, r11, r12, r13, r14⟩ := copy_arrives n aka.node { m with seenBy := sb, path := pa } l (n.start w).cfg (n.zone w) ⟨hzv, by rw [hlw]; exact hA.zone w w1⟩
      (by rw [h.addr]; exact hA.net v hv) hj ⟨q5, q6⟩ (by
        intro nd hnd
        rw [h.addr] at hnd
        exact hP v w hnb l.2 (List.mem_of_getElem? (hnode l hl1)) hlw nd hnd) (by rw [hlw]; exact own w w1)
      ⟨by rw [show ({ m with seenBy := sb, path := pa } : MemMsg).date = m0.date from hw.date]; exact hm0.strings.date, by rw [show ({ m with seenBy := sb, path := pa } : MemMsg).to = m0.to from hw.to]; exact hm0.strings.to,
        by rw [show ({ m with seenBy := sb, path := pa } : MemMsg).frm = m0.frm from hw.frm]; exact hm0.strings.frm, by rw [show ({ m with seenBy := sb, path := pa } : MemMsg).subject = m0.subject from hsub]; exact hm0.strings.subject⟩
      (by rw [show ({ m with seenBy := sb, path := pa } : MemMsg).area = m0.area from hw.area]; exact hm0.area)
      (by rw [show ({ m with seenBy := sb, path := pa } : MemMsg).text.flatten = m0.text.flatten from hw.text]; exact hm0.ends)
      (by rw [show ({ m with seenBy := sb, path := pa } : MemMsg).text.flatten = m0.text.flatten from hw.text]; exact hm0.noNul)
      (by rw [show ({ m with seenBy := sb, path := pa } : MemMsg).text.flatten = m0.text.flatten from hw.text]; exact hm0.lines)
      e4.1 (e5 hnd) hpa.2
    refine ⟨m', r0, ⟨?_, ⟨r1.trans hw.area, r2.trans hw.text, r3.trans hw.to, r4.trans hw.frm, r6.trans hw.date⟩, r5.trans hsub, ?_, r14, r12, r11, r9, ?_, ?_⟩⟩
    · rw [r7, h.addr, w3]
    · rw [r13]; exact congrArg msgidOf hw.text
    · rw [r8]; exact hpa.2
    · rw [w3]
      intro hz y hy
      have hy := r10.mem_iff.1 hy
      rw [List.mem_filter] at hy
      obtain ⟨hy, hy0⟩ := hy
      have hy0 : y ≠ (0, 0) := by simpa using hy0
      have selfv : (n.addr v).point = 0 → ∃ u, u < n.size ∧ depth u ≤ depth w ∧ (n.addr u).zone = (n.addr w).zone ∧ (n.addr u).point = 0 ∧ ((n.addr v).net, (n.addr v).node) = ((n.addr u).net, (n.addr u).node) :=
        fun h0 => ⟨v, hv, by omega, hz, h0, rfl⟩
      unfold sentSeenBy at hy
      split at hy
      · rw [List.mem_eraseDups, List.mem_append] at hy
        rw [hlw, h.addr] at hy
        rcases hy with hy | hy
        · split at hy
          · next h0 =>
            simp only [List.mem_singleton] at hy
            exact ⟨w, w1, Nat.le_refl _, rfl, h0, hy⟩
          · cases hy
        · split at hy
          · next h0 =>
            simp only [List.mem_singleton] at hy
            rw [hy]
            exact selfv h0
          · cases hy
      · split at hy
        · cases hy
        · rcases (e6 y hy0).1 hy with ⟨(⟨s1, s2⟩ | ⟨l', s1, s2, s3, -, -, s4⟩), -⟩ | ⟨x, hx, -⟩ | ⟨s1, s2⟩
          · rw [h.addr] at s1
            obtain ⟨u, u1, u2, u3, u4, u5⟩ := hseen s1.symm y s2
            exact ⟨u, u1, by omega, u3.trans hz, u4, u5⟩
          · obtain ⟨u, ⟨-, u1, u2⟩, u3⟩ := (h.neighbours l'.2.node).1 (List.mem_map_of_mem (f := fun l : TossNode × ConfigNode => l.2.node) s1)
            rw [u3] at s2 s3 s4
            rw [h.addr] at s2
            refine ⟨u, u1, ?_, s2.trans hz, s3, s4⟩
            rcases u2 with ⟨u2, rfl⟩ | ⟨u2, u4⟩
            · have := (hT.up v hv u2).2
              omega
            · have := (child u u1 u2 u4.symm).2
              omega
          · rw [h.lists.1] at hx; cases hx
          · rw [h.addr] at s1 s2
            rw [s2]
            exact selfv s1

/-! ## The network -/

theorem handles_unique {n : Net} {v : Nat} {ms : List MemMsg} {s t t' : HSt} {ps ps' : List Pkt} (h : Handles n v ms s t ps) (h' : Handles n v ms s t' ps') : t = t' ∧ ps = ps' := by
  obtain ⟨h1, es, st, h2, h3, h4⟩ := h
  obtain ⟨h1', es', st', h2', h3', h4'⟩ := h'
  rw [h1] at h1'
  cases h1'
  rw [h2] at h2'
  have := List.append_cancel_left h2'
  subst this
  rw [h3] at h3'
  cases h3'
  exact ⟨rfl, h4.trans h4'.symm⟩

section
variable {n : Net} {root : Nat} {parent depth : Nat → Nat} {m : MemMsg} {i : Nat → Nat} {a : Nat → Area} {aka : Nat → Aka}

theorem EchoNet.own (h : EchoNet n root parent depth m i a aka) : ∀ c, c < n.size → ∃ b ∈ (n.start c).cfg.akas, b.node = n.addr c := by
  intro c hc
  have hp := h.part c hc
  refine ⟨aka c, ?_, hp.addr⟩
  have := hp.own
  cases ho : (a c).aka with
  | none => rw [ho] at this; cases this
  | some k =>
    rw [ho] at this
    exact List.mem_of_getElem? this

/-- The message at the system where it is posted. -/
theorem post_runs (h : EchoNet n root parent depth m i a aka) : ∃ t ps, Handles n root [m] (n.start root) t ps ∧ DoneAt n root parent m root (i root) t ∧ (ps.map (·.dest)).Nodup ∧
      (∀ x, x ∈ ps.map (·.dest) ↔ ∃ w, w < n.size ∧ w ≠ root ∧ parent w = root ∧ x = n.addr w) ∧
      ∀ p ∈ ps, ∀ w, w < n.size → w ≠ root → parent w = root → p.dest = n.addr w →
        ∃ m', readPkt (pktCfgOf (n.start w).cfg (n.zone w)) (fun _ _ => true) (fun _ => false) n.junk p.data = .ok (some (.done, [m'])) ∧ Arriving n parent depth m w m' := by
  have hp := h.posted
  obtain ⟨f1, f2, f3, f4, f5⟩ := hp.exported
  refine hop n root parent depth m m root (i root) (a root) (aka root) h.tree h.addresses h.passwords h.buffer h.depth hp h.tree.inside (h.part root h.tree.inside) h.own ⟨rfl, rfl, rfl, rfl, rfl⟩ rfl f4 f3 f5
    (.inl f1) (fun _ ht => by rw [f2] at ht; cases ht) (by rw [hp.seenBy]; simp [Blocks]) (by rw [hp.seenBy]; simp) (by rw [hp.path]; intro b hb; cases hb) (by rw [hp.path]; simp) ⟨fun _ => rfl, fun _ => f1⟩ (by rw [if_pos rfl]; exact hp.orig) ?_
  intro _ y hy
  rw [hp.seenBy] at hy
  cases hy

/-- The message at another system. -/
theorem arriving_runs (h : EchoNet n root parent depth m i a aka) {v : Nat} (hv : v < n.size) (hr : v ≠ root) {x : MemMsg} (hx : Arriving n parent depth m v x) :
    ∃ t ps, Handles n v [x] (n.start v) t ps ∧ DoneAt n root parent m v (i v) t ∧ (ps.map (·.dest)).Nodup ∧
      (∀ x, x ∈ ps.map (·.dest) ↔ ∃ w, w < n.size ∧ w ≠ root ∧ parent w = v ∧ x = n.addr w) ∧
      ∀ p ∈ ps, ∀ w, w < n.size → w ≠ root → parent w = v → p.dest = n.addr w →
        ∃ m', readPkt (pktCfgOf (n.start w).cfg (n.zone w)) (fun _ _ => true) (fun _ => false) n.junk p.data = .ok (some (.done, [m'])) ∧ Arriving n parent depth m w m' := by
  have hp := h.part v hv
  obtain ⟨u1, u2⟩ := h.tree.up v hv hr
  have fl : ∀ k : UInt16, x.has k = (4 &&& k != 0) := fun k => by unfold MemMsg.has; rw [hx.flags]
  refine hop n root parent depth m x v (i v) (a v) (aka v) h.tree h.addresses h.passwords h.buffer h.depth h.posted hv hp h.own hx.words hx.subject (by rw [fl]; decide) (by rw [fl]; decide) (by rw [fl]; decide)
    ?_ ?_ hx.blocks hx.nodup hx.path hx.lines ⟨fun e => absurd e (by rw [fl]; decide), fun e => absurd e hr⟩ (by rw [if_neg hr]; exact hx.orig) (by rw [hx.orig]; exact hx.seen)
  · -- the parent may post
    obtain ⟨l, hl, e⟩ := List.mem_map.1 ((hp.neighbours (n.addr (parent v))).2 ⟨parent v, ⟨hv, u1, .inl ⟨hr, rfl⟩⟩, rfl⟩)
    have hno : x.has MMFLAG_EXPORTED = false := by rw [fl]; decide
    have hns : x.has MMFLAG_NOSECURITY = false := by rw [fl]; decide
    rw [mayPost_iff _ _ _ hno hns]
    cases hf : (links (n.start v).cfg (a v)).find? (fun l => decide (SameSystem l.2.node x.pktOrig)) with
    | some l' => exact ⟨l', rfl, (hp.plain l' (List.mem_of_find?_eq_some hf)).2.2.1⟩
    | none =>
      have := List.find?_eq_none.1 hf l hl
      rw [hx.orig, e] at this
      simp [SameSystem] at this
  · intro d1 d2 d3
    rcases hp.new with e | e | ⟨db, e⟩
    · exact absurd e d1
    · rw [d3] at e; cases e
    · exact ⟨db, by rw [hx.id, hx.words.area]; exact e⟩

/-- What holds in every state of a run. -/
structure NetInv (n : Net) (root : Nat) (parent depth : Nat → Nat) (m : MemMsg) (i : Nat → Nat) (vs : List Nat) (s : NetSt) : Prop where
  rootIn : root ∈ vs
  lt : ∀ v ∈ vs, v < n.size
  nodup : vs.Nodup
  rest : ∀ v, v ∉ vs → s.sys v = n.start v
  done : ∀ v ∈ vs, DoneAt n root parent m v (i v) (s.sys v)
  dests : (s.mail.map (·.dest)).Nodup
  up : ∀ w ∈ vs, w ≠ root → parent w ∈ vs
  mail : ∀ p ∈ s.mail, ∃ w, w < n.size ∧ w ≠ root ∧ w ∉ vs ∧ parent w ∈ vs ∧ p.dest = n.addr w ∧
    ∃ m', readPkt (pktCfgOf (n.start w).cfg (n.zone w)) (fun _ _ => true) (fun _ => false) n.junk p.data = .ok (some (.done, [m'])) ∧ Arriving n parent depth m w m'
  down : ∀ w, w < n.size → w ≠ root → parent w ∈ vs → w ∈ vs ∨ n.addr w ∈ s.mail.map (·.dest)

theorem net_inv (h : EchoNet n root parent depth m i a aka) {vs : List Nat} {s : NetSt} (hr : NetRun n root m vs s) : NetInv n root parent depth m i vs s := by
  induction hr with
  | post t ps hh =>
    obtain ⟨t', ps', h1, h2, h3, h4, h5⟩ := post_runs h
    obtain ⟨rfl, rfl⟩ := handles_unique hh h1
    refine ⟨by simp, ?_, by simp, ?_, ?_, h3, ?_, ?_, ?_⟩
    · intro v hv
      simp only [List.mem_singleton] at hv
      subst hv; exact h.tree.inside
    · intro v hv
      simp only [List.mem_singleton] at hv
      simp [hv]
    · intro v hv
      simp only [List.mem_singleton] at hv
      subst hv
      simpa using h2
    · intro w hw hwr
      simp only [List.mem_singleton] at hw
      exact absurd hw hwr
    · intro p hp
      obtain ⟨w, w1, w2, w3, w4⟩ := (h4 p.dest).1 (List.mem_map_of_mem (f := fun p : Pkt => p.dest) hp)
      exact ⟨w, w1, w2, by simpa using w2, by simp [w3], w4, h5 p hp w w1 w2 w3 w4⟩
    · intro w w1 w2 w3
      simp only [List.mem_singleton] at w3
      exact .inr ((h4 _).2 ⟨w, w1, w2, w3, rfl⟩)
  | toss vs s l1 l2 p v ms t ps before mail lt to read hh ih =>
    obtain ⟨w, w1, w2, w3, w4, w5, m', w6, w7⟩ := ih.mail p (by rw [mail]; simp)
    have hvw : v = w := h.addresses.distinct v w lt w1 (by rw [← to, ← w5])
    subst hvw
    rw [ih.rest v w3, w6] at read
    simp only [Except.ok.injEq, Option.some.injEq, Prod.mk.injEq, true_and] at read
    subst read
    rw [ih.rest v w3] at hh
    obtain ⟨t', ps', h1, h2, h3, h4, h5⟩ := arriving_runs h w1 w2 w7
    obtain ⟨rfl, rfl⟩ := handles_unique hh h1
    have hd := ih.dests
    rw [mail, List.map_append, List.map_cons] at hd
    have hd' := (List.perm_middle.nodup_iff).1 hd
    rw [List.nodup_cons, ← List.map_append] at hd'
    -- packets for children of `v` are new
    have hnew : ∀ q ∈ l1 ++ l2, ∀ q' ∈ ps, q.dest ≠ q'.dest := by
      intro q hq q' hq' e
      obtain ⟨u, u1, u2, u3, u4, u5, -⟩ := ih.mail q (by rw [mail]; simp only [List.mem_append, List.mem_cons] at hq ⊢; rcases hq with hq | hq <;> simp [hq])
      obtain ⟨x, x1, x2, x3, x4⟩ := (h4 q'.dest).1 (List.mem_map_of_mem (f := fun p : Pkt => p.dest) hq')
      have : u = x := h.addresses.distinct u x u1 x1 (by rw [← u5, e, x4])
      subst this
      rw [x3] at u4
      exact w3 u4
    refine ⟨by simp [ih.rootIn], ?_, ?_, ?_, ?_, ?_, ?_, ?_, ?_⟩
    · intro x hx
      simp only [List.mem_append, List.mem_singleton] at hx
      rcases hx with hx | rfl
      · exact ih.lt x hx
      · exact w1
    · rw [List.nodup_append]
      refine ⟨ih.nodup, by simp, ?_⟩
      intro x hx y hy
      simp only [List.mem_singleton] at hy
      subst hy
      exact fun e => w3 (e ▸ hx)
    · intro x hx
      simp only [List.mem_append, List.mem_singleton, not_or] at hx
      simp only [hx.2, if_false]
      exact ih.rest x hx.1
    · intro x hx
      simp only [List.mem_append, List.mem_singleton] at hx
      by_cases hxv : x = v
      · subst hxv
        simpa using h2
      · simp only [hxv, if_false]
        rcases hx with hx | hx
        · exact ih.done x hx
        · exact absurd hx hxv
    · dsimp only
      rw [List.map_append, List.nodup_append]
      refine ⟨hd'.2, h3, ?_⟩
      intro x hx y hy
      obtain ⟨q, hq, rfl⟩ := List.mem_map.1 hx
      obtain ⟨q', hq', rfl⟩ := List.mem_map.1 hy
      exact hnew q hq q' hq'
    · intro x hx hxr
      simp only [List.mem_append, List.mem_singleton] at hx ⊢
      rcases hx with hx | rfl
      · exact .inl (ih.up x hx hxr)
      · exact .inl w4
    · intro q hq
      dsimp only at hq
      rcases List.mem_append.1 hq with hq | hq
      · obtain ⟨u, u1, u2, u3, u4, u5, u6⟩ := ih.mail q (by rw [mail]; simp only [List.mem_append, List.mem_cons] at hq ⊢; rcases hq with hq | hq <;> simp [hq])
        refine ⟨u, u1, u2, ?_, by simp [u4], u5, u6⟩
        simp only [List.mem_append, List.mem_singleton, not_or]
        refine ⟨u3, ?_⟩
        rintro rfl
        exact hd'.1 (List.mem_map.2 ⟨q, hq, by rw [u5, w5]⟩)
      · obtain ⟨x, x1, x2, x3, x4⟩ := (h4 q.dest).1 (List.mem_map_of_mem (f := fun p : Pkt => p.dest) hq)
        refine ⟨x, x1, x2, ?_, by simp [x3], x4, h5 q hq x x1 x2 x3 x4⟩
        simp only [List.mem_append, List.mem_singleton, not_or]
        refine ⟨fun hx => w3 (by rw [← x3]; exact ih.up x hx x2), ?_⟩
        rintro rfl
        have := (h.tree.up x x1 x2).2
        rw [x3] at this
        omega
    · intro x x1 x2 x3
      simp only [List.mem_append, List.mem_singleton] at x3
      dsimp only
      rw [List.map_append, List.mem_append, List.mem_append, List.mem_singleton]
      rcases x3 with x3 | x3
      · rcases ih.down x x1 x2 x3 with x4 | x4
        · exact .inl (.inl x4)
        · rw [mail, List.map_append, List.mem_append, List.map_cons, List.mem_cons] at x4
          rw [List.map_append, List.mem_append]
          rcases x4 with x4 | x4 | x4
          · exact .inr (.inl (.inl x4))
          · exact .inl (.inr (h.addresses.distinct x v x1 w1 (by rw [x4, w5])))
          · exact .inr (.inl (.inr x4))
      · exact .inr (.inr ((h4 _).2 ⟨x, x1, x2, x3, rfl⟩))

end

end CM
