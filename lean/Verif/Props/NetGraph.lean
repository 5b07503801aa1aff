import Verif.Lemmas.NetGraph
import Verif.Lemmas.Example
/-!
# An echomail in a network with loops (C83, C84)
-/

set_option linter.unusedSimpArgs false

namespace CM

section
variable {n : Net} {root : Nat} {nb : Nat → Nat → Prop} {m : MemMsg} {i : Nat → Nat} {a : Nat → Area} {aka : Nat → Aka}

/-- C83: the message can be posted. -/
theorem graph_starts (h : EchoGraph n root nb m i a aka) : ∃ s, NetRun n root m [root] s := by
  obtain ⟨t, ps, h1⟩ := posts h
  exact ⟨_, .post t ps h1.runs⟩

/-- C83: every packet on its way is for one of the systems, and this system can toss it next, whatever
the order of the packets was so far and whether it has had the message or not. -/
theorem graph_progress (h : EchoGraph n root nb m i a aka) {vs : List Nat} {s : NetSt} (hr : NetRun n root m vs s) {p : Pkt} (hp : p ∈ s.mail) :
    ∃ v s', v < n.size ∧ p.dest = n.addr v ∧ NetRun n root m (vs ++ [v]) s' := by
  obtain ⟨ks, hi⟩ := graph_inv h hr
  obtain ⟨u, w, x, u1, u2, u3, u4, u5, u6⟩ := hi.mail p hp
  obtain ⟨l1, l2, e⟩ := List.append_of_mem hp
  have hw := h.lt u2
  obtain ⟨t, ps, h1⟩ : ∃ t ps, Handles n w [x] (s.sys w) t ps := by
    by_cases hk : w ∈ ks
    · obtain ⟨t, c1, -⟩ := next_time h u2 u5 (hi.cfg w) (hi.after w hk).1
      exact ⟨t, _, c1⟩
    · obtain ⟨t, ps, c1, -⟩ := first_time h u2 u5 (hi.cfg w) (hi.before w hk).1
      exact ⟨t, ps, c1.runs⟩
  refine ⟨w, _, hw, u3, .toss vs s l1 l2 p w [x] t ps hr e hw u3 ?_ h1⟩
  rw [hi.cfg w]; exact u4

/-- C83: the exchange is finite: however the packets are tossed, the number of runs and of packets on
their way is bounded by the number of systems and of pairs of systems. -/
theorem graph_bound (h : EchoGraph n root nb m i a aka) {vs : List Nat} {s : NetSt} (hr : NetRun n root m vs s) :
    vs.length + s.mail.length ≤ 1 + n.size + n.size * n.size := by
  obtain ⟨ks, hi⟩ := graph_inv h hr
  have := hi.count
  omega

/-- C83: at any time, every system that has had the message from another one has stored it exactly
once, however many copies it has got, with the words of the original. Whoever has not had it has
stored nothing. The system where it was posted has stored nothing or it has stored one copy. -/
theorem graph_once (h : EchoGraph n root nb m i a aka) {vs : List Nat} {s : NetSt} (hr : NetRun n root m vs s) (v : Nat) :
    (v ∈ vs → v ≠ root → ∃ x, storedIn (newIn n s v) = [(i v, x)] ∧ SameWords m x ∧
        x.subject = if (n.start v).cfg.has CFG_STRIPRE then stripRe m.subject else m.subject) ∧
      (v ∉ vs → storedIn (newIn n s v) = []) ∧
      (storedIn (newIn n s v) = [] ∨ ∃ x, storedIn (newIn n s v) = [(i v, x)] ∧ SameWords m x) := by
  obtain ⟨ks, hi⟩ := graph_inv h hr
  have h1 : v ∈ ks → ∃ x, storedIn (newIn n s v) = [(i v, x)] ∧ SameWords m x ∧
      x.subject = if (n.start v).cfg.has CFG_STRIPRE then stripRe m.subject else m.subject := by
    intro hk
    obtain ⟨-, es, x, e1, e2, e3⟩ := hi.after v hk
    refine ⟨x, ?_, e3⟩
    unfold newIn
    rw [e1, List.drop_left]
    exact e2
  have h2 : v ∉ ks → storedIn (newIn n s v) = [] := by
    intro hk
    obtain ⟨-, es, e1, e2⟩ := hi.before v hk
    unfold newIn
    rw [e1, List.drop_left]
    exact e2
  refine ⟨fun hv hvr => h1 (hi.sup v hv hvr), fun hv => h2 (fun hk => hv (hi.sub v hk)), ?_⟩
  by_cases hk : v ∈ ks
  · obtain ⟨x, x1, x2, -⟩ := h1 hk
    exact .inr ⟨x, x1, x2⟩
  · exact .inl (h2 hk)

/-- C83: when no packet is on its way any more, every system has had the message, and every system but
the one where it was posted has stored it exactly once. -/
theorem graph_reaches_all (h : EchoGraph n root nb m i a aka) {vs : List Nat} {s : NetSt} (hr : NetRun n root m vs s) (he : s.mail = []) :
    ∀ v, v < n.size → v ∈ vs ∧ (v ≠ root → ∃ x, storedIn (newIn n s v) = [(i v, x)] ∧ SameWords m x ∧
        x.subject = if (n.start v).cfg.has CFG_STRIPRE then stripRe m.subject else m.subject) := by
  obtain ⟨ks, hi⟩ := graph_inv h hr
  have hall : ∀ v, Reaches nb root v → v ∈ vs := by
    intro v hv
    induction hv with
    | here => exact hi.rootIn
    | next v w _ hl ih =>
      rcases hi.cover v ih w hl with hx | hx
      · exact hx
      · rw [he] at hx; cases hx
  intro v hv
  have := hall v (h.graph.all v hv)
  exact ⟨this, (graph_once h hr v).1 this⟩

/-- C83: from every state, tossing what is on its way comes to an end, and then no packet is left. -/
theorem graph_completes (h : EchoGraph n root nb m i a aka) {vs : List Nat} {s : NetSt} (hr : NetRun n root m vs s) :
    ∃ ws t, NetRun n root m (vs ++ ws) t ∧ t.mail = [] := by
  suffices ∀ k, ∀ vs s, NetRun n root m vs s → 1 + n.size + n.size * n.size - vs.length = k → ∃ ws t, NetRun n root m (vs ++ ws) t ∧ t.mail = [] from this _ vs s hr rfl
  intro k
  induction k with
  | zero =>
    intro vs s hr hk
    have := graph_bound h hr
    exact ⟨[], s, by simpa using hr, List.length_eq_zero_iff.1 (by omega)⟩
  | succ k ih =>
    intro vs s hr hk
    cases hm : s.mail with
    | nil => exact ⟨[], s, by simpa using hr, hm⟩
    | cons p l =>
      obtain ⟨v, s', -, -, hr'⟩ := graph_progress h hr (p := p) (by rw [hm]; simp)
      obtain ⟨ws, t, h1, h2⟩ := ih _ _ hr' (by rw [List.length_append]; simp; omega)
      exact ⟨v :: ws, t, by simpa using h1, h2⟩

/-- C84, part: if all systems write and heed complete SEEN-BY lines, no copy comes back to the system
where the message was posted, and it never stores its own message. Missing: networks across zones, with
points or short SEEN-BY lines, where the claim is false (`Ex.grNet_comes_back`). -/
theorem own_message_partial (h : EchoGraph n root nb m i a aka) (hs : SeenByKept n root a) {vs : List Nat} {s : NetSt} (hr : NetRun n root m vs s) :
    (∀ p ∈ s.mail, p.dest ≠ n.addr root) ∧ storedIn (newIn n s root) = [] := by
  have key : (∀ p ∈ s.mail, p.dest ≠ n.addr root ∧ ∀ w, w < n.size → p.dest = n.addr w → ∀ x,
        readPkt (pktCfgOf (n.start w).cfg (n.zone w)) (fun _ _ => true) (fun _ => false) n.junk p.data = .ok (some (.done, [x])) → ((n.addr root).net, (n.addr root).node) ∈ x.seenBy.flatten) ∧
      ∃ es, (s.sys root).log = (n.start root).log ++ es ∧ storedIn es = [] := by
    have hin := h.graph.inside
    have out : ∀ {y : MemMsg} {v : Nat} {s t : HSt} {ps : List Pkt}, v < n.size → Visit n nb m y v (i v) (a v) s t ps →
        (y.pktOrig.zone = (n.addr v).zone ∧ ((n.addr root).net, (n.addr root).node) ∈ y.seenBy.flatten) ∨ v = root →
        (v = root → y.pktOrig = n.addr root) → ∀ p ∈ ps, p.dest ≠ n.addr root ∧ ∀ w, w < n.size → p.dest = n.addr w → ∀ x,
        readPkt (pktCfgOf (n.start w).cfg (n.zone w)) (fun _ _ => true) (fun _ => false) n.junk p.data = .ok (some (.done, [x])) → ((n.addr root).net, (n.addr root).node) ∈ x.seenBy.flatten := by
      intro y v s t ps hv hvis hy hyr p hp
      obtain ⟨w, w1, w2, w3, w4, m', w5, w6, w7, w8⟩ := hvis.sent p hp
      have hw := h.lt w1
      constructor
      · intro e
        have : w = root := h.addresses.distinct w root hw hin (by rw [← w2, e])
        subst this
        rcases hy with ⟨y1, y2⟩ | y1
        · exact w4 ⟨(hs.heeds v hv).1, (hs.heeds v hv).2, y1.symm, (hs.zone v hv).1.symm, (hs.zone w hw).2, y2⟩
        · exact w3 (hyr y1).symm
      · intro z hz e x hx
        have : w = z := h.addresses.distinct w z hw hz (by rw [← w2, e])
        subst this
        rw [w5] at hx
        simp only [Except.ok.injEq, Option.some.injEq, Prod.mk.injEq, true_and, List.cons.injEq, and_true] at hx
        subst hx
        refine w8 ((hs.zone v hv).1.trans (hs.zone w hw).1.symm) (hs.full v hv) _ hs.named ?_
        rcases hy with hy | rfl
        · exact .inl hy
        · exact .inr ⟨rfl, (hs.zone _ hv).2, rfl⟩
    induction hr with
    | post t ps hh =>
      obtain ⟨t', ps', h1⟩ := posts h
      obtain ⟨rfl, rfl⟩ := handles_unique hh h1.runs
      refine ⟨out hin h1 (.inr rfl) (fun _ => h.posted.orig), ?_⟩
      obtain ⟨es, l1, l2, -⟩ := h1.log
      exact ⟨es, by simpa using l1, l2 h.posted.exported.1⟩
    | toss vs s l1 l2 p v ms t ps before mail lt to read hh ih =>
      obtain ⟨ih1, ih2⟩ := ih
      obtain ⟨ks, hi⟩ := graph_inv h before
      have hpm : p ∈ s.mail := by rw [mail]; simp
      obtain ⟨p1, p2⟩ := ih1 p hpm
      have hvr : v ≠ root := fun e => p1 (by rw [to, e])
      obtain ⟨u, w, x, u1, u2, u3, u4, u5, u6⟩ := hi.mail p hpm
      have hvw : v = w := h.addresses.distinct v w lt (h.lt u2) (by rw [← to, ← u3])
      subst hvw
      rw [hi.cfg v, u4] at read
      simp only [Except.ok.injEq, Option.some.injEq, Prod.mk.injEq, true_and] at read
      subst read
      have hx := p2 v lt to x u4
      refine ⟨?_, by simpa [Ne.symm hvr] using ih2⟩
      intro q hq
      rcases List.mem_append.1 hq with hq | hq
      · refine ih1 q ?_
        rw [mail]
        simp only [List.mem_append, List.mem_cons] at hq ⊢
        rcases hq with hq | hq <;> simp [hq]
      · by_cases hk : v ∈ ks
        · obtain ⟨t', c1, -⟩ := next_time h u2 u5 (hi.cfg v) (hi.after v hk).1
          obtain ⟨rfl, rfl⟩ := handles_unique hh c1
          cases hq
        · obtain ⟨t', ps', h1, -⟩ := first_time h u2 u5 (hi.cfg v) (hi.before v hk).1
          obtain ⟨rfl, rfl⟩ := handles_unique hh h1.runs
          refine out lt h1 (.inl ⟨?_, hx⟩) (fun e => absurd e hvr) q hq
          rw [u5.orig, (hs.zone u (h.graph.lt u v u2)).1, (hs.zone v lt).1]
  refine ⟨fun p hp => (key.1 p hp).1, ?_⟩
  obtain ⟨es, e1, e2⟩ := key.2
  unfold newIn
  rw [e1, List.drop_left]
  exact e2

/-- A step of a run over a link between zones: the copy goes on to every other neighbour. -/
theorem graph_step (h : EchoGraph n root nb m i a aka) {vs : List Nat} {s : NetSt} (hr : NetRun n root m vs s) {u v w : Nat} (hv : v ∉ vs) {p : Pkt} (hp : p ∈ s.mail) (hl : nb u v) (hd : p.dest = n.addr v) {x : MemMsg}
    (hx : readPkt (pktCfgOf (n.start v).cfg (n.zone v)) (fun _ _ => true) (fun _ => false) n.junk p.data = .ok (some (.done, [x]))) (hc : Coming n m u x) (hw : nb v w) (hwu : w ≠ u) (hz : (n.addr w).zone ≠ (n.addr v).zone) :
    ∃ s' p' x', NetRun n root m (vs ++ [v]) s' ∧ p' ∈ s'.mail ∧ p'.dest = n.addr w ∧
      readPkt (pktCfgOf (n.start w).cfg (n.zone w)) (fun _ _ => true) (fun _ => false) n.junk p'.data = .ok (some (.done, [x'])) ∧ Coming n m v x' := by
  obtain ⟨ks, hi⟩ := graph_inv h hr
  have hvl := h.lt hl
  have hs := hi.rest v hv
  obtain ⟨t, ps, h1, -⟩ := first_time h hl hc (s := s.sys v) (by rw [hs]) (by rw [hs])
  obtain ⟨l1, l2, e⟩ := List.append_of_mem hp
  have hcov := h1.cover (by rw [hs]; exact (h.part v hvl).fresh) w hw
  have hcov : n.addr w ∈ ps.map (·.dest) := by
    rcases hcov with c | c | ⟨-, -, -, c, -⟩
    · exact c
    · rw [hc.orig] at c
      exact absurd (h.addresses.distinct w u (h.lt hw) (h.graph.lt u v hl) c) hwu
    · exact absurd c hz
  obtain ⟨p', hp', e'⟩ := List.mem_map.1 hcov
  have e' : p'.dest = n.addr w := e'
  obtain ⟨w', g1, g2, -, -, x', g3, g4, -⟩ := h1.sent p' hp'
  have : w' = w := h.addresses.distinct w' w (h.lt g1) (h.lt hw) (by rw [← g2, e'])
  subst this
  refine ⟨_, p', x', .toss vs s l1 l2 p v [x] t ps hr e hvl hd ?_ h1.runs, List.mem_append_right _ hp', e', g3, g4⟩
  rw [hs]; exact hx

end

/-! ## Concrete cases

Four systems in a ring, in one zone (`b = true`) or in four zones. -/

namespace Ex

def grAddr (b : Bool) (v : Nat) : Node4D := if b then ⟨1, 2, v.toUInt16 + 1, 0⟩ else ⟨v.toUInt16 + 1, 2, 1, 0⟩

def grNb : Nat → List Nat
  | 0 => [1, 3]
  | 1 => [0, 2]
  | 2 => [1, 3]
  | 3 => [2, 0]
  | _ => []

def grLink (v w : Nat) : Prop := w ∈ grNb v

instance (v w : Nat) : Decidable (grLink v w) := by unfold grLink; infer_instance

def grArea (_ : Nat) : Area := { tag := b!"Test", aka := some 0, base := some 0, tossNodes := [⟨0, 0⟩, ⟨1, 0⟩] }

def grAka (b : Bool) (v : Nat) : Aka := { node := grAddr b v }

def grCfg (b : Bool) (v : Nat) : Config where
  akas := [grAka b v]
  nodes := (grNb v).map fun w => { node := grAddr b w, packetPW := b!"Secret", flags := 0 }
  areas := [area b!"OTHER" 0 [], grArea v]
  flags := CFG_CHECKSEENBY
  dupeMode := 2
  dupeSize := 10
  nl := ⟨false, fun _ => 0, fun _ => 0⟩
  nlCheck := fun _ => true

def grNet (b : Bool) : Net :=
  { size := 4, addr := grAddr b, start := fun v => { st (grCfg b v) with dupe := freshDupe }, env := fun _ => env, zone := fun _ => 1, af := fun _ _ => pure (), fuel := 1, maxSize := 0, date := ⟨2000, 0, 1, 0, 0, 0⟩, junk := List.replicate 14 0 }

def grMsg (b : Bool) : MemMsg :=
  { pktOrig := grAddr b 0, area := b!"TEST", flags := MMFLAG_EXPORTED, to := b!"All", frm := b!"Me", subject := b!"Re: news", date := b!"01 Jan 00  00:00:00", text := [1 :: b!"MSGID: 1:2/1 12345678\r", b!"hello\r"] }

theorem gr_lt {b : Bool} {v : Nat} (h : v < (grNet b).size) : v = 0 ∨ v = 1 ∨ v = 2 ∨ v = 3 := by
  have : v < 4 := h
  omega

theorem grLink_lt {v w : Nat} (h : grLink v w) : v < 4 ∧ w < 4 := by
  unfold grLink at h
  match v with
  | 0 => simp [grNb] at h; omega
  | 1 => simp [grNb] at h; omega
  | 2 => simp [grNb] at h; omega
  | 3 => simp [grNb] at h; omega
  | k + 4 => simp [grNb] at h

theorem grNet_ok (b : Bool) : EchoGraph (grNet b) 0 grLink (grMsg b) (fun _ => 1) grArea (grAka b) where
  graph := ⟨by show 0 < 4; decide, fun v w e => (grLink_lt e).1, by
      intro v w e
      obtain ⟨h1, h2⟩ := grLink_lt e
      revert e
      rcases gr_lt (b := b) h1 with rfl | rfl | rfl | rfl <;> rcases gr_lt (b := b) h2 with rfl | rfl | rfl | rfl <;> decide,
    by
      intro v w e
      obtain ⟨h1, h2⟩ := grLink_lt e
      revert e
      rcases gr_lt (b := b) h1 with rfl | rfl | rfl | rfl <;> rcases gr_lt (b := b) h2 with rfl | rfl | rfl | rfl <;> decide,
    by
      intro v hv
      have r1 : Reaches grLink 0 1 := .next 0 1 .here (by decide)
      rcases gr_lt hv with rfl | rfl | rfl | rfl
      · exact .here
      · exact r1
      · exact .next 1 2 r1 (by decide)
      · exact .next 0 3 .here (by decide)⟩
  addresses := ⟨by
      intro v w hv hw
      cases b <;> rcases gr_lt hv with rfl | rfl | rfl | rfl <;> rcases gr_lt hw with rfl | rfl | rfl | rfl <;> decide,
    by intro v hv; cases b <;> rcases gr_lt hv with rfl | rfl | rfl | rfl <;> decide,
    by intro v hv; cases b <;> rcases gr_lt hv with rfl | rfl | rfl | rfl <;> decide⟩
  passwords := by
    intro v w hvw nd hnd e nd' hnd'
    refine .inr ?_
    have h1 : nd.packetPW = b!"Secret" := by
      obtain ⟨_, -, rfl⟩ := List.mem_map.1 hnd
      rfl
    have h2 : nd'.packetPW = b!"Secret" := by
      have hnd' := List.mem_of_find?_eq_some hnd'
      obtain ⟨_, -, rfl⟩ := List.mem_map.1 hnd'
      rfl
    rw [h1, h2]
  part := by
    intro v hv
    refine ⟨?_, (by decide : ((0 : UInt8) &&& AREA_UNCONFIRMED != 0) = false), rfl, by simp [grArea], rfl, rfl, ⟨rfl, rfl⟩, rfl, ?_, ?_, ?_, ?_, ?_, ⟨rfl, (by decide : ((0 : UInt8) &&& AREA_IGNOREDUPES != 0) = false)⟩, ?_, ⟨fun _ _ _ => rfl, fun _ _ _ => rfl⟩⟩
    · refine ⟨rfl, (by decide : b!"Test".map lower = b!"TEST".map lower), ?_⟩
      intro j hj b hb
      have : j = 0 := by omega
      subst this
      simp only [grNet, st, grCfg, List.getElem?_cons_zero, Option.some.injEq] at hb
      subst hb
      show List.map lower b!"OTHER" ≠ List.map lower b!"TEST"
      decide
    · rcases gr_lt hv with rfl | rfl | rfl | rfl <;> (intro t ht; simp only [grArea, List.mem_cons, List.not_mem_nil, or_false] at ht; rcases ht with rfl | rfl <;> exact ⟨_, rfl⟩)
    · cases b <;> rcases gr_lt hv with rfl | rfl | rfl | rfl <;> decide
    · intro x
      have e : (links ((grNet b).start v).cfg (grArea v)).map (fun l => l.2.node) = (grNb v).map (grAddr b) := by
        cases b <;> rcases gr_lt hv with rfl | rfl | rfl | rfl <;> decide
      rw [e, List.mem_map]
      exact ⟨fun ⟨w, h1, h2⟩ => ⟨w, h1, h2.symm⟩, fun ⟨w, h1, h2⟩ => ⟨w, h1, h2.symm⟩⟩
    · cases b <;> rcases gr_lt hv with rfl | rfl | rfl | rfl <;> decide
    · intro k hk
      exact absurd hk.2.2 (by simp [grNet, st])
    · exact ⟨[], freshDupe_inv 10 (by decide), by simp [lastN], by simp [grNet, freshDupe, dupeId]⟩
  posted := by
    refine ⟨by cases b <;> decide, rfl, rfl, rfl, ⟨by cases b <;> decide, by cases b <;> decide, by cases b <;> decide, by cases b <;> decide⟩, ⟨by cases b <;> decide, by cases b <;> decide, by cases b <;> decide, by cases b <;> decide, ⟨84, by cases b <;> decide, by cases b <;> decide⟩⟩, .inr (by cases b <;> decide), by cases b <;> decide, ?_⟩
    have e : pieces (grMsg b).text.flatten = [1 :: b!"MSGID: 1:2/1 12345678\r", b!"hello\r"] := by
      show pieces (List.flatten [1 :: b!"MSGID: 1:2/1 12345678\r", b!"hello\r"]) = _
      decide +kernel
    rw [e]
    intro l hl
    simp only [List.mem_cons, List.not_mem_nil, or_false] at hl
    rcases hl with rfl | rfl <;>
      exact ⟨⟨by unfold SafeKludge; decide, by decide, by intro h; exact absurd h (by decide), by intro h; exact absurd h (by decide)⟩, by decide, by decide, by decide⟩
  id := by
    have e : msgidOf (grMsg b).text.flatten = b!"1:2/1 12345678" := by
      show msgidOf (List.flatten [1 :: b!"MSGID: 1:2/1 12345678\r", b!"hello\r"]) = _
      decide +kernel
    rw [e]
    exact ⟨⟨by decide, by decide⟩, by decide⟩
  buffer := rfl
  depth := by show 0 < 1; decide

theorem grNet_seenBy : SeenByKept (grNet true) 0 grArea where
  zone := by intro v hv; rcases gr_lt hv with rfl | rfl | rfl | rfl <;> decide
  named := by decide
  heeds := by intro v hv; exact ⟨by show (CFG_CHECKSEENBY &&& CFG_CHECKSEENBY != 0) = true; decide, (by decide : ((0 : UInt8) &&& AREA_IGNORESEENBY != 0) = false)⟩
  full := by intro v hv; rcases gr_lt hv with rfl | rfl | rfl | rfl <;> decide

/-- In the ring the message comes to the other three systems once each, and the exchange ends. -/
theorem grNet_reaches_all (b : Bool) : ∃ vs s, NetRun (grNet b) 0 (grMsg b) vs s ∧ s.mail = [] ∧
    ∀ v ∈ [1, 2, 3], ∃ x, storedIn (newIn (grNet b) s v) = [(1, x)] ∧ x.text.flatten = (grMsg b).text.flatten := by
  obtain ⟨s, h1⟩ := graph_starts (grNet_ok b)
  obtain ⟨ws, t, h2, h3⟩ := graph_completes (grNet_ok b) h1
  refine ⟨_, t, h2, h3, ?_⟩
  intro v hv
  obtain ⟨-, hx⟩ := graph_reaches_all (grNet_ok b) h2 h3 v (by simp at hv; show v < 4; omega)
  obtain ⟨x, x1, x2, x3⟩ := hx (by simp at hv; omega)
  exact ⟨x, x1, x2.text⟩

/-- Within the zone the own message does not come back. -/
theorem grNet_root {vs : List Nat} {s : NetSt} (h : NetRun (grNet true) 0 (grMsg true) vs s) : storedIn (newIn (grNet true) s 0) = [] :=
  (own_message_partial (grNet_ok true) grNet_seenBy h).2

/-- C84 fails: across zones it can come back to the system where it was posted, which does not know
it, stores it as a second message beside the one written there, and sends it again. -/
theorem grNet_comes_back : ∃ vs s x, NetRun (grNet false) 0 (grMsg false) vs s ∧ storedIn (newIn (grNet false) s 0) = [(1, x)] ∧ SameWords (grMsg false) x := by
  have hok := grNet_ok false
  obtain ⟨t, ps, h1⟩ := posts hok
  have hc := h1.cover (hok.part 0 (by decide)).fresh 1 (by decide)
  have hc : (grNet false).addr 1 ∈ ps.map (·.dest) := by
    rcases hc with c | c | ⟨-, -, -, c, -⟩
    · exact c
    · exact absurd c (by decide)
    · exact absurd c (by decide)
  obtain ⟨p, hp, e⟩ := List.mem_map.1 hc
  obtain ⟨w, g1, g2, -, -, x, g3, g4, -⟩ := h1.sent p hp
  have : w = 1 := hok.addresses.distinct w 1 (hok.lt g1) (by decide) (by rw [← g2]; exact e)
  subst this
  obtain ⟨s1, p1, x1, r1, a1, a2, a3, a4⟩ := graph_step hok (.post t ps h1.runs) (u := 0) (v := 1) (w := 2) (by decide) hp g1 g2 g3 g4 (by decide) (by decide) (by decide)
  obtain ⟨s2, p2, x2, r2, b1, b2, b3, b4⟩ := graph_step hok r1 (u := 1) (v := 2) (w := 3) (by decide) a1 (by decide) a2 a3 a4 (by decide) (by decide) (by decide)
  obtain ⟨s3, p3, x3, r3, c1, c2, c3, c4⟩ := graph_step hok r2 (u := 2) (v := 3) (w := 0) (by decide) b1 (by decide) b2 b3 b4 (by decide) (by decide) (by decide)
  obtain ⟨ks, hi⟩ := graph_inv hok r3
  by_cases hk : 0 ∈ ks
  · obtain ⟨-, es, y, e1, e2, e3, -⟩ := hi.after 0 hk
    refine ⟨_, s3, y, r3, ?_, e3⟩
    unfold newIn
    rw [e1, List.drop_left]
    exact e2
  · obtain ⟨l1, l2, e⟩ := List.append_of_mem c1
    obtain ⟨b1, es0, b2, b3⟩ := hi.before 0 hk
    obtain ⟨t', ps', h2, -⟩ := first_time hok (u := 3) (v := 0) (by decide) c4 (hi.cfg 0) b1
    obtain ⟨es, f1, -, f2⟩ := h2.log
    obtain ⟨y, y1, y2, -⟩ := f2 (by rw [coming_flags c4]; decide)
    refine ⟨_, _, y, .toss _ s3 l1 l2 p3 0 [x3] t' ps' r3 e (by decide) c2 (by rw [hi.cfg 0]; exact c3) h2.runs, ?_, y2⟩
    unfold newIn
    dsimp only
    rw [if_pos rfl, f1, b2, List.append_assoc, List.drop_left]
    rw [show storedIn (es0 ++ es) = storedIn es0 ++ storedIn es from List.filterMap_append, b3, y1]
    rfl

end Ex

end CM
