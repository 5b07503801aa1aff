import Verif.Lemmas.Net
/-!
# An echomail in a network (C81)
-/

set_option linter.unusedSimpArgs false

namespace CM

section
variable {n : Net} {root : Nat} {parent depth : Nat → Nat} {m : MemMsg} {i : Nat → Nat} {a : Nat → Area} {aka : Nat → Aka}

/-- C81: the message can be posted. -/
theorem net_starts (h : EchoNet n root parent depth m i a aka) : ∃ s, NetRun n root m [root] s := by
  obtain ⟨t, ps, h1, -⟩ := post_runs h
  exact ⟨_, .post t ps h1⟩

/-- C81: every packet on its way is for a system that has not had the message yet, and this system can
toss it next, whatever the order of the packets was so far. -/
theorem net_progress (h : EchoNet n root parent depth m i a aka) {vs : List Nat} {s : NetSt} (hr : NetRun n root m vs s) {p : Pkt} (hp : p ∈ s.mail) :
    ∃ v s', v < n.size ∧ v ∉ vs ∧ p.dest = n.addr v ∧ NetRun n root m (vs ++ [v]) s' := by
  have hi := net_inv h hr
  obtain ⟨w, w1, w2, w3, w4, w5, m', w6, w7⟩ := hi.mail p hp
  obtain ⟨t, ps, h1, -⟩ := arriving_runs h w1 w2 w7
  obtain ⟨l1, l2, e⟩ := List.append_of_mem hp
  refine ⟨w, _, w1, w3, w5, .toss vs s l1 l2 p w [m'] t ps hr e w1 w5 ?_ ?_⟩
  · rw [hi.rest w w3]; exact w6
  · rw [hi.rest w w3]; exact h1

/-- C81: no system gets the message twice, and there are never more packets on their way than systems
left. -/
theorem net_bound (h : EchoNet n root parent depth m i a aka) {vs : List Nat} {s : NetSt} (hr : NetRun n root m vs s) :
    vs.Nodup ∧ (∀ v ∈ vs, v < n.size) ∧ vs.length + s.mail.length ≤ n.size := by
  have hi := net_inv h hr
  refine ⟨hi.nodup, hi.lt, ?_⟩
  have h1 : (vs.map n.addr ++ s.mail.map (·.dest)).Nodup := by
    rw [List.nodup_append]
    refine ⟨?_, hi.dests, ?_⟩
    · have := hi.nodup
      unfold List.Nodup at this ⊢
      rw [List.pairwise_map]
      exact this.imp_of_mem fun ha hb hne e => hne (h.addresses.distinct _ _ (hi.lt _ ha) (hi.lt _ hb) e)
    · intro x hx y hy e
      obtain ⟨v, hv, rfl⟩ := List.mem_map.1 hx
      obtain ⟨p, hp, rfl⟩ := List.mem_map.1 hy
      obtain ⟨w, w1, w2, w3, w4, w5, -⟩ := hi.mail p hp
      exact w3 (by rw [← h.addresses.distinct v w (hi.lt v hv) w1 (by rw [e, w5])]; exact hv)
  have h2 : (vs.map n.addr ++ s.mail.map (·.dest)) ⊆ (List.range n.size).map n.addr := by
    intro x hx
    rcases List.mem_append.1 hx with hx | hx
    · obtain ⟨v, hv, rfl⟩ := List.mem_map.1 hx
      exact List.mem_map_of_mem (List.mem_range.2 (hi.lt v hv))
    · obtain ⟨p, hp, rfl⟩ := List.mem_map.1 hx
      obtain ⟨w, w1, w2, w3, w4, w5, -⟩ := hi.mail p hp
      rw [w5]
      exact List.mem_map_of_mem (List.mem_range.2 w1)
  have := List.Nodup.length_le_of_subset h1 h2
  simpa using this

theorem newIn_done {vs : List Nat} {s : NetSt} (hi : NetInv n root parent depth m i vs s) (v : Nat) :
    (copiesTo (newIn n s v)).Nodup ∧ (∀ x, x ∈ copiesTo (newIn n s v) ↔ v ∈ vs ∧ ∃ w, w < n.size ∧ w ≠ root ∧ parent w = v ∧ x = n.addr w) ∧
      (v ∉ vs ∨ v = root → storedIn (newIn n s v) = []) ∧
      (v ∈ vs → v ≠ root → ∃ x, storedIn (newIn n s v) = [(i v, x)] ∧ SameWords m x ∧
        x.subject = if (n.start v).cfg.has CFG_STRIPRE then stripRe m.subject else m.subject) := by
  by_cases hv : v ∈ vs
  · obtain ⟨es, e1, e2, e3, e4, e5⟩ := hi.done v hv
    have e : newIn n s v = es := by unfold newIn; rw [e1, List.drop_left]
    rw [e]
    exact ⟨e2, fun x => (e3 x).trans ⟨fun h => ⟨hv, h⟩, fun h => h.2⟩, fun hc => e4 (hc.resolve_left (fun h => h hv)), fun _ => e5⟩
  · have e : newIn n s v = [] := by unfold newIn; rw [hi.rest v hv, List.drop_length]
    rw [e]
    exact ⟨by simp [copiesTo], fun x => ⟨fun h => by simp [copiesTo] at h, fun h => absurd h.1 hv⟩, fun _ => by simp [storedIn], fun h => absurd h hv⟩

/-- C81: at any time, the systems that have had the message, apart from the one where it was posted,
have each stored it once in the area, with its words unchanged; nobody else has stored anything; and no
two copies were sent to the same system, nor any to the system where it was posted. -/
theorem net_once (h : EchoNet n root parent depth m i a aka) {vs : List Nat} {s : NetSt} (hr : NetRun n root m vs s) :
    (∀ v ∈ vs, v ≠ root → ∃ x, storedIn (newIn n s v) = [(i v, x)] ∧ SameWords m x ∧
        x.subject = if (n.start v).cfg.has CFG_STRIPRE then stripRe m.subject else m.subject) ∧
      (∀ v, v ∉ vs ∨ v = root → storedIn (newIn n s v) = []) ∧
      (allCopies n s).Nodup ∧ n.addr root ∉ allCopies n s := by
  have hi := net_inv h hr
  refine ⟨fun v hv => (newIn_done hi v).2.2.2 hv, fun v => (newIn_done hi v).2.2.1, ?_, ?_⟩
  · unfold allCopies List.Nodup
    rw [List.pairwise_flatMap]
    refine ⟨fun v _ => (newIn_done hi v).1, ?_⟩
    refine List.Pairwise.imp ?_ (List.nodup_range (n := n.size))
    intro v w hvw x hx y hy e
    obtain ⟨-, c, c1, c2, c3, c4⟩ := ((newIn_done hi v).2.1 x).1 hx
    obtain ⟨-, d, d1, d2, d3, d4⟩ := ((newIn_done hi w).2.1 y).1 hy
    have := h.addresses.distinct c d c1 d1 (by rw [← c4, e, d4])
    subst this
    exact hvw (c3.symm.trans d3)
  · intro hx
    obtain ⟨v, -, hx⟩ := List.mem_flatMap.1 hx
    obtain ⟨-, c, c1, c2, c3, c4⟩ := ((newIn_done hi v).2.1 _).1 hx
    exact c2 (h.addresses.distinct _ _ h.tree.inside c1 c4).symm

/-- C81: when no packet is on its way any more, every system has had the message exactly once: every
system but the one where it was posted has stored one message, with the words of the original, and the
copies sent in the whole network are one for each of them. -/
theorem net_reaches_all (h : EchoNet n root parent depth m i a aka) {vs : List Nat} {s : NetSt} (hr : NetRun n root m vs s) (he : s.mail = []) :
    vs.Perm (List.range n.size) ∧
      (∀ v, v < n.size → v ≠ root → ∃ x, storedIn (newIn n s v) = [(i v, x)] ∧ SameWords m x ∧
        x.subject = if (n.start v).cfg.has CFG_STRIPRE then stripRe m.subject else m.subject) ∧
      storedIn (newIn n s root) = [] ∧
      (allCopies n s).Perm (((List.range n.size).filter (· ≠ root)).map n.addr) := by
  have hi := net_inv h hr
  have hall : ∀ d, ∀ v, v < n.size → depth v = d → v ∈ vs := by
    intro d
    induction d with
    | zero =>
      intro v hv hd
      by_cases hvr : v = root
      · rw [hvr]; exact hi.rootIn
      · have := (h.tree.up v hv hvr).2; omega
    | succ d ih =>
      intro v hv hd
      by_cases hvr : v = root
      · rw [hvr]; exact hi.rootIn
      · obtain ⟨u1, u2⟩ := h.tree.up v hv hvr
        rcases hi.down v hv hvr (ih (parent v) u1 (by omega)) with hx | hx
        · exact hx
        · rw [he] at hx; cases hx
  have hin : ∀ v, v < n.size → v ∈ vs := fun v hv => hall _ v hv rfl
  obtain ⟨o1, o2, o3, o4⟩ := net_once h hr
  refine ⟨?_, fun v hv => o1 v (hin v hv), o2 root (.inr rfl), ?_⟩
  · rw [List.perm_ext_iff_of_nodup hi.nodup List.nodup_range]
    exact fun v => ⟨fun hv => List.mem_range.2 (hi.lt v hv), fun hv => hin v (List.mem_range.1 hv)⟩
  · rw [List.perm_ext_iff_of_nodup o3]
    · intro x
      constructor
      · intro hx
        obtain ⟨v, -, hx⟩ := List.mem_flatMap.1 hx
        obtain ⟨-, c, c1, c2, c3, rfl⟩ := ((newIn_done hi v).2.1 _).1 hx
        exact List.mem_map_of_mem (List.mem_filter.2 ⟨List.mem_range.2 c1, by simpa using c2⟩)
      · intro hx
        obtain ⟨w, hw, rfl⟩ := List.mem_map.1 hx
        obtain ⟨w1, w2⟩ := List.mem_filter.1 hw
        have w1 := List.mem_range.1 w1
        have w2 : w ≠ root := by simpa using w2
        obtain ⟨u1, -⟩ := h.tree.up w w1 w2
        exact List.mem_flatMap.2 ⟨parent w, List.mem_range.2 u1, ((newIn_done hi _).2.1 _).2 ⟨hin _ u1, w, w1, w2, rfl, rfl⟩⟩
    · unfold List.Nodup
      rw [List.pairwise_map]
      refine (List.Pairwise.filter _ (List.nodup_range (n := n.size))).imp_of_mem ?_
      intro v w hv hw hne e
      exact hne (h.addresses.distinct _ _ (List.mem_range.1 (List.mem_filter.1 hv).1) (List.mem_range.1 (List.mem_filter.1 hw).1) e)

/-- C81: from every state, tossing what is on its way comes to an end after finitely many runs, and
then no packet is left. -/
theorem net_completes (h : EchoNet n root parent depth m i a aka) {vs : List Nat} {s : NetSt} (hr : NetRun n root m vs s) :
    ∃ ws t, NetRun n root m (vs ++ ws) t ∧ t.mail = [] := by
  suffices ∀ k, ∀ vs s, NetRun n root m vs s → n.size - vs.length = k → ∃ ws t, NetRun n root m (vs ++ ws) t ∧ t.mail = [] from this _ vs s hr rfl
  intro k
  induction k with
  | zero =>
    intro vs s hr hk
    have := (net_bound h hr).2.2
    exact ⟨[], s, by simpa using hr, List.length_eq_zero_iff.1 (by omega)⟩
  | succ k ih =>
    intro vs s hr hk
    cases hm : s.mail with
    | nil => exact ⟨[], s, by simpa using hr, hm⟩
    | cons p l =>
      obtain ⟨v, s', -, -, -, hr'⟩ := net_progress h hr (p := p) (by rw [hm]; simp)
      obtain ⟨ws, t, h1, h2⟩ := ih _ _ hr' (by rw [List.length_append]; simp; omega)
      exact ⟨v :: ws, t, by simpa using h1, h2⟩

end

/-! ## A concrete case

Four systems in two zones; the message is posted at the first one. -/

namespace Ex

def ntAddr : Nat → Node4D
  | 0 => ⟨1, 2, 1, 0⟩
  | 1 => ⟨1, 2, 2, 0⟩
  | 2 => ⟨1, 2, 3, 0⟩
  | _ => ⟨2, 5, 7, 0⟩

def ntNb : Nat → List Nat
  | 0 => [1, 2]
  | 1 => [0]
  | 2 => [0, 3]
  | _ => [2]

def ntParent : Nat → Nat
  | 3 => 2
  | _ => 0

def ntDepth : Nat → Nat
  | 0 => 0
  | 3 => 2
  | _ => 1

def ntArea (v : Nat) : Area :=
  { tag := b!"Test", aka := some 0, base := some 0, tossNodes := (List.range (ntNb v).length).map fun k => ⟨k, 0⟩ }

def ntAka (v : Nat) : Aka := { node := ntAddr v }

def ntCfg (v : Nat) : Config where
  akas := [ntAka v]
  nodes := (ntNb v).map fun w => { node := ntAddr w, packetPW := b!"Secret", flags := 0 }
  areas := [area b!"OTHER" 0 [], ntArea v]
  flags := CFG_CHECKSEENBY
  dupeMode := 1
  dupeSize := 10
  nl := ⟨false, fun _ => 0, fun _ => 0⟩
  nlCheck := fun _ => true

def ntNet : Net :=
  { size := 4, addr := ntAddr, start := fun v => st (ntCfg v), env := fun _ => env, zone := fun _ => 1, af := fun _ _ => pure (), fuel := 1, maxSize := 0, date := ⟨2000, 0, 1, 0, 0, 0⟩, junk := List.replicate 14 0 }

def ntMsg : MemMsg :=
  { pktOrig := ntAddr 0, area := b!"TEST", flags := MMFLAG_EXPORTED, to := b!"All", frm := b!"Me", subject := b!"Re: news", date := b!"01 Jan 00  00:00:00", text := [1 :: b!"MSGID: 1:2/1 12345678\r", b!"hello\r"] }

theorem nt_lt {v : Nat} (h : v < ntNet.size) : v = 0 ∨ v = 1 ∨ v = 2 ∨ v = 3 := by
  have : v < 4 := h
  omega

theorem ntNet_ok : EchoNet ntNet 0 ntParent ntDepth ntMsg (fun _ => 1) ntArea ntAka where
  tree := ⟨by decide, by intro v hv hr; rcases nt_lt hv with rfl | rfl | rfl | rfl <;> revert hr <;> decide⟩
  addresses := ⟨by
      intro v w hv hw
      rcases nt_lt hv with rfl | rfl | rfl | rfl <;> rcases nt_lt hw with rfl | rfl | rfl | rfl <;> decide,
    by intro v hv; rcases nt_lt hv with rfl | rfl | rfl | rfl <;> decide,
    by intro v hv; rcases nt_lt hv with rfl | rfl | rfl | rfl <;> decide⟩
  passwords := by
    intro v w hvw nd hnd e nd' hnd'
    refine .inr ?_
    have h1 : nd.packetPW = b!"Secret" := by
      obtain ⟨_, -, rfl⟩ := List.mem_map.1 hnd
      rfl
    have h2 : nd'.packetPW = b!"Secret" := by
      have hnd' := List.mem_of_find?_eq_some hnd'
      obtain ⟨_, -, rfl⟩ := List.mem_map.1 hnd'
      rfl
    rw [h1, h2]
  part := by
    intro v hv
    refine ⟨?_, (by decide : ((0 : UInt8) &&& AREA_UNCONFIRMED != 0) = false), rfl, by simp [ntArea], rfl, rfl, ⟨rfl, rfl⟩, rfl, ?_, ?_, ?_, ?_, ?_, ?_, ⟨fun _ _ _ => rfl, fun _ _ _ => rfl⟩⟩
    · refine ⟨rfl, (by decide : b!"Test".map lower = b!"TEST".map lower), ?_⟩
      intro j hj b hb
      have : j = 0 := by omega
      subst this
      simp only [ntNet, st, ntCfg, List.getElem?_cons_zero, Option.some.injEq] at hb
      subst hb
      decide
    · intro t ht
      obtain ⟨k, hk, rfl⟩ := List.mem_map.1 ht
      have hk := List.mem_range.1 hk
      have hl : k < (ntNet.start v).cfg.nodes.length := by
        show k < ((ntNb v).map _).length
        rw [List.length_map]; exact hk
      exact ⟨_, List.getElem?_eq_getElem hl⟩
    · rcases nt_lt hv with rfl | rfl | rfl | rfl <;> decide
    · intro x
      have e : (links (ntNet.start v).cfg (ntArea v)).map (fun l => l.2.node) = (ntNb v).map ntAddr := by
        rcases nt_lt hv with rfl | rfl | rfl | rfl <;> decide
      have hn : ∀ w, w ∈ ntNb v ↔ Neighbour ntNet.size 0 ntParent v w := by
        intro w
        have : Neighbour ntNet.size 0 ntParent v w ↔ w < 4 ∧ ((v ≠ 0 ∧ w = ntParent v) ∨ (w ≠ 0 ∧ v = ntParent w)) :=
          ⟨fun h => h.2, fun h => ⟨hv, h⟩⟩
        rw [this]
        by_cases hw : w < ntNet.size
        · rcases nt_lt hv with rfl | rfl | rfl | rfl <;> rcases nt_lt hw with rfl | rfl | rfl | rfl <;> decide
        · refine ⟨fun h => absurd ?_ hw, fun h => absurd h.1 hw⟩
          show w < 4
          rcases nt_lt hv with rfl | rfl | rfl | rfl <;> simp [ntNb] at h <;> omega
      rw [e, List.mem_map]
      exact ⟨fun ⟨w, h1, h2⟩ => ⟨w, (hn w).1 h1, h2.symm⟩, fun ⟨w, h1, h2⟩ => ⟨w, (hn w).2 h1, h2.symm⟩⟩
    · rcases nt_lt hv with rfl | rfl | rfl | rfl <;> decide
    · intro k hk
      exact absurd hk.2.2 (by simp [ntNet, st])
    · exact .inr (.inr ⟨_, rfl⟩)
  posted := by
    refine ⟨by decide, rfl, rfl, rfl, ⟨by decide, by decide, by decide, by decide⟩, ⟨by decide, by decide, by decide, by decide, ⟨84, by decide, by decide⟩⟩, .inr (by decide), by decide, ?_⟩
    have e : pieces ntMsg.text.flatten = [1 :: b!"MSGID: 1:2/1 12345678\r", b!"hello\r"] := by decide +kernel
    rw [e]
    intro l hl
    simp only [List.mem_cons, List.not_mem_nil, or_false] at hl
    rcases hl with rfl | rfl <;>
      exact ⟨⟨by unfold SafeKludge; decide, by decide, by intro h; exact absurd h (by decide), by intro h; exact absurd h (by decide)⟩, by decide, by decide, by decide⟩
  buffer := rfl
  depth := by decide

/-- The message posted in this network comes to the other three systems, also to the one in the other
zone, two hops away. -/
theorem ntNet_reaches_all : ∃ vs s, NetRun ntNet 0 ntMsg vs s ∧ s.mail = [] ∧ vs.Perm [0, 1, 2, 3] ∧
    (∀ v ∈ [1, 2, 3], ∃ x, storedIn (newIn ntNet s v) = [(1, x)] ∧ x.text.flatten = ntMsg.text.flatten ∧ x.subject = b!"Re: news") ∧
    (allCopies ntNet s).Perm [⟨1, 2, 2, 0⟩, ⟨1, 2, 3, 0⟩, ⟨2, 5, 7, 0⟩] := by
  obtain ⟨s, h1⟩ := net_starts ntNet_ok
  obtain ⟨ws, t, h2, h3⟩ := net_completes ntNet_ok h1
  obtain ⟨p1, p2, -, p4⟩ := net_reaches_all ntNet_ok h2 h3
  refine ⟨_, t, h2, h3, p1, ?_, p4⟩
  intro v hv
  obtain ⟨x, x1, x2, x3⟩ := p2 v (by simp at hv; show v < 4; omega) (by simp at hv; omega)
  exact ⟨x, x1, x2.text, by rw [x3, if_neg (by show ¬ (CFG_CHECKSEENBY &&& CFG_STRIPRE != 0) = true; decide)]; rfl⟩

end Ex

end CM
