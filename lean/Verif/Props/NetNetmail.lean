import Verif.Lemmas.NetNetmail
import Verif.Lemmas.Example
/-!
# C82: a netmail travels along its route and is stored once at its destination
-/

set_option linter.unusedSimpArgs false

namespace CM

variable {n : Net} {m : MemMsg} {len i : Nat} {hop : Nat → Nat} {aka : Nat → Node4D} {a : Area}

/-- C82: the netmail can be posted. -/
theorem nm_starts (h : NmRoute n m len hop aka i a) : ∃ s, NetRun n (hop 0) m [hop 0] s := by
  obtain ⟨t, ps, h1, -⟩ := nm_step h (Nat.zero_le _) (travels_start h.posted)
  exact ⟨_, .post t ps h1⟩

/-- C82: in every run, the netmail has visited the systems of its route in order, each once, and as long
as it has not come to the end there is exactly one packet on its way, for the next system. -/
theorem nm_path (h : NmRoute n m len hop aka i a) {vs : List Nat} {s : NetSt} (hr : NetRun n (hop 0) m vs s) :
    vs = (List.range vs.length).map hop ∧ 0 < vs.length ∧ vs.length ≤ len + 1 ∧ vs.Nodup ∧
      (vs.length ≤ len → ∃ p, s.mail = [p] ∧ p.dest = n.addr (hop vs.length)) ∧ (vs.length = len + 1 → s.mail = []) := by
  obtain ⟨k, hi⟩ := nm_inv h hr
  have hl : vs.length = k + 1 := by rw [hi.visited]; simp
  have hle := hi.le
  have hleft := hi.left
  unfold NmLeft at hleft
  rw [hl]
  refine ⟨hi.visited, by omega, by omega, ?_, ?_, ?_⟩
  · rw [hi.visited, List.nodup_iff_pairwise_ne, List.pairwise_map]
    refine List.Pairwise.imp_of_mem ?_ (List.nodup_range (n := k + 1))
    intro x y hx hy hne e
    rw [List.mem_range] at hx hy
    exact hne (h.once x y (by omega) (by omega) e)
  · intro hk
    rw [if_pos (by omega)] at hleft
    obtain ⟨y, y1, -⟩ := hleft
    exact ⟨_, y1, rfl⟩
  · intro hk
    rw [if_neg (by omega)] at hleft
    exact hleft

/-- C82: the next system of the route can always toss the packet. -/
theorem nm_progress (h : NmRoute n m len hop aka i a) {vs : List Nat} {s : NetSt} (hr : NetRun n (hop 0) m vs s) (hl : vs.length ≤ len) :
    ∃ s', NetRun n (hop 0) m (vs ++ [hop vs.length]) s' := by
  obtain ⟨k, hi⟩ := nm_inv h hr
  have hl' : vs.length = k + 1 := by rw [hi.visited]; simp
  have hleft := hi.left
  unfold NmLeft at hleft
  rw [if_pos (by omega)] at hleft
  obtain ⟨y, y1, y2⟩ := hleft
  have hk : k < len := by omega
  obtain ⟨x, x1, x2⟩ := nm_arrives (v := hop k) (w := hop (k + 1)) h.buffer (h.addresses.zone _ (h.inside _ (by omega))) (h.own _ (by omega)) h.posted hk (h.forwards k hk) y2
  obtain ⟨t, ps, h1, -⟩ := nm_step h (k := k + 1) (by omega) x2
  have hnot : hop (k + 1) ∉ vs := by
    rw [hi.visited, mem_visited h.once (by omega) (by omega)]
    omega
  rw [hl']
  refine ⟨_, .toss vs s [] [] _ (hop (k + 1)) [x] t ps hr y1 (h.inside _ (by omega)) rfl ?_ ?_⟩
  · rw [hi.rest _ hnot]; exact x1
  · rw [hi.rest _ hnot]; exact h1

/-- C82: every run can be continued to the end of the route. -/
theorem nm_completes (h : NmRoute n m len hop aka i a) {vs : List Nat} {s : NetSt} (hr : NetRun n (hop 0) m vs s) :
    ∃ ws t, NetRun n (hop 0) m (vs ++ ws) t ∧ t.mail = [] := by
  suffices ∀ k, ∀ vs s, NetRun n (hop 0) m vs s → len + 1 - vs.length = k → ∃ ws t, NetRun n (hop 0) m (vs ++ ws) t ∧ t.mail = [] from this _ vs s hr rfl
  intro k
  induction k with
  | zero =>
    intro vs s hr hk
    obtain ⟨-, -, p3, -, -, p6⟩ := nm_path h hr
    exact ⟨[], s, by simpa using hr, p6 (by omega)⟩
  | succ k ih =>
    intro vs s hr hk
    obtain ⟨s', hs'⟩ := nm_progress h hr (by omega)
    obtain ⟨ws, t, h1, h2⟩ := ih _ s' hs' (by simp; omega)
    exact ⟨hop vs.length :: ws, t, by simpa using h1, h2⟩

/-- C82: while the netmail is on its way, no system has stored it. -/
theorem nm_not_before (h : NmRoute n m len hop aka i a) {vs : List Nat} {s : NetSt} (hr : NetRun n (hop 0) m vs s) (he : s.mail ≠ []) (v : Nat) :
    storedIn (newIn n s v) = [] := by
  obtain ⟨k, hi⟩ := nm_inv h hr
  have hleft := hi.left
  have hk : k < len := by
    apply Classical.byContradiction
    intro hk
    unfold NmLeft at hleft
    rw [if_neg hk] at hleft
    exact he hleft
  by_cases hv : v ∈ vs
  · rw [hi.visited] at hv
    obtain ⟨j, j1, rfl⟩ := List.mem_map.1 hv
    rw [List.mem_range] at j1
    have hd := hi.done j (by omega)
    unfold NmDone at hd
    rw [if_pos (by omega)] at hd
    obtain ⟨y, y1, -⟩ := hd
    unfold newIn
    rw [y1, List.drop_left]
    rfl
  · unfold newIn
    rw [hi.rest v hv, List.drop_length]
    rfl

/-- C82: when no packet is on its way any more, the netmail has visited the systems of its route in
order, each once; the last one has stored it once, with its words, its addresses and one Via line for
each system it has passed; no other system has stored it. -/
theorem nm_delivered (h : NmRoute n m len hop aka i a) {vs : List Nat} {s : NetSt} (hr : NetRun n (hop 0) m vs s) (he : s.mail = []) :
    vs = (List.range (len + 1)).map hop ∧
      (∃ x, storedIn (newIn n s (hop len)) = [(i, x)] ∧ StoredNetmail m len aka x ∧
        x.subject = if (n.start (hop len)).cfg.has CFG_STRIPRE then stripRe (stripRe m.subject) else m.subject) ∧
      ∀ v, v ≠ hop len → storedIn (newIn n s v) = [] := by
  obtain ⟨k, hi⟩ := nm_inv h hr
  have hleft := hi.left
  have hk : k = len := by
    apply Classical.byContradiction
    intro hk
    have := hi.le
    unfold NmLeft at hleft
    rw [if_pos (by omega)] at hleft
    obtain ⟨y, y1, -⟩ := hleft
    rw [he] at y1
    cases y1
  subst hk
  refine ⟨hi.visited, ?_, ?_⟩
  · have hd := hi.done k (Nat.le_refl _)
    unfold NmDone at hd
    rw [if_neg (Nat.lt_irrefl _)] at hd
    obtain ⟨y, y1, y2, y3⟩ := hd
    refine ⟨y, ?_, y2, y3⟩
    unfold newIn
    rw [y1, List.drop_left]
    rfl
  · intro v hvl
    by_cases hv : v ∈ vs
    · rw [hi.visited] at hv
      obtain ⟨j, j1, rfl⟩ := List.mem_map.1 hv
      rw [List.mem_range] at j1
      have hjk : j ≠ k := fun e => hvl (by rw [e])
      have hd := hi.done j (by omega)
      unfold NmDone at hd
      rw [if_pos (by omega)] at hd
      obtain ⟨y, y1, -⟩ := hd
      unfold newIn
      rw [y1, List.drop_left]
      rfl
    · unfold newIn
      rw [hi.rest v hv, List.drop_length]
      rfl

/-! ## A concrete network

The point 1:2/3.4, its boss 1:2/3 and the node 2:5/7. -/

namespace Ex

def nmAddr : Nat → Node4D
  | 0 => ⟨1, 2, 3, 4⟩
  | 1 => ⟨1, 2, 3, 0⟩
  | _ => ⟨2, 5, 7, 0⟩

def nmNb : Nat → List Nat
  | 0 => [1]
  | 1 => [0, 2]
  | _ => [1]

def nmRoutes : Nat → List Route
  | 0 => [⟨⟨.pattern, b!"*", b!"*", b!"*", b!"*"⟩, ⟨.pattern, b!"1", b!"2", b!"3", b!"0"⟩, ⟨1, 2, 3, 4⟩⟩]
  | _ => [⟨⟨.pattern, b!"2", b!"*", b!"*", b!"*"⟩, ⟨.node, [], [], [], []⟩, ⟨1, 2, 3, 0⟩⟩]

def nmArea : Area := { tag := b!"MAIL", type := .netmail, aka := some 0, base := some 0 }

def nmCfg (v : Nat) : Config where
  akas := [{ node := nmAddr v }]
  nodes := (nmNb v).map fun w => { node := nmAddr w, packetPW := b!"Secret", flags := 0 }
  areas := [area b!"TEST" 0 [], nmArea]
  routes := nmRoutes v
  flags := CFG_BOUNCEPOINTS
  loopMode := 1
  dupeSize := 10
  areafixNames := [b!"AreaFix"]
  nl := ⟨false, fun _ => 0, fun _ => 0⟩
  nlCheck := fun _ => true

def nmNet : Net :=
  { size := 3, addr := nmAddr, start := fun v => st (nmCfg v), env := fun _ => env, zone := fun _ => 1, af := fun _ _ => pure (), fuel := 1, maxSize := 0, date := ⟨2000, 0, 1, 0, 0, 0⟩, junk := List.replicate 14 0 }

def nmMsg : MemMsg :=
  { orig := nmAddr 0, dest := nmAddr 2, flags := MMFLAG_EXPORTED, to := b!"You", frm := b!"Me", subject := b!"Re: news", date := b!"01 Jan 00  00:00:00", attr := FLAG_PVT
    text := [1 :: b!"FMPT 4\r", 1 :: b!"INTL 2:5/7 1:2/3\r", 1 :: b!"MSGID: 1:2/3.4 12345678\r", b!"hello\r"] }

theorem nm_le {k : Nat} (h : k ≤ 2) : k = 0 ∨ k = 1 ∨ k = 2 := by omega

theorem nmForwards (k : Nat) (hk : k < 2) : Forwards nmNet nmMsg k (k + 1) (nmAddr k) := by
  have hk : k = 0 ∨ k = 1 := by omega
  rcases hk with rfl | rfl
  · refine ⟨rfl, by decide, by decide, rfl, by decide, ⟨.normal, by decide⟩, .inl rfl, ?_, ?_, ?_, by decide, ?_, fun _ _ _ => rfl⟩
    · right; decide
    · intro nd hnd
      have hnd := List.mem_of_find?_eq_some hnd
      obtain ⟨_, -, rfl⟩ := List.mem_map.1 hnd
      exact ⟨(by decide : ((0 : UInt32) &&& NODE_PKTFROM != 0) = false), (by decide : (0 : UInt8) ∉ b!"Secret"), (by decide : b!"Secret".length ≤ 8)⟩
    · intro nd' hnd'
      have hnd' := List.mem_of_find?_eq_some hnd'
      obtain ⟨_, -, rfl⟩ := List.mem_map.1 hnd'
      exact .inr ⟨{ node := nmAddr 1, packetPW := b!"Secret", flags := 0 }, rfl, by decide, rfl⟩
    · intro log
      unfold TimeText
      exact (by decide : b!"20000101.000000".length ≤ 40 ∧ (0 : UInt8) ∉ b!"20000101.000000" ∧ (10 : UInt8) ∉ b!"20000101.000000" ∧ (13 : UInt8) ∉ b!"20000101.000000")
  · refine ⟨rfl, by decide, by decide, rfl, by decide, ⟨.normal, by decide⟩, .inl rfl, ?_, ?_, ?_, by decide, ?_, fun _ _ _ => rfl⟩
    · right; decide
    · intro nd hnd
      have hnd := List.mem_of_find?_eq_some hnd
      obtain ⟨_, -, rfl⟩ := List.mem_map.1 hnd
      exact ⟨(by decide : ((0 : UInt32) &&& NODE_PKTFROM != 0) = false), (by decide : (0 : UInt8) ∉ b!"Secret"), (by decide : b!"Secret".length ≤ 8)⟩
    · intro nd' hnd'
      have hnd' := List.mem_of_find?_eq_some hnd'
      obtain ⟨_, -, rfl⟩ := List.mem_map.1 hnd'
      exact .inr ⟨{ node := nmAddr 2, packetPW := b!"Secret", flags := 0 }, rfl, by decide, rfl⟩
    · intro log
      unfold TimeText
      exact (by decide : b!"20000101.000000".length ≤ 40 ∧ (0 : UInt8) ∉ b!"20000101.000000" ∧ (10 : UInt8) ∉ b!"20000101.000000" ∧ (13 : UInt8) ∉ b!"20000101.000000")

theorem nmReceives : Receives nmNet nmMsg 2 1 nmArea := by
  refine ⟨rfl, rfl, .inl ⟨⟨rfl, .inl ⟨_, rfl, by decide⟩⟩, ?_⟩, by simp [nmArea], by decide, fun _ _ _ => rfl⟩
  intro j b hj hb
  have : j = 0 := by omega
  subst this
  simp only [nmNet, st, nmCfg, List.getElem?_cons_zero, Option.some.injEq] at hb
  subst hb
  intro h
  exact absurd h.1 (by decide)

theorem nmPosted : PostedNetmail nmMsg 2 nmAddr := by
  refine ⟨rfl, by decide, by decide, by decide, ⟨by unfold NoNul; decide, by unfold NoNul; decide, by unfold NoNul; decide, by unfold NoNul; decide⟩, by decide, rfl, rfl, ⟨?_, by decide⟩, ?_, by unfold NoNul; decide, by decide, ?_, ?_⟩
  · unfold TextOK
    refine ⟨by decide, ?_⟩
    unfold LineEnd
    decide
  · exact shortLines_short (by decide)
  · refine ⟨false, 1 :: b!"MSGID: 1:2/3.4 12345678\rhello\r", by decide, ?_, .inl (.inl (by decide))⟩
    have : ∀ l ∈ pieces (1 :: b!"MSGID: 1:2/3.4 12345678\rhello\r"), (l.head? = some 1 → 8 ≤ l.length) ∧ ¬ ((1 :: b!"FMPT") <+: l ∨ (1 :: b!"TOPT") <+: l ∨ (1 :: b!"INTL") <+: l) ∧ ¬ (1 :: b!"RESCANNED") <+: l := by decide
    intro l hl
    obtain ⟨h1, h2, h3⟩ := this l hl
    exact ⟨fun h => .inl (h1 h), h2, h3⟩
  · exact ⟨1 :: b!"FMPT 4\r" ++ 1 :: b!"INTL 2:5/7 1:2/3\r" ++ 1 :: b!"MSGID: 1:2/3.4 12345678\r", b!"hello\r", by decide, .inr (by decide), by decide, by decide⟩

theorem nmNet_ok : NmRoute nmNet nmMsg 2 id nmAddr 1 nmArea where
  inside := by intro k hk; exact Nat.lt_succ_of_le hk
  once := fun _ _ _ _ e => e
  addresses := ⟨by
      intro v w hv hw
      rcases nm_le (Nat.le_of_lt_succ hv) with rfl | rfl | rfl <;> rcases nm_le (Nat.le_of_lt_succ hw) with rfl | rfl | rfl <;> decide,
    by intro v hv; rcases nm_le (Nat.le_of_lt_succ hv) with rfl | rfl | rfl <;> decide,
    by intro v hv; rcases nm_le (Nat.le_of_lt_succ hv) with rfl | rfl | rfl <;> decide⟩
  own := by intro k hk; exact ⟨_, List.mem_singleton_self _, rfl⟩
  forwards := nmForwards
  receives := nmReceives
  posted := nmPosted
  buffer := rfl
  depth := Nat.one_pos

/-- The netmail of the point comes to 2:5/7, with two Via lines. -/
theorem nmNet_delivers : ∃ s, NetRun nmNet 0 nmMsg [0, 1, 2] s ∧ s.mail = [] ∧
    ∃ x, storedIn (newIn nmNet s 2) = [(1, x)] ∧ StoredNetmail nmMsg 2 nmAddr x ∧ x.subject = b!"Re: news" := by
  obtain ⟨s, hs⟩ := nm_starts nmNet_ok
  obtain ⟨ws, t, h1, h2⟩ := nm_completes nmNet_ok hs
  obtain ⟨e1, ⟨x, x1, x2, x3⟩, -⟩ := nm_delivered nmNet_ok h1 h2
  rw [e1] at h1
  exact ⟨t, h1, h2, x, x1, x2, x3⟩

end Ex

end CM
