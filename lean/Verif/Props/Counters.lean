import Verif.Spec.Counters
import Verif.Props.Node4D

/-! # The counters of the nodes (C116) -/

set_option linter.unusedSimpArgs false

namespace CM

theorem countSize_eq (chunks : List Str) : countSize chunks = UInt32.ofNat (textSize chunks) := by
  have : ∀ (l : List Str) (s : UInt32), l.foldl (fun s c => s + UInt32.ofNat c.length) s = s + UInt32.ofNat (textSize l) := by
    intro l
    induction l with
    | nil => intro s; simp [textSize]
    | cons c r ih =>
      intro s
      rw [List.foldl_cons, ih]
      unfold textSize
      rw [List.map_cons, List.sum_cons, UInt32.ofNat_add, UInt32.add_assoc]
  unfold countSize
  rw [this, UInt32.zero_add]

theorem sameNode {a b : Node4D} (ha : a.zone ≠ 0) (hb : b.zone ≠ 0) : (compare4D a b == 0) = decide (a = b) := by
  have := compare4D_eq_zero_iff a b
  by_cases h : a = b
  · subst h; simp [this]
  · rw [decide_eq_false h, beq_eq_false_iff_ne]
    intro hc
    obtain ⟨h1, h2, h3, h4⟩ := this.1 hc
    apply h
    cases a; cases b
    simp_all

theorem bumpNode_get {ns : List NodeStat} (hn : NodesApart ns) {a : Node4D} (ha : a.zone ≠ 0) (f : NodeStat → NodeStat) (k : Nat) (n : NodeStat)
    (hk : ns[k]? = some n) : (bumpNode ns a f)[k]? = some (if n.node = a then f n else n) := by
  unfold bumpNode
  have hp : ∀ m ∈ ns, (compare4D m.node a == 0) = decide (m.node = a) := fun m hm => sameNode (hn.2 m hm) ha
  cases hf : ns.findIdx? fun n => compare4D n.node a == 0 with
  | none =>
    rw [List.findIdx?_eq_none_iff] at hf
    have hm := List.mem_of_getElem? hk
    have := hf n hm
    rw [hp n hm] at this
    rw [if_neg (of_decide_eq_false this)]
    exact hk
  | some i =>
    obtain ⟨hi, h1, -⟩ := List.findIdx?_eq_some_iff_getElem.1 hf
    rw [hp _ (List.getElem_mem hi)] at h1
    have h1 := of_decide_eq_true h1
    dsimp only
    rw [List.getElem?_modify, hk]
    show some (if i = k then f n else n) = _
    by_cases h : i = k
    · subst h
      obtain ⟨hi', e⟩ := List.getElem?_eq_some_iff.1 hk
      rw [if_pos rfl, if_pos (by rw [← e]; exact h1)]
    · rw [if_neg h, if_neg]
      · intro h2
        obtain ⟨hk', e⟩ := List.getElem?_eq_some_iff.1 hk
        apply h
        have hd := hn.1
        have hx : (ns.map (·.node))[i]? = (ns.map (·.node))[k]? := by
          rw [List.getElem?_map, List.getElem?_map, hk, List.getElem?_eq_getElem hi]
          exact congrArg some (h1.trans h2.symm)
        exact (List.getElem?_inj (by rw [List.length_map]; exact hi) hd).1 hx

theorem modify_nodes (ns : List NodeStat) (i : Nat) (f : NodeStat → NodeStat) (hf : ∀ n, (f n).node = n.node) : (ns.modify i f).map (·.node) = ns.map (·.node) := by
  apply List.ext_getElem?
  intro k
  rw [List.getElem?_map, List.getElem?_map, List.getElem?_modify]
  cases ns[k]? with
  | none => rfl
  | some n =>
    show some (if i = k then f n else n).node = some n.node
    split
    · rw [hf]
    · rfl

theorem bumpNode_nodes (ns : List NodeStat) (a : Node4D) (f : NodeStat → NodeStat) (hf : ∀ n, (f n).node = n.node) : (bumpNode ns a f).map (·.node) = ns.map (·.node) := by
  unfold bumpNode
  split
  · rfl
  · exact modify_nodes ns _ f hf

theorem NodesApart.of_nodes {ns ns' : List NodeStat} (h : NodesApart ns) (e : ns'.map (·.node) = ns.map (·.node)) : NodesApart ns' := by
  refine ⟨by rw [e]; exact h.1, fun n hn => ?_⟩
  have : n.node ∈ ns.map (·.node) := by rw [← e]; exact List.mem_map.2 ⟨n, hn, rfl⟩
  obtain ⟨m, hm, e⟩ := List.mem_map.1 this
  rw [← e]
  exact h.2 m hm

theorem countEvent_nodes (ns : List NodeStat) (e : CountEvent) : (countEvent ns e).map (·.node) = ns.map (·.node) := by
  cases e with
  | read orig area chunks =>
    have h1 : (countRead ns orig area chunks).map (·.node) = ns.map (·.node) := bumpNode_nodes _ _ _ (fun n => by split <;> rfl)
    simp only [countEvent]
    split
    · unfold countHandled
      rw [if_pos rfl]
      refine Eq.trans (bumpNode_nodes _ _ _ ?_) h1
      intro n; rfl
    · exact h1
  | handled orig area chunks => simp [countEvent, countHandled]
  | duplicate orig => exact bumpNode_nodes _ _ _ (fun n => rfl)
  | sentEcho i chunks => exact modify_nodes _ _ _ (fun n => rfl)
  | sentNet dest chunks => exact bumpNode_nodes _ _ _ (fun n => rfl)

/-- What is counted for the node in place `k`: netmails count twice. -/
def countedTwice (k : Nat) (es : List CountEvent) (n : NodeStat) : NodeStat :=
  { countedRightly k es n with
    gotNetmails := n.gotNetmails + UInt32.ofNat (2 * (netFrom n.node es).length)
    gotNetmailBytes := n.gotNetmailBytes + UInt32.ofNat (2 * sizeAll (netFrom n.node es)) }

theorem countEvent_get {ns : List NodeStat} (hn : NodesApart ns) (e : CountEvent) (he : e.Zoned) (k : Nat) (n : NodeStat) (hk : ns[k]? = some n) :
    (countEvent ns e)[k]? = some (countedTwice k [e] n) := by
  have z : ∀ x : UInt32, x + UInt32.ofNat 0 = x := fun x => by simp
  cases e with
  | read orig area chunks =>
    have h1 := bumpNode_get hn he (fun n =>
      if area ≠ [] then { n with gotEchomails := n.gotEchomails + 1, gotEchomailBytes := n.gotEchomailBytes + countSize chunks }
      else { n with gotNetmails := n.gotNetmails + 1, gotNetmailBytes := n.gotNetmailBytes + countSize chunks }) k n hk
    have hn1 : NodesApart (countRead ns orig area chunks) := hn.of_nodes (bumpNode_nodes _ _ _ (fun n => by split <;> rfl))
    simp only [countEvent]
    by_cases ha : area = []
    · rw [if_pos ha]
      unfold countHandled
      rw [if_pos rfl, bumpNode_get hn1 he _ k _ h1]
      by_cases hs : n.node = orig
      · simp [hs, ha, countedTwice, countedRightly, netFrom, netTo, echoFrom, echoTo, dupesFrom, sizeAll, countSize_eq, Nat.two_mul, UInt32.ofNat_add, UInt32.add_assoc]
      · simp [hs, Ne.symm hs, ha, countedTwice, countedRightly, netFrom, netTo, echoFrom, echoTo, dupesFrom, sizeAll]
    · rw [if_neg ha]
      unfold countRead
      rw [h1]
      by_cases hs : n.node = orig
      · simp [hs, ha, countedTwice, countedRightly, netFrom, netTo, echoFrom, echoTo, dupesFrom, sizeAll, countSize_eq]
      · simp [hs, Ne.symm hs, ha, countedTwice, countedRightly, netFrom, netTo, echoFrom, echoTo, dupesFrom, sizeAll]
  | handled orig area chunks =>
    simp [countEvent, countHandled, hk, countedTwice, countedRightly, netFrom, netTo, echoFrom, echoTo, dupesFrom, sizeAll]
  | duplicate orig =>
    simp only [countEvent]
    rw [bumpNode_get hn he _ k n hk]
    by_cases hs : n.node = orig
    · simp [hs, countedTwice, countedRightly, netFrom, netTo, echoFrom, echoTo, dupesFrom, sizeAll]
    · simp [hs, Ne.symm hs, countedTwice, countedRightly, netFrom, netTo, echoFrom, echoTo, dupesFrom, sizeAll]
  | sentEcho i chunks =>
    simp only [countEvent]
    rw [List.getElem?_modify, hk]
    by_cases hs : i = k
    · simp [hs, countedTwice, countedRightly, netFrom, netTo, echoFrom, echoTo, dupesFrom, sizeAll, countSize_eq]
    · simp [hs, countedTwice, countedRightly, netFrom, netTo, echoFrom, echoTo, dupesFrom, sizeAll]
  | sentNet dest chunks =>
    simp only [countEvent]
    rw [bumpNode_get hn he _ k n hk]
    by_cases hs : n.node = dest
    · simp [hs, countedTwice, countedRightly, netFrom, netTo, echoFrom, echoTo, dupesFrom, sizeAll, countSize_eq]
    · simp [hs, Ne.symm hs, countedTwice, countedRightly, netFrom, netTo, echoFrom, echoTo, dupesFrom, sizeAll]

theorem countedTwice_cons (k : Nat) (e : CountEvent) (es : List CountEvent) (n : NodeStat) :
    countedTwice k es (countedTwice k [e] n) = countedTwice k (e :: es) n := by
  have hc : ∀ {α : Type} (f : CountEvent → Option α), (e :: es).filterMap f = [e].filterMap f ++ es.filterMap f := fun f => by
    rw [show e :: es = [e] ++ es from rfl, List.filterMap_append]
  have hnode : (countedTwice k [e] n).node = n.node := rfl
  have hs : ∀ a b, sizeAll (a ++ b) = sizeAll a + sizeAll b := fun a b => by simp [sizeAll]
  have h1 : netFrom n.node (e :: es) = netFrom n.node [e] ++ netFrom n.node es := hc _
  have h2 : netTo n.node (e :: es) = netTo n.node [e] ++ netTo n.node es := hc _
  have h3 : echoFrom n.node (e :: es) = echoFrom n.node [e] ++ echoFrom n.node es := hc _
  have h4 : echoTo k (e :: es) = echoTo k [e] ++ echoTo k es := hc _
  have h5 : dupesFrom n.node (e :: es) = dupesFrom n.node [e] ++ dupesFrom n.node es := hc _
  simp only [countedTwice, countedRightly, h1, h2, h3, h4, h5, hs, List.length_append, Nat.mul_add, UInt32.ofNat_add, UInt32.add_assoc]

/-- C116. After any run, all counters of every node are right, except those of received netmails, which count every netmail twice. -/
theorem counters_partial (ns : List NodeStat) (hn : NodesApart ns) (es : List CountEvent) (he : ∀ e ∈ es, e.Zoned) (k : Nat) (n : NodeStat)
    (hk : ns[k]? = some n) :
    ∃ n', (countRun ns es)[k]? = some n' ∧
      n' = { countedRightly k es n with gotNetmails := n'.gotNetmails, gotNetmailBytes := n'.gotNetmailBytes } ∧
      n'.gotNetmails = n.gotNetmails + UInt32.ofNat (2 * (netFrom n.node es).length) ∧
      n'.gotNetmailBytes = n.gotNetmailBytes + UInt32.ofNat (2 * sizeAll (netFrom n.node es)) := by
  suffices h : (countRun ns es)[k]? = some (countedTwice k es n) by exact ⟨_, h, rfl, rfl, rfl⟩
  induction es generalizing ns n with
  | nil => simp [countRun, hk, countedTwice, countedRightly, netFrom, netTo, echoFrom, echoTo, dupesFrom, sizeAll]
  | cons e r ih =>
    have h1 := countEvent_get hn e (he e (List.mem_cons_self ..)) k n hk
    have := ih (countEvent ns e) (hn.of_nodes (countEvent_nodes ns e)) (fun x hx => he x (List.mem_cons_of_mem _ hx)) _ h1
    rw [countedTwice_cons] at this
    exact this

/-- So the counters are right, all of them, exactly if the number of received netmails and their size are multiples of
2^32, which means in practice that there was none. -/
theorem counters_right_iff (ns : List NodeStat) (hn : NodesApart ns) (es : List CountEvent) (he : ∀ e ∈ es, e.Zoned) (k : Nat) (n : NodeStat)
    (hk : ns[k]? = some n) :
    (countRun ns es)[k]? = some (countedRightly k es n) ↔
      (netFrom n.node es).length % 2 ^ 32 = 0 ∧ sizeAll (netFrom n.node es) % 2 ^ 32 = 0 := by
  obtain ⟨n', h1, h2, h3, h4⟩ := counters_partial ns hn es he k n hk
  have key : ∀ (x : UInt32) (m : Nat), x + UInt32.ofNat (2 * m) = x + UInt32.ofNat m ↔ m % 2 ^ 32 = 0 := by
    intro x m
    rw [← UInt32.toNat_inj, UInt32.toNat_add, UInt32.toNat_add, UInt32.toNat_ofNat', UInt32.toNat_ofNat']
    omega
  rw [h1, ← key n.gotNetmails, ← key n.gotNetmailBytes, ← h3, ← h4, Option.some_inj]
  constructor
  · intro h; rw [h]; exact ⟨rfl, rfl⟩
  · rintro ⟨e1, e2⟩
    rw [h2, e1, e2]
    rfl

namespace Ex

def countNodes : List NodeStat := [{ node := ⟨2, 5030, 1559, 0⟩, gotNetmails := 10 }, { node := ⟨2, 5030, 1559, 7⟩ }]

def countEvents : List CountEvent :=
  [.read ⟨2, 5030, 1559, 7⟩ [] [b!"Hello", b!"you"], .read ⟨2, 5030, 1559, 7⟩ b!"FIDONET.RU" [b!"echo"], .duplicate ⟨2, 5030, 1559, 7⟩,
   .sentEcho 0 [b!"echo"], .sentNet ⟨2, 5030, 1559, 0⟩ [b!"Hello", b!"you"], .read ⟨2, 5020, 1, 0⟩ [] [b!"x"]]

example : NodesApart countNodes ∧ ∀ e ∈ countEvents, e.Zoned := by
  refine ⟨⟨by decide, by decide⟩, ?_⟩
  intro e he
  simp only [countEvents, List.mem_cons, List.not_mem_nil, or_false] at he
  rcases he with rfl | rfl | rfl | rfl | rfl | rfl <;> simp [CountEvent.Zoned]

/-- C116 (violated). One netmail with 8 bytes is counted as two with 16 bytes. -/
theorem netmail_counted_twice : (countRun countNodes countEvents)[1]? = some
    { node := ⟨2, 5030, 1559, 7⟩, gotNetmails := 2, gotNetmailBytes := 16, gotEchomails := 1, gotEchomailBytes := 4, dupes := 1 } := by decide +kernel

/-- A node that is configured without zone gets the counts of a node of the same number in another zone. -/
theorem zone_counted : (countRun [{ node := ⟨0, 5030, 1559, 0⟩ }, { node := ⟨3, 5030, 1559, 0⟩ }] [.read ⟨3, 5030, 1559, 0⟩ b!"A" [b!"x"]])[1]? =
    some { node := ⟨3, 5030, 1559, 0⟩ } := by decide +kernel

end Ex

end CM
