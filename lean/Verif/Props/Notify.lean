import Verif.Lemmas.Notify
import Verif.Lemmas.Nodelist
/-!
# Sending lists and texts on command, and removing areas

C103.
-/

set_option linter.unusedSimpArgs false
namespace CM

/-- C103. A list or text sent on command: to all nodes that want to be notified, in the order in which they are configured, or to
the first node with the address given. Nodes that no route leads to get nothing. If there is no such node nothing happens. Each
message is a list of exactly the areas of that node, the whole help file, or the description of what is configured for it; it is
addressed to its operator. The configuration stays as it is. -/
theorem notify_sent (env : Env) (af : (MemMsg → M Unit) → MemMsg → M Unit) (k : Nat) (kind : SendKind) (arg : Str) (s t : HSt) (b : Bool)
    (h : sendAFList env (handleMessage env af k) kind arg s = .ok b t) :
    t.cfg = s.cfg ∧
    (arg.map lower = b!"all" → b = true ∧ Notified env (handleMessage env af k) s.cfg kind (notifyNodes s.cfg) s t) ∧
    (arg.map lower ≠ b!"all" → (b = true ∧ ∃ d i n, parse4D arg = some d ∧ s.cfg.nodes[i]? = some n ∧ SameAddr n.node d ∧
        (∀ j x, j < i → s.cfg.nodes[j]? = some x → ¬ SameAddr x.node d) ∧ Notified env (handleMessage env af k) s.cfg kind [i] s t) ∨
      (b = false ∧ t = s ∧ ∀ d, parse4D arg = some d → ∀ x ∈ s.cfg.nodes, ¬ SameAddr x.node d)) := by
  unfold sendAFList at h
  rw [get_bind] at h
  have hall : eqi arg b!"ALL" = true ↔ arg.map lower = b!"all" := eqi_iff _ _
  by_cases ha : eqi arg b!"ALL" = true
  · rw [if_pos ha, bind_ok] at h
    obtain ⟨_, u, h1, h⟩ := h
    cases h
    obtain ⟨e, hn⟩ := sendEach_notified (fun i hi => by simpa using hi) h1
    exact ⟨e, fun _ => ⟨rfl, hn⟩, fun hx => absurd (hall.1 ha) hx⟩
  · rw [if_neg ha] at h
    have hne : arg.map lower ≠ b!"all" := fun hx => ha (hall.2 hx)
    cases hp : parse4D arg with
    | none =>
      rw [hp] at h
      cases h
      exact ⟨rfl, fun hx => absurd hx hne, fun _ => .inr ⟨rfl, rfl, fun d hd => by cases hd⟩⟩
    | some d =>
      rw [hp] at h
      dsimp only at h
      cases hi : s.cfg.nodes.findIdx? fun n => compare4D n.node d == 0 with
      | none =>
        rw [hi] at h
        cases h
        refine ⟨rfl, fun hx => absurd hx hne, fun _ => .inr ⟨rfl, rfl, fun d' hd x hx hs => ?_⟩⟩
        cases hd
        have := List.findIdx?_eq_none_iff.1 hi x hx
        rw [(compare4D_beq _ _).2 hs] at this
        cases this
      | some i =>
        rw [hi] at h
        dsimp only at h
        rw [bind_ok] at h
        obtain ⟨_, u, h1, h⟩ := h
        cases h
        obtain ⟨hl, hs, hf⟩ := List.findIdx?_eq_some_iff_getElem.1 hi
        obtain ⟨e, hn⟩ := doSendAF_notified h1
        refine ⟨e, fun hx => absurd hx hne, fun _ => .inl ⟨rfl, d, i, _, rfl, List.getElem?_eq_getElem hl, (compare4D_beq _ _).1 hs,
          fun j x hj hx hsx => ?_, hn _ _ (.nil _)⟩⟩
        obtain ⟨hjl, rfl⟩ := List.getElem?_eq_some_iff.1 hx
        exact hf j hj ((compare4D_beq _ _).2 hsx)

theorem modify_filter_live (as : List Area) (i : Nat) (hi : i < as.length) (h : ∀ a ∈ as, a.type ≠ .deleted) :
    ((as.modify i fun a => { a with type := .deleted }).filter fun a => decide (a.type ≠ .deleted)) = as.eraseIdx i ∧
    ((as.modify i fun a => { a with type := .deleted }).any fun a => decide (a.type = .deleted)) = true := by
  induction as generalizing i with
  | nil => simp at hi
  | cons a as ih =>
    have hr : ∀ x ∈ as, x.type ≠ .deleted := fun x hx => h x (List.mem_cons_of_mem _ hx)
    cases i with
    | zero =>
      refine ⟨?_, by simp⟩
      simp only [List.modify_zero_cons, List.eraseIdx_zero, List.tail_cons]
      rw [List.filter_cons_of_neg (by simp), List.filter_eq_self]
      intro x hx
      simpa using hr x hx
    | succ i =>
      obtain ⟨e1, e2⟩ := ih i (by simpa using hi) hr
      rw [List.modify_succ_cons, List.filter_cons_of_pos (by simpa using h a (by simp)), e1, List.any_cons, e2]
      exact ⟨rfl, by simp⟩

/-- C103. The removal of an area on command: the first echomail area of that name is taken out of the configuration, which is marked
as changed; all other areas stay as they are and in order; the links of the area are told as they want it, and no one else. If there
is no echomail area of that name, nothing happens (and no error is returned). -/
theorem area_removed (env : Env) (af : (MemMsg → M Unit) → MemMsg → M Unit) (k : Nat) (name : Str) (s t : HSt) (b : Bool)
    (hlive : ∀ a ∈ s.cfg.areas, a.type ≠ .deleted ∧ a.tag.length < 80)
    (h : removeAreaCmd env (handleMessage env af k) name s = .ok b t) :
    b = true ∧
    ((t = s ∧ ∀ a ∈ s.cfg.areas, a.type = .echomail → name.map lower ≠ a.tag.map lower) ∨
     ∃ i a ms u, s.cfg.areas[i]? = some a ∧ a.type = .echomail ∧ name.map lower = a.tag.map lower ∧
      (∀ j x, j < i → s.cfg.areas[j]? = some x → x.type = .echomail → name.map lower ≠ x.tag.map lower) ∧
      Sends (handleMessage env af k) s ms u ∧
      RemovalTold s.cfg ((a.aka.bind (s.cfg.akas[·]?)).map (·.node)) a.tag a.tossNodes ms ∧
      t = { u with cfg := { s.cfg with areas := s.cfg.areas.eraseIdx i, changed := true } }) := by
  have hs := handleMessage_settled env af k
  unfold removeAreaCmd at h
  rw [get_bind] at h
  have hp : ∀ a : Area, (a.type == .echomail && eqi name a.tag) = true ↔ a.type = .echomail ∧ name.map lower = a.tag.map lower := by
    intro a
    rw [Bool.and_eq_true, eqi_iff, beq_iff_eq]
  cases hi : s.cfg.areas.findIdx? fun a => a.type == .echomail && eqi name a.tag with
  | none =>
    rw [hi] at h
    cases h
    refine ⟨rfl, .inl ⟨rfl, fun a ha he hn => ?_⟩⟩
    have := List.findIdx?_eq_none_iff.1 hi a ha
    rw [(hp a).2 ⟨he, hn⟩] at this
    cases this
  | some i =>
    obtain ⟨hl, hm, hf⟩ := List.findIdx?_eq_some_iff_getElem.1 hi
    have hg := List.getElem?_eq_getElem hl
    rw [hi] at h
    dsimp only at h
    rw [hg] at h
    dsimp only at h
    have hin := List.getElem_mem hl
    generalize s.cfg.areas[i] = a at hm hg h hin
    rw [bind_ok] at h
    obtain ⟨_, u, h1, h⟩ := h
    obtain ⟨ms, k1, k2⟩ := sendRemove_told hs (hlive a hin).2 h1
    have hc := ((sendRemove_calm hs env _ _ _ s).1 _ _ h1).1
    cases h
    obtain ⟨e1, e2⟩ := modify_filter_live s.cfg.areas i hl fun x hx => (hlive x hx).1
    refine ⟨rfl, .inr ⟨i, a, ms, u, hg, ((hp a).1 hm).1, ((hp a).1 hm).2, fun j x hj hx hxe hxn => ?_, k1, k2, ?_⟩⟩
    · obtain ⟨hjl, rfl⟩ := List.getElem?_eq_some_iff.1 hx
      exact hf j hj ((hp _).2 ⟨hxe, hxn⟩)
    · dsimp only
      rw [hc, e1, e2, Bool.or_true]

/-- C103. The help file reaches the reader as it is, if all lines end with a line feed and have at most 98 characters. -/
theorem help_exact_partial (ls : List Str) (hl : ∀ l ∈ ls, NlText l ∧ l.length ≤ 98 ∧ l.getLast? ≠ some 13) :
    (helpRead (ls.flatMap (· ++ [10]))).map List.dropLast = ls := by
  have key : ∀ (n : Nat) (ls : List Str), (∀ l ∈ ls, NlText l ∧ l.length ≤ 98 ∧ l.getLast? ≠ some 13) →
      (ls.flatMap (· ++ [10])).length ≤ n → (fileLines 100 n (ls.flatMap (· ++ [10]))).map List.dropLast = ls := by
    intro n ls
    induction ls generalizing n with
    | nil => intro _ _; cases n <;> rfl
    | cons l ls ih =>
      intro hl hn
      obtain ⟨h1, h2, h3⟩ := hl l (by simp)
      cases n with
      | zero => simp at hn
      | succ n =>
        rw [List.flatMap_cons, List.append_assoc, List.singleton_append, fileLines, osFGets_line l _ 100 h1 (by omega), if_neg h3]
        dsimp only
        rw [if_neg (by simp), List.map_cons, List.dropLast_concat,
          ih n (fun x hx => hl x (List.mem_cons_of_mem _ hx)) (by simp at hn ⊢; omega)]
  exact key _ ls hl (Nat.le_refl _)

/-! ## Concrete cases -/

namespace Ex

/-- 1:2/4 and 1:2/6 want to be notified, 1:2/5 and 1:2/6 want to be told about removals. -/
def notifyCfg (areas : List Area) : Config :=
  { afCfg 0 areas with
    nodes := [{ node 4 NODE_NOTIFY with sysopName := b!"Four", groups := b!"AC", readOnlyGroups := b!"C" },
      { node 5 (NODE_SENDAREAFIX ||| NODE_SENDTEXT) with sysopName := b!"Five", remoteAFName := b!"AreaFix", remoteAFPw := b!"pw" },
      { node 6 (NODE_NOTIFY ||| NODE_SENDTEXT) with sysopName := b!"Six" }] }

/-- To whom messages have been written, and about what. -/
def letters2 (x : Out Bool) : List (Str × Node4D × Str) :=
  match x with
  | .ok _ t => t.log.filterMap fun e => match e with
    | .netmail _ _ m => some (m.to, m.dest, m.subject)
    | _ => none
  | _ => []

def answerOf (x : Out Bool) : Option Bool :=
  match x with
  | .ok b _ => some b
  | _ => none

def tagsLeft (x : Out Bool) : List Str :=
  match x with
  | .ok _ t => t.cfg.areas.map (·.tag)
  | _ => []

/-- Notifications of two nodes; the hypothesis of `notify_sent` is met. -/
theorem notified_all : letters2 (sendAFList afEnv handler .info b!"All" (st (notifyCfg afAreasEx))) =
    [(b!"Four", ⟨1, 2, 4, 0⟩, b!"AreaFix configuration info"), (b!"Six", ⟨1, 2, 6, 0⟩, b!"AreaFix configuration info")] := by
  decide +kernel

example : letters2 (sendAFList afEnv handler .query b!"1:2/5" (st (notifyCfg afAreasEx))) =
      [(b!"Five", ⟨1, 2, 5, 0⟩, b!"AreaFix list of areas")] ∧
    answerOf (sendAFList afEnv handler .query b!"1:2/9" (st (notifyCfg afAreasEx))) = some false := by
  decide +kernel

/-- The description of a node. -/
example : infoText (notifyCfg []) ({ node 4 NODE_NOTIFY with sysopName := b!"Four", groups := b!"AC", readOnlyGroups := b!"C" }) =
    [b!"Configuration for 1:2/4.0:", [], b!"           Sysop: Four", b!"Packet  password: ", b!"Areafix password: ",
      b!"          Packer: No packer", [], b!" * You will receive notifications", [], b!"You have full access to these groups:", [], b!"A", [],
      b!"You have read-only access to these groups:", [], b!"C: "] := by
  decide +kernel

/-- An area is removed and two nodes are told; the hypotheses of `area_removed` are met. -/
theorem removed_told : letters2 (removeAreaCmd afEnv handler b!"alpha" (st (notifyCfg [area b!"ALPHA" 0 [⟨1, 0⟩, ⟨2, 0⟩, ⟨0, 0⟩], area b!"BETA" 0 []]))) =
      [(b!"AreaFix", ⟨1, 2, 5, 0⟩, b!"pw"), (b!"Five", ⟨1, 2, 5, 0⟩, b!"Area removed"), (b!"Six", ⟨1, 2, 6, 0⟩, b!"Area removed")] ∧
    tagsLeft (removeAreaCmd afEnv handler b!"alpha" (st (notifyCfg [area b!"ALPHA" 0 [⟨1, 0⟩, ⟨2, 0⟩, ⟨0, 0⟩], area b!"BETA" 0 []]))) = [b!"BETA"] := by
  decide +kernel

/-- C103 is violated: an area that does not exist is "removed" without an error. -/
theorem removed_nothing : answerOf (removeAreaCmd afEnv handler b!"no.such.area" (st (notifyCfg afAreasEx))) = some true := by decide +kernel

/-- C103 is violated: the operator of a link is to be told about the removal of an area with a name of 56 characters, but the buffer for
the line is too small. -/
theorem removal_overflow : (match removeAreaCmd afEnv handler (List.replicate 56 65)
      (st (notifyCfg [area (List.replicate 56 65) 0 [⟨2, 0⟩]])) with
    | .ub u => some u
    | _ => none) = some .oobWrite := by decide +kernel

/-- C103 is violated: the last character of the help file is lost if there is no line feed behind it, and a character in each long line. -/
theorem help_cut : (helpRead b!"END").map List.dropLast = [b!"EN"] ∧
    (helpRead (List.replicate 98 65 ++ b!"xyz\n")).map List.dropLast = [List.replicate 98 65, b!"yz"] := by decide +kernel

end Ex

end CM
