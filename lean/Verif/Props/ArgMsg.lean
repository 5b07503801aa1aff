import Verif.Model.ArgMsg
import Verif.Spec.ArgMsg
import Verif.Props.PrintArgs

/-! # Messages about wrong command lines (C124) -/

set_option linter.unusedSimpArgs false

namespace CM

theorem loopMsg_forget (args : List Arg) (argv : List Str) : parseLoop args argv = (parseLoopMsg args argv).toOption := by
  fun_induction parseLoopMsg args argv with
  | case1 => rfl
  | case2 args w a hf ht => rw [parseLoop.eq_def]; simp only [hf, ht]; rfl
  | case3 args w a hf ht v ws hs => rw [parseLoop.eq_def]; simp only [hf, ht, hs]; rfl
  | case4 args w a hf ht v ws bs hs ih => rw [parseLoop.eq_def]; simp only [hf, ht, hs]; exact ih
  | case5 args w ws a hf ht hs => rw [parseLoop.eq_def]; simp only [hf, ht, hs]; rfl
  | case6 args w ws a hf ht bs hs ih => rw [parseLoop.eq_def]; simp only [hf, ht, hs]; exact ih
  | case7 args w ws hf hs => rw [parseLoop.eq_def]; simp only [hf, hs]; rfl
  | case8 args w ws hf bs hs ih => rw [parseLoop.eq_def]; simp only [hf, hs]; exact ih

/-- C124. With and without the messages, the same command lines are understood, with the same values. -/
theorem msg_forget (args : List Arg) (argv : List Str) : parseArgs args argv = (parseArgsMsg args argv).toOption.bind (·.toOption) := by
  unfold parseArgs parseArgsMsg
  rw [loopMsg_forget]
  cases parseLoopMsg args argv with
  | error m => rfl
  | ok as =>
    simp only [Except.toOption]
    cases hf : as.find? (fun a => a.mandatory && a.data == .none) with
    | none =>
      rw [if_neg]
      · rfl
      · rw [List.any_eq_true]
        rintro ⟨a, ha, h⟩
        exact List.find?_eq_none.1 hf a ha h
    | some a =>
      rw [if_pos (List.any_eq_true.2 ⟨a, List.mem_of_find?_eq_some hf, List.find?_some hf⟩)]
      dsimp only
      cases a.name <;> rfl

theorem setFirst_some (p : Arg → Bool) (d : ArgData) : ∀ (args : List Arg) (a : Arg), args.find? p = some a → setFirst p d args ≠ none := by
  intro args
  induction args with
  | nil => intro a h; cases h
  | cons x args ih =>
    intro a h
    unfold setFirst
    cases hp : p x with
    | true => simp
    | false =>
      rw [List.find?_cons, hp] at h
      simpa using ih a h

/-- Where the loop stops. -/
inductive StopsAt (T : List ToolArg) (args : List Arg) (argv : List Str) : ArgMsg → Prop where
  | noValue {pre p w a as} : argv = pre ++ [w] → PartsOf T pre p → parseLoop args pre = some as → a ∈ T → a.kind = .string →
      w.map lower = a.name.map lower → StopsAt T args argv (.noValue a.name)
  | unknown {pre p w r as} : argv = pre ++ w :: r → PartsOf T pre p → parseLoop args pre = some as → (∀ a ∈ T, w.map lower ≠ a.name.map lower) →
      setFirst Arg.isFree (.str w) as = none → StopsAt T args argv (.unknown w)

theorem find_decl_name {T : List ToolArg} {args : List Arg} (hd : args.map Arg.decl = T.map fun a => (a.entry none).decl) {w : Str} {a : Arg}
    (h : args.find? (·.isKeyword w) = some a) : ∃ b ∈ T, b.kind = a.type ∧ a.name = some b.name ∧ w.map lower = b.name.map lower := by
  have hm := List.mem_map_of_mem (f := Arg.decl) (List.mem_of_find?_eq_some h)
  have hk := List.find?_some h
  rw [hd] at hm
  obtain ⟨b, hb, he⟩ := List.mem_map.1 hm
  refine ⟨b, hb, ?_⟩
  simp only [Arg.decl, ToolArg.entry, Prod.mk.injEq] at he
  refine ⟨he.1, he.2.1.symm, ?_⟩
  simp only [Arg.isKeyword, ← he.2.1] at hk
  simpa [eqi] using hk

/-- A part before the stop. -/
theorem StopsAt.more {T : List ToolArg} {args bs : List Arg} {ws ext : List Str} {m : ArgMsg} (h : StopsAt T bs ws m)
    (hp : ∀ r p, PartsOf T r p → ∃ q, PartsOf T (ext ++ r) q) (hl : ∀ r, parseLoop args (ext ++ r) = parseLoop bs r) : StopsAt T args (ext ++ ws) m := by
  cases h with
  | @noValue pre p w a as e h1 h2 h3 h4 h5 =>
    obtain ⟨q, hq⟩ := hp pre p h1
    exact .noValue (by rw [e, List.append_assoc]) hq ((hl pre).trans h2) h3 h4 h5
  | @unknown pre p w r as e h1 h2 h3 h4 =>
    obtain ⟨q, hq⟩ := hp pre p h1
    exact .unknown (by rw [e, List.append_assoc]) hq ((hl pre).trans h2) h3 h4

theorem loopMsg_stops {T : List ToolArg} (args : List Arg) (argv : List Str) : args.map Arg.decl = T.map (fun a => (a.entry none).decl) →
    ∀ m, parseLoopMsg args argv = .error m → StopsAt T args argv m := by
  fun_induction parseLoopMsg args argv with
  | case1 => intro _ m h; cases h
  | case2 args w a hf ht =>
    intro hd m h
    cases h
    obtain ⟨b, hb, hk, hn, hw⟩ := find_decl_name hd hf
    rw [hn]
    exact .noValue (pre := []) rfl .nil rfl hb (hk.trans ht) hw
  | case3 args w a hf ht v ws hs => exact absurd hs (setFirst_some _ _ _ _ hf)
  | case4 args w a hf ht v ws bs hs ih =>
    intro hd m h
    obtain ⟨b, hb, hk, hw⟩ := find_decl hd hf
    refine StopsAt.more (ext := [w, v]) (ih ((setFirst_decl _ _ _ _ hs).trans hd) m h) (fun r p hp => ⟨_, .value hb (hk.trans ht) hw hp⟩) fun r => ?_
    rw [List.cons_append, List.cons_append, List.nil_append, parseLoop.eq_def]
    simp only [hf, ht, hs]
  | case5 args w ws a hf ht hs => exact absurd hs (setFirst_some _ _ _ _ hf)
  | case6 args w ws a hf ht bs hs ih =>
    intro hd m h
    obtain ⟨b, hb, hk, hw⟩ := find_decl hd hf
    refine StopsAt.more (ext := [w]) (ih ((setFirst_decl _ _ _ _ hs).trans hd) m h) (fun r p hp => ⟨_, .switch hb (hk.trans ht) hw hp⟩) fun r => ?_
    rw [List.cons_append, List.nil_append, parseLoop.eq_def]
    simp only [hf, ht, hs]
  | case7 args w ws hf hs =>
    intro hd m h
    cases h
    exact .unknown (pre := []) rfl .nil rfl (not_keyword hd hf) hs
  | case8 args w ws hf bs hs ih =>
    intro hd m h
    refine StopsAt.more (ext := [w]) (ih ((setFirst_decl _ _ _ _ hs).trans hd) m h) (fun r p hp => ⟨_, .word (not_keyword hd hf) hp⟩) fun r => ?_
    rw [List.cons_append, List.nil_append, parseLoop.eq_def]
    simp only [hf, hs]

/-- What the loop understands has parts. -/
theorem loop_parts {T : List ToolArg} (args : List Arg) (ws : List Str) : args.map Arg.decl = T.map (fun a => (a.entry none).decl) →
    ∀ res, parseLoop args ws = some res → ∃ p, PartsOf T ws p := by
  fun_induction parseLoop args ws with
  | case1 => intro _ _ _; exact ⟨[], .nil⟩
  | case2 => intro _ _ h; simp at h
  | case3 => intro _ _ h; simp at h
  | case4 args w a hf ht v ws bs hs ih =>
    intro hd res hr
    obtain ⟨b, hb, hk, hw⟩ := find_decl hd hf
    obtain ⟨p, hp⟩ := ih ((setFirst_decl _ _ _ _ hs).trans hd) res hr
    exact ⟨_, .value hb (hk.trans ht) hw hp⟩
  | case5 => intro _ _ h; simp at h
  | case6 args w ws a hf ht bs hs ih =>
    intro hd res hr
    obtain ⟨b, hb, hk, hw⟩ := find_decl hd hf
    obtain ⟨p, hp⟩ := ih ((setFirst_decl _ _ _ _ hs).trans hd) res hr
    exact ⟨_, .switch hb (hk.trans ht) hw hp⟩
  | case7 => intro _ _ h; simp at h
  | case8 args w ws hf bs hs ih =>
    intro hd res hr
    obtain ⟨p, hp⟩ := ih ((setFirst_decl _ _ _ _ hs).trans hd) res hr
    exact ⟨_, .word (not_keyword hd hf) hp⟩

/-- The table after the words that have been read. -/
theorem loop_read {T : List ToolArg} (hT : DistinctNames T) {pre : List Str} {p : List CmdPart} (hp : PartsOf T pre p) (hn : NamesFirst T p) {as : List Arg}
    (h : parseLoop (T.map (·.entry none)) pre = some as) :
    (bareWords p).length ≤ places (namedValue p) T ∧ as = fillTable (namedValue p) T (bareWords p) := by
  have e : addNamed (fun _ => none) p = namedValue p := by
    funext n
    rw [addNamed_eq]
    cases namedValue p n <;> rfl
  rw [← fill_start, parse_parts hT hp _ [] hn (by simp) (by simp), e, List.nil_append] at h
  split at h
  · next hl => cases h; exact ⟨hl, rfl⟩
  · cases h

theorem find_split {f : Str → Option (Option Str)} : ∀ (T : List ToolArg) (a : Arg),
    (T.map fun a => a.entry (f a.name)).find? (fun a => a.mandatory && a.data == .none) = some a →
    ∃ l b r, T = l ++ b :: r ∧ a.name = some b.name ∧ b.needed = true ∧ f b.name = none ∧ ∀ c ∈ l, c.needed = true → f c.name ≠ none := by
  intro T
  induction T with
  | nil => intro a h; cases h
  | cons x T ih =>
    intro a h
    rw [List.map_cons, List.find?_cons] at h
    simp only [ToolArg.entry, valData_none] at h
    cases hx : (x.needed && (f x.name).isNone) with
    | true =>
      rw [hx] at h
      cases h
      rw [Bool.and_eq_true, Option.isNone_iff_eq_none] at hx
      exact ⟨[], x, T, rfl, rfl, hx.1, hx.2, by simp⟩
    | false =>
      rw [hx] at h
      obtain ⟨l, b, r, e, h1, h2, h3, h4⟩ := ih a (by simpa only [ToolArg.entry] using h)
      refine ⟨x :: l, b, r, by rw [e]; rfl, h1, h2, h3, ?_⟩
      intro c hc hcn
      rcases List.mem_cons.1 hc with rfl | hc
      · intro hn
        rw [hcn, hn] at hx
        cases hx
      · exact h4 c hc hcn

/-- **C124.** For every table of arguments and every command line in which the arguments that can be given by place are named before the words
without a name: nothing undefined happens, and a command line is refused only with the message about its first fault. -/
theorem fault_named_partial {T : List ToolArg} (hT : DistinctNames T) {argv : List Str} (hn : NamesEarly T argv) :
    (∃ args, parseArgsMsg (T.map (·.entry none)) argv = .ok (.ok args) ∧ parseArgs (T.map (·.entry none)) argv = some args) ∨
    ∃ s, parseArgsMsg (T.map (·.entry none)) argv = .ok (.error s) ∧ parseArgs (T.map (·.entry none)) argv = none ∧ Fault T argv s := by
  have hf := msg_forget (T.map (·.entry none)) argv
  have hd : (T.map (·.entry none)).map Arg.decl = T.map (fun a => (a.entry none).decl) := by rw [List.map_map]; rfl
  rw [hf]
  unfold parseArgsMsg
  cases hm : parseLoopMsg (T.map (·.entry none)) argv with
  | error m =>
    right
    refine ⟨m.text, rfl, rfl, ?_⟩
    cases loopMsg_stops _ _ hd m hm with
    | @noValue pre p w a as e h1 h2 h3 h4 h5 =>
      exact .noValue e h1 (loop_read hT h1 (hn pre p ⟨[w], e.symm⟩ h1) h2).1 h3 h4 h5
    | @unknown pre p w r as e h1 h2 h3 h4 =>
      obtain ⟨hl, ha⟩ := loop_read hT h1 (hn pre p ⟨w :: r, e.symm⟩ h1) h2
      rw [ha, fill_word] at h4
      refine .unknown e h1 ?_ h3
      split at h4
      · cases h4
      · omega
  | ok as =>
    have hl := loopMsg_forget (T.map (·.entry none)) argv
    rw [hm] at hl
    obtain ⟨p, hp⟩ : ∃ p, PartsOf T argv p := by
      exact loop_parts _ _ hd as hl
    obtain ⟨hle, he⟩ := loop_read hT hp (hn argv p ⟨[], List.append_nil _⟩ hp) hl
    dsimp only
    cases hfi : as.find? (fun a => a.mandatory && a.data == .none) with
    | none => exact .inl ⟨as, rfl, rfl⟩
    | some a =>
      right
      rw [he, fill_meant _ T _ hT] at hfi
      obtain ⟨l, b, r, e, h1, h2, h3, h4⟩ := find_split (f := fun n => ((meant (namedValue p) T (bareWords p)).lookup n).join) T a hfi
      dsimp only
      rw [h1]
      exact ⟨_, rfl, rfl, .missing hp hle e h2 h3 h4⟩

theorem loop_decl (args : List Arg) (ws : List Str) : ∀ res, parseLoop args ws = some res → res.map Arg.decl = args.map Arg.decl := by
  fun_induction parseLoop args ws with
  | case1 => intro _ h; cases h; rfl
  | case2 => intro _ h; simp at h
  | case3 => intro _ h; simp at h
  | case4 args w a hf ht v ws bs hs ih => intro res hr; exact (ih res hr).trans (setFirst_decl _ _ _ _ hs)
  | case5 => intro _ h; simp at h
  | case6 args w ws a hf ht bs hs ih => intro res hr; exact (ih res hr).trans (setFirst_decl _ _ _ _ hs)
  | case7 => intro _ h; simp at h
  | case8 args w ws hf bs hs ih => intro res hr; exact (ih res hr).trans (setFirst_decl _ _ _ _ hs)

theorem names_inj {T : List ToolArg} (hT : DistinctNames T) {a b : ToolArg} (ha : a ∈ T) (hb : b ∈ T) (h : a.name.map lower = b.name.map lower) : a = b := by
  apply Classical.byContradiction
  intro hne
  unfold DistinctNames at hT
  obtain ⟨i, hi, rfl⟩ := List.getElem_of_mem ha
  obtain ⟨j, hj, rfl⟩ := List.getElem_of_mem hb
  rw [List.pairwise_iff_getElem] at hT
  rcases Nat.lt_trichotomy i j with hlt | he | hgt
  · exact hT i j hi hj hlt h
  · subst he; exact hne rfl
  · exact hT j i hj hi hgt h.symm

/-- An argument that is named is found. -/
theorem find_named {T : List ToolArg} (hT : DistinctNames T) {args : List Arg} (hd : args.map Arg.decl = T.map fun a => (a.entry none).decl) {w : Str}
    {a : ToolArg} (ha : a ∈ T) (hw : w.map lower = a.name.map lower) :
    ∃ x, args.find? (·.isKeyword w) = some x ∧ x.type = a.kind ∧ x.name = some a.name := by
  cases hf : args.find? (·.isKeyword w) with
  | none => exact absurd hw (not_keyword hd hf a ha)
  | some x =>
    obtain ⟨b, hb, hk, hn, hbw⟩ := find_decl_name hd hf
    have := names_inj hT hb ha (hbw.symm.trans hw)
    subst this
    exact ⟨x, rfl, hk.symm, hn⟩

/-- The loop after the words that have been read. -/
theorem loopMsg_append {T : List ToolArg} (hT : DistinctNames T) {pre : List Str} {p : List CmdPart} (hp : PartsOf T pre p) (rest : List Str) :
    ∀ args as, args.map Arg.decl = T.map (fun a => (a.entry none).decl) → parseLoop args pre = some as → parseLoopMsg args (pre ++ rest) = parseLoopMsg as rest := by
  induction hp with
  | nil => intro args as _ h; cases h; rfl
  | @switch w a r p ha hk hw _ ih =>
    intro args as hd h
    obtain ⟨x, hf, ht, -⟩ := find_named hT hd ha hw
    rw [hk] at ht
    rw [parseLoop.eq_def] at h
    simp only [hf, ht] at h
    rw [List.cons_append, parseLoopMsg.eq_def]
    simp only [hf, ht]
    cases hs : setFirst (·.isKeyword w) .flag args with
    | none => exact absurd hs (setFirst_some _ _ _ _ hf)
    | some bs =>
      simp only [hs] at h
      exact ih bs as ((setFirst_decl _ _ _ _ hs).trans hd) h
  | @value w a v r p ha hk hw _ ih =>
    intro args as hd h
    obtain ⟨x, hf, ht, -⟩ := find_named hT hd ha hw
    rw [hk] at ht
    rw [parseLoop.eq_def] at h
    simp only [hf, ht] at h
    rw [List.cons_append, List.cons_append, parseLoopMsg.eq_def]
    simp only [hf, ht]
    cases hs : setFirst (·.isKeyword w) (.str v) args with
    | none => exact absurd hs (setFirst_some _ _ _ _ hf)
    | some bs =>
      simp only [hs] at h
      exact ih bs as ((setFirst_decl _ _ _ _ hs).trans hd) h
  | @word w r p hw _ ih =>
    intro args as hd h
    cases hf : args.find? (·.isKeyword w) with
    | some x =>
      obtain ⟨b, hb, -, hbw⟩ := find_decl hd hf
      exact absurd hbw (hw b hb)
    | none =>
      rw [parseLoop.eq_def] at h
      simp only [hf] at h
      rw [List.cons_append, parseLoopMsg.eq_def]
      simp only [hf]
      cases hs : setFirst Arg.isFree (.str w) args with
      | none => simp only [hs] at h; cases h
      | some bs =>
        simp only [hs] at h
        exact ih bs as ((setFirst_decl _ _ _ _ hs).trans hd) h

theorem loop_reads {T : List ToolArg} (hT : DistinctNames T) {pre : List Str} {p : List CmdPart} (hp : PartsOf T pre p) (hn : NamesFirst T p)
    (hl : (bareWords p).length ≤ places (namedValue p) T) :
    parseLoop (T.map (·.entry none)) pre = some (fillTable (namedValue p) T (bareWords p)) := by
  have e : addNamed (fun _ => none) p = namedValue p := by
    funext n
    rw [addNamed_eq]
    cases namedValue p n <;> rfl
  rw [← fill_start, parse_parts hT hp _ [] hn (by simp) (by simp), e, List.nil_append, if_pos hl]

theorem find_first (f : Str → Option (Option Str)) (a : ToolArg) (r : List ToolArg) (h1 : a.needed = true) (h2 : f a.name = none) : ∀ l : List ToolArg,
    (∀ c ∈ l, c.needed = true → f c.name ≠ none) →
    ((l ++ a :: r).map fun a => a.entry (f a.name)).find? (fun a => a.mandatory && a.data == .none) = some (a.entry none) := by
  intro l
  induction l with
  | nil =>
    intro _
    rw [List.nil_append, List.map_cons, List.find?_cons, h2]
    simp only [ToolArg.entry, valData_none, h1]
    rfl
  | cons x l ih =>
    intro h
    rw [List.cons_append, List.map_cons, List.find?_cons]
    have : ((x.entry (f x.name)).mandatory && (x.entry (f x.name)).data == .none) = false := by
      simp only [ToolArg.entry, valData_none]
      cases hx : x.needed with
      | false => rfl
      | true =>
        have := h x (by simp) hx
        cases hy : f x.name with
        | none => exact absurd hy this
        | some y => rfl
    rw [this]
    exact ih fun c hc => h c (by simp [hc])

/-- **C124.** And each fault is reported: a command line with a fault is refused with the message about it. -/
theorem fault_reported_partial {T : List ToolArg} (hT : DistinctNames T) {argv : List Str} (hn : NamesEarly T argv) {s : Str} (h : Fault T argv s) :
    parseArgsMsg (T.map (·.entry none)) argv = .ok (.error s) := by
  have hd : (T.map (·.entry none)).map Arg.decl = T.map (fun a => (a.entry none).decl) := by rw [List.map_map]; rfl
  unfold parseArgsMsg
  cases h with
  | @noValue pre p w a e hp hl ha hk hw =>
    have hr := loop_reads hT hp (hn pre p ⟨[w], e.symm⟩ hp) hl
    obtain ⟨x, hf, ht, hx⟩ := find_named hT ((loop_decl _ _ _ hr).trans hd) ha hw
    rw [e, loopMsg_append hT hp [w] _ _ hd hr, parseLoopMsg.eq_def]
    simp only [hf, ht, hk, hx]
    rfl
  | @unknown pre p w r e hp hl hw =>
    have hr := loop_reads hT hp (hn pre p ⟨w :: r, e.symm⟩ hp) (Nat.le_of_eq hl)
    rw [e, loopMsg_append hT hp (w :: r) _ _ hd hr, parseLoopMsg.eq_def]
    dsimp only
    rw [fill_unknown _ w T _ hw, fill_word, if_neg (by omega)]
    rfl
  | @missing p l a r hp hl e h1 h2 h3 =>
    have hr := loop_reads hT hp (hn argv p ⟨[], List.append_nil _⟩ hp) hl
    have := loopMsg_append hT hp [] _ _ hd hr
    rw [List.append_nil] at this
    rw [this, parseLoopMsg.eq_def]
    dsimp only
    rw [fill_meant _ T _ hT]
    have hff : (T.map fun a => a.entry ((meant (namedValue p) T (bareWords p)).lookup a.name).join).find? (fun a => a.mandatory && a.data == .none) = some (a.entry none) := by
      have := find_first (fun n => ((meant (namedValue p) T (bareWords p)).lookup n).join) a r h1 h2 l h3
      rw [← e] at this
      exact this
    rw [hff]
    rfl

/-- **C124.** At most one message is true of a command line. -/
theorem fault_unique_partial {T : List ToolArg} (hT : DistinctNames T) {argv : List Str} (hn : NamesEarly T argv) {s t : Str} (h : Fault T argv s)
    (h' : Fault T argv t) : s = t := by
  have := fault_reported_partial hT hn h
  rw [fault_reported_partial hT hn h'] at this
  injection this with this
  injection this with this
  exact this.symm

/-- What is printed about a command line is exactly what is wrong with it. -/
def FaultsTold (T : List ToolArg) (tab : List Arg) (argv : List Str) : Prop :=
  ((∃ args, parseArgsMsg tab argv = .ok (.ok args) ∧ parseArgs tab argv = some args) ∨ ∃ s, parseArgsMsg tab argv = .ok (.error s)) ∧
  ∀ s, parseArgsMsg tab argv = .ok (.error s) ↔ Fault T argv s

theorem faults_told {T : List ToolArg} (hT : DistinctNames T) {argv : List Str} (hn : NamesEarly T argv) : FaultsTold T (T.map (·.entry none)) argv := by
  refine ⟨?_, fun s => ⟨fun h => ?_, fault_reported_partial hT hn⟩⟩
  · rcases fault_named_partial hT hn with h | ⟨s, h, -⟩
    · exact .inl h
    · exact .inr ⟨s, h⟩
  · rcases fault_named_partial hT hn with ⟨a, h', -⟩ | ⟨t, h', -, hf⟩
    · rw [h] at h'; cases h'
    · rw [h] at h'
      injection h' with h'
      injection h' with h'
      rw [h']
      exact hf

/-- Without arguments that are given by place there is no condition. -/
theorem noPlace_early {T : List ToolArg} (h : ∀ a ∈ T, a.byPlace = false) (argv : List Str) : NamesEarly T argv := by
  intro pre p _ hp
  clear hp
  induction p with
  | nil => trivial
  | cons x p ih =>
    cases x with
    | named n v => exact ih
    | word w => exact ⟨fun a ha hb => (by rw [h a ha] at hb; cases hb), ih⟩

/-- **C124 (partial)** for the tools: a command line is understood, or the message about its first fault is printed. -/
theorem tools_fault_partial : ∀ T ∈ [statsNames, listOutNames, getNodeNames, crashListNames, exportNames, maintNames, cwNames],
    T.map (·.entry none) ∈ toolTables ∧ ∀ argv, NamesEarly T argv → FaultsTold T (T.map (·.entry none)) argv := by
  intro T h
  simp only [List.mem_cons, List.not_mem_nil, or_false] at h
  rcases h with rfl | rfl | rfl | rfl | rfl | rfl | rfl
  all_goals exact ⟨by decide, fun argv hn => faults_told (by decide) hn⟩

/-- The arguments of CrashMail; all are given by name. -/
def crashMailNames : List ToolArg := cmArgNames.map fun x => { name := x.1, kind := x.2 }

/-- **C124** for CrashMail and CrashMaint, for every command line. -/
theorem crashmail_fault (argv : List Str) : FaultsTold crashMailNames cmArgs argv ∧ FaultsTold maintNames cmTableArgs argv :=
  ⟨faults_told (T := crashMailNames) (by decide) (noPlace_early (by decide) argv), faults_told (T := maintNames) (by decide) (noPlace_early (by decide) argv)⟩

namespace Ex

/-- CrashExport without a format. -/
theorem fault_missing : parseArgsMsg cxTableArgs [b!"cm.prefs", b!"out.txt"] = .ok (.error b!"Mandatory argument FORMAT not specified\n") := by
  decide +kernel

/-- A switch that does not exist is taken for the file, and the message is about the file. -/
theorem fault_other_word : parseArgsMsg csTableArgs [b!"-v", b!"cm.stats"] = .ok (.error b!"Unknown keyword cm.stats\n") := by decide +kernel

/-- The last word has no value. -/
theorem fault_novalue : parseArgsMsg csTableArgs [b!"cm.stats", b!"sort"] = .ok (.error b!"No argument for SORT\n") := by decide +kernel

/-- If an argument is named after a word was taken for it, the message is about another argument: three words are given for the first
three arguments, one of them by name. -/
theorem fault_named_late : parseArgsMsg cxTableArgs [b!"out.txt", b!"prefsfile", b!"cm.prefs", b!"golded"] =
    .ok (.error b!"Mandatory argument FORMAT not specified\n") := by decide +kernel

/-- The conditions of C124 are met by a command line with a fault. -/
theorem fault_conditions : DistinctNames statsNames ∧ NamesEarly statsNames [b!"SORT"] ∧ Fault statsNames [b!"SORT"] b!"No argument for SORT\n" := by
  refine ⟨by decide, ?_, .noValue (pre := []) (a := { name := b!"SORT", kind := .string }) rfl .nil (by simp [bareWords]) (by decide) rfl rfl⟩
  intro pre p hpre hp
  rcases List.prefix_cons_iff.1 hpre with rfl | ⟨t, rfl, ht⟩
  · cases hp; trivial
  · rw [List.prefix_nil.1 ht] at hp
    cases hp with
    | switch _ _ _ hp => cases hp; trivial
    | word hw _ => exact absurd rfl (hw { name := b!"SORT", kind := .string } (by decide))

end Ex

end CM
