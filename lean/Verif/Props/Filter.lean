import Verif.Spec.Filter
import Verif.Props.Echo
import Verif.Props.Expr
import Verif.Props.Search
/-! # Filters (C37) -/

set_option linter.unusedSimpArgs false

namespace CM

theorem runCommands_iff {env : Env} {self : MemMsg → M Unit} (cs : List Command) {m m' : MemMsg} {s t : HSt} {b : Bool} :
    runCommands env self m cs s = .ok (m', b) t ↔
      (b = false ∧ Exec env self cs m s m' t) ∨
      (b = true ∧ ∃ cs1 c cs2 m2 s2, cs = cs1 ++ c :: cs2 ∧ Exec env self cs1 m s m2 s2 ∧
        runCommand env self m2 c s2 = .ok m' t ∧ m'.has MMFLAG_KILL = true) := by
  induction cs generalizing m s with
  | nil =>
    constructor
    · intro h; cases h; exact .inl ⟨rfl, .nil _ _⟩
    · rintro (⟨rfl, h⟩ | ⟨_, cs1, c, cs2, _, _, h, _⟩)
      · cases h; rfl
      · simp at h
  | cons c cs ih =>
    rw [runCommands, bind_ok]
    constructor
    · rintro ⟨m1, s1, h1, h⟩
      split at h
      · next hk =>
        cases h
        exact .inr ⟨rfl, [], c, cs, m, s, rfl, .nil _ _, h1, hk⟩
      · next hk =>
        have hk : m1.has MMFLAG_KILL = false := Bool.eq_false_iff.2 hk
        rcases ih.1 h with ⟨e, h⟩ | ⟨e, cs1, d, cs2, m2, s2, rfl, h2, h3⟩
        · exact .inl ⟨e, .cons h1 hk h⟩
        · exact .inr ⟨e, c :: cs1, d, cs2, m2, s2, rfl, .cons h1 hk h2, h3⟩
    · rintro (⟨e, h⟩ | ⟨e, cs1, d, cs2, m2, s2, e2, h2, h3, h4⟩)
      · cases h with
        | cons h1 hk h2 =>
          refine ⟨_, _, h1, ?_⟩
          rw [if_neg (by rw [hk]; simp)]
          exact ih.2 (.inl ⟨e, h2⟩)
      · cases h2 with
        | nil =>
          simp only [List.nil_append, List.cons.injEq] at e2
          obtain ⟨rfl, rfl⟩ := e2
          refine ⟨_, _, h3, ?_⟩
          rw [if_pos h4, e]; rfl
        | @cons c' cs' _ _ m1 s1 _ _ h1 hk h2 =>
          simp only [List.cons_append, List.cons.injEq] at e2
          obtain ⟨rfl, rfl⟩ := e2
          refine ⟨_, _, h1, ?_⟩
          rw [if_neg (by rw [hk]; simp)]
          exact ih.2 (.inr ⟨e, cs', d, cs2, m2, s2, rfl, h2, h3, h4⟩)

theorem runFilters_iff {env : Env} {self : MemMsg → M Unit} (fs : List Filter) {m m' : MemMsg} {s t : HSt} :
    runFilters env self m fs s = .ok m' t ↔
      Pass env self fs m s m' t ∨
      (∃ fs1 f fs2 cs1 c cs2 m1 s1 m2 s2, KilledBy env self fs m s m' t fs1 f fs2 cs1 c cs2 m1 s1 m2 s2) ∨
      ∃ fs1 f fs2, StoppedBy env self fs m s m' t fs1 f fs2 := by
  induction fs generalizing m s with
  | nil =>
    constructor
    · intro h; cases h; exact .inl (.nil _ _)
    · rintro (h | ⟨fs1, f, fs2, cs1, c, cs2, m1, s1, m2, s2, h⟩ | ⟨fs1, f, fs2, h⟩)
      · cases h; rfl
      · exact absurd h.filters (by simp)
      · exact absurd h.filters (by simp)
  | cons f fs ih =>
    rw [runFilters, get_bind, bind_ok]
    constructor
    · rintro ⟨v, s1, h1, h⟩
      rw [lift_ok] at h1
      obtain ⟨hv, rfl⟩ := h1
      cases v with
      | none => cases h; exact .inr (.inr ⟨[], f, fs, rfl, .nil _ _, hv⟩)
      | some v =>
        cases v with
        | false =>
          rcases ih.1 h with h | ⟨fs1, g, fs2, cs1, c, cs2, m1, s1, m2, s2, h⟩ | ⟨fs1, g, fs2, h⟩
          · exact .inl (.skip hv h)
          · refine .inr (.inl ⟨f :: fs1, g, fs2, cs1, c, cs2, m1, s1, m2, s2, ?_, h.commands, .skip hv h.before, h.says,
              h.first, h.last, h.killed⟩)
            rw [h.filters]; rfl
          · refine .inr (.inr ⟨f :: fs1, g, fs2, ?_, .skip hv h.before, h.broken⟩)
            rw [h.filters]; rfl
        | true =>
          dsimp only at h
          rw [bind_ok] at h
          obtain ⟨⟨m1, b⟩, s1, h1, h⟩ := h
          dsimp only at h
          rcases (runCommands_iff _).1 h1 with ⟨rfl, hE⟩ | ⟨rfl, cs1, c, cs2, m2, s2, e, h2, h3, h4⟩
          · rcases ih.1 h with h | ⟨fs1, g, fs2, cs1, c, cs2, m3, s3, m2, s2, h⟩ | ⟨fs1, g, fs2, h⟩
            · exact .inl (.run hv hE h)
            · refine .inr (.inl ⟨f :: fs1, g, fs2, cs1, c, cs2, m3, s3, m2, s2, ?_, h.commands, .run hv hE h.before,
                h.says, h.first, h.last, h.killed⟩)
              rw [h.filters]; rfl
            · refine .inr (.inr ⟨f :: fs1, g, fs2, ?_, .run hv hE h.before, h.broken⟩)
              rw [h.filters]; rfl
          · cases h
            exact .inr (.inl ⟨[], f, fs, cs1, c, cs2, m, s, m2, s2, rfl, e, .nil _ _, hv, h2, h3, h4⟩)
    · rintro (h | ⟨fs1, g, fs2, cs1, c, cs2, m1, s1, m2, s2, h⟩ | ⟨fs1, g, fs2, h⟩)
      · cases h with
        | skip hv h => exact ⟨_, _, lift_ok.2 ⟨hv, rfl⟩, ih.2 (.inl h)⟩
        | run hv h1 h =>
          refine ⟨_, _, lift_ok.2 ⟨hv, rfl⟩, ?_⟩
          dsimp only
          rw [bind_ok]
          exact ⟨_, _, (runCommands_iff _).2 (.inl ⟨rfl, h1⟩), ih.2 (.inl h)⟩
      · obtain ⟨e1, e2, hb, hs, hf, hl, hk⟩ := h
        cases hb with
        | nil =>
          simp only [List.nil_append, List.cons.injEq] at e1
          obtain ⟨rfl, rfl⟩ := e1
          refine ⟨_, _, lift_ok.2 ⟨hs, rfl⟩, ?_⟩
          dsimp only
          rw [bind_ok]
          exact ⟨_, _, (runCommands_iff _).2 (.inr ⟨rfl, cs1, c, cs2, _, _, e2, hf, hl, hk⟩), rfl⟩
        | skip hv hb =>
          simp only [List.cons_append, List.cons.injEq] at e1
          obtain ⟨rfl, rfl⟩ := e1
          exact ⟨_, _, lift_ok.2 ⟨hv, rfl⟩, ih.2 (.inr (.inl ⟨_, g, fs2, cs1, c, cs2, _, _, _, _, rfl, e2, hb, hs, hf, hl, hk⟩))⟩
        | run hv h1 hb =>
          simp only [List.cons_append, List.cons.injEq] at e1
          obtain ⟨rfl, rfl⟩ := e1
          refine ⟨_, _, lift_ok.2 ⟨hv, rfl⟩, ?_⟩
          dsimp only
          rw [bind_ok]
          exact ⟨_, _, (runCommands_iff _).2 (.inl ⟨rfl, h1⟩),
            ih.2 (.inr (.inl ⟨_, g, fs2, cs1, c, cs2, _, _, _, _, rfl, e2, hb, hs, hf, hl, hk⟩))⟩
      · obtain ⟨e1, hb, hs⟩ := h
        cases hb with
        | nil =>
          simp only [List.nil_append, List.cons.injEq] at e1
          obtain ⟨rfl, rfl⟩ := e1
          exact ⟨_, _, lift_ok.2 ⟨hs, rfl⟩, rfl⟩
        | skip hv hb =>
          simp only [List.cons_append, List.cons.injEq] at e1
          obtain ⟨rfl, rfl⟩ := e1
          exact ⟨_, _, lift_ok.2 ⟨hv, rfl⟩, ih.2 (.inr (.inr ⟨_, g, fs2, rfl, hb, hs⟩))⟩
        | run hv h1 hb =>
          simp only [List.cons_append, List.cons.injEq] at e1
          obtain ⟨rfl, rfl⟩ := e1
          refine ⟨_, _, lift_ok.2 ⟨hv, rfl⟩, ?_⟩
          dsimp only
          rw [bind_ok]
          exact ⟨_, _, (runCommands_iff _).2 (.inl ⟨rfl, h1⟩), ih.2 (.inr (.inr ⟨_, g, fs2, rfl, hb, hs⟩))⟩

/-- C37. Filtering returns exactly in one of these ways: all filters were tried in order and all
commands of the matching ones executed once, in order; or a command killed the message and nothing
after it was executed; or a filter could not be evaluated. -/
theorem filter_iff (env : Env) (self : MemMsg → M Unit) (m m' : MemMsg) (s t : HSt) :
    filterMsg env self m s = .ok m' t ↔
      Pass env self s.cfg.filters m s m' t ∨
      (∃ fs1 f fs2 cs1 c cs2 m1 s1 m2 s2,
        KilledBy env self s.cfg.filters m s m' t fs1 f fs2 cs1 c cs2 m1 s1 m2 s2) ∨
      ∃ fs1 f fs2, StoppedBy env self s.cfg.filters m s m' t fs1 f fs2 := by
  unfold filterMsg
  rw [get_bind]
  exact runFilters_iff _

theorem Exec.noKill {env : Env} {self : MemMsg → M Unit} {cs : List Command} {m m' : MemMsg} {s t : HSt}
    (h : Exec env self cs m s m' t) (hk : m.has MMFLAG_KILL = false) : m'.has MMFLAG_KILL = false := by
  induction h with
  | nil => exact hk
  | cons _ h _ ih => exact ih h

theorem Pass.noKill {env : Env} {self : MemMsg → M Unit} {fs : List Filter} {m m' : MemMsg} {s t : HSt}
    (h : Pass env self fs m s m' t) (hk : m.has MMFLAG_KILL = false) : m'.has MMFLAG_KILL = false := by
  induction h with
  | nil => exact hk
  | skip _ _ ih => exact ih hk
  | run _ h _ ih => exact ih (h.noKill hk)

/-- C37. Only KILL, or EXECUTE when its program returns 0, kills a message. -/
theorem killed_by (env : Env) (self : MemMsg → M Unit) {fs fs1 fs2 : List Filter} {f : Filter} {m m' m1 m2 : MemMsg}
    {s t s1 s2 : HSt} {cs1 cs2 : List Command} {c : Command} (hk : m.has MMFLAG_KILL = false)
    (h : KilledBy env self fs m s m' t fs1 f fs2 cs1 c cs2 m1 s1 m2 s2) :
    c = .kill ∨ ∃ cmd line, c = .execute cmd ∧ env.exec s2.log line = 0 ∧ t.log = s2.log ++ [.execute line] := by
  have k2 := h.first.noKill (h.before.noKill hk)
  have hl := h.last
  by_cases hc : c.mayKill = true
  · cases c with
    | kill => exact .inl rfl
    | execute cmd =>
      refine .inr ?_
      simp only [runCommand, filterExecute, get_bind] at hl
      rw [bind_ok] at hl
      obtain ⟨line, s3, h1, hl⟩ := hl
      rw [lift_ok] at h1
      obtain ⟨_, rfl⟩ := h1
      rw [emit_bind] at hl
      split at hl
      · next h0 => cases hl; exact ⟨cmd, line, rfl, h0, rfl⟩
      · split at hl
        · cases hl
        · cases hl
          exact absurd h.killed (by rw [k2]; simp)
    | _ => cases hc
  · have := runCommand_kill (by simpa using hc) hl
    rw [k2, h.killed] at this
    cases this

/-- C37. A message that is not killed has been through all filters, unless one of them could not be
evaluated. -/
theorem filter_all_executed (env : Env) (self : MemMsg → M Unit) (m m' : MemMsg) (s t : HSt)
    (h : filterMsg env self m s = .ok m' t) (hk : m'.has MMFLAG_KILL = false)
    (he : ∀ f ∈ s.cfg.filters, ∀ u n, u.cfg = t.cfg → ¬ f.Broken u n) : Pass env self s.cfg.filters m s m' t := by
  rcases (filter_iff ..).1 h with h | ⟨fs1, f, fs2, cs1, c, cs2, m1, s1, m2, s2, h⟩ | ⟨fs1, f, fs2, h⟩
  · exact h
  · rw [h.killed] at hk; cases hk
  · exact absurd h.broken (he f (by rw [h.filters]; simp) _ _ rfl)

/-- C37. What comes after the command that kills the message does not matter. -/
theorem filter_kill_ignores_rest (env : Env) (self : MemMsg → M Unit) {fs fs1 fs2 : List Filter} {f : Filter}
    {m m' m1 m2 : MemMsg} {s t s1 s2 : HSt} {cs1 cs2 : List Command} {c : Command}
    (h : KilledBy env self fs m s m' t fs1 f fs2 cs1 c cs2 m1 s1 m2 s2) (cs2' : List Command) (fs2' : List Filter) :
    runFilters env self m (fs1 ++ { f with commands := cs1 ++ c :: cs2' } :: fs2') s = .ok m' t :=
  (runFilters_iff _).2 (.inr (.inl ⟨fs1, { f with commands := cs1 ++ c :: cs2' }, fs2', cs1, c, cs2', m1, s1, m2, s2,
    ⟨rfl, rfl, h.before, h.says, h.first, h.last, h.killed⟩⟩))

/-- C37. A netmail killed by a filter is not imported, not sent on, not bounced and not answered:
nothing happens after the filters. -/
theorem netmail_killed (env : Env) (af : (MemMsg → M Unit) → MemMsg → M Unit) (n : Nat) (m m1 m2 : MemMsg)
    (s s1 t : HSt) (ha : m.area = []) (h1 : prepNetmail m s = .ok m1 s1)
    (h2 : filterMsg env (handleMessage env af n) m1 s1 = .ok m2 t) (hk : m2.has MMFLAG_KILL = true) :
    handleMessage env af (n + 1) m s = .ok () t := by
  rw [handleMessage, if_pos ha, handleNetmail, bind_ok]
  refine ⟨m1, s1, h1, ?_⟩
  rw [bind_ok]
  exact ⟨m2, t, h2, by rw [if_pos hk]; rfl⟩

/-- C37. The same for echomail that has passed the permission and duplicate checks. -/
theorem echomail_killed (env : Env) (self : MemMsg → M Unit) (i : Nat) (a : Area) (aka : Node4D) (ls : List Link)
    (m m2 : MemMsg) (s t : HSt) (h2 : filterMsg env self m s = .ok m2 t) (hk : m2.has MMFLAG_KILL = true) :
    deliverEcho env self i a aka ls m s = .ok () t := by
  rw [deliverEcho, bind_ok]
  exact ⟨m2, t, h2, by rw [if_pos hk]; rfl⟩

/-! ## Filters that cannot be evaluated -/

/-- Both results are errors, or none of them is. -/
def AgreeE {α : Type} (a b : Except UB (Option α)) : Prop :=
  ∀ x y, a = .ok x → b = .ok y → x.isSome = y.isSome

def AgreeF {α : Type} (a b : Except UB (Option (Option α))) : Prop :=
  ∀ x y, a = .ok x → b = .ok y → x.map Option.isSome = y.map Option.isSome

theorem exprPair_agree (op1 op2 : Bool → Bool → Bool) {a1 a2 b1 b2 : Except UB (Option (Option Bool))}
    (ha : AgreeF a1 a2) (hb : AgreeF b1 b2) : AgreeF (exprPair op1 a1 b1) (exprPair op2 a2 b2) := by
  intro x y hx hy
  rcases a1 with _ | _ | _ | v1
  · cases hx
  all_goals
    rcases a2 with _ | _ | _ | v2
    · cases hy
    all_goals
      have h := ha _ _ rfl rfl
      first
        | (cases hx; cases hy; exact h)
        | (simp at h; done)
        | skip
  simp only [exprPair] at hx hy
  rcases b1 with _ | _ | _ | w1
  · cases hx
  all_goals
    rcases b2 with _ | _ | _ | w2
    · cases hy
    all_goals
      have h := hb _ _ rfl rfl
      first
        | (cases hx; cases hy; exact h)
        | (simp at h; done)

theorem exprEval_agree {ev1 ev2 : Str → Except UB (Option Bool)} (h : ∀ x, AgreeE (ev1 x) (ev2 x)) (f : Nat) :
    ∀ s, AgreeF (exprEval ev1 f s) (exprEval ev2 f s) := by
  induction f with
  | zero => intro s x y hx hy; cases hx; cases hy; rfl
  | succ f ih =>
    intro s
    unfold exprEval
    have triv : AgreeF (.ok (some none) : Except UB (Option (Option Bool))) (.ok (some none)) := by
      intro x y hx hy; cases hx; cases hy; rfl
    split
    · exact triv
    · split
      · exact triv
      · dsimp only
        split
        · split
          · split
            · next e1 _ _ _ _ _ _ _ _ _ =>
              intro x y hx hy
              have := ih (e1.drop 4)
              cases ha : exprEval ev1 f (e1.drop 4) with
              | error e => rw [ha] at hx; cases hx
              | ok a =>
                cases hb : exprEval ev2 f (e1.drop 4) with
                | error e => rw [hb] at hy; cases hy
                | ok b =>
                  rw [ha] at hx; rw [hb] at hy
                  have := this _ _ ha hb
                  cases hx; cases hy
                  rcases a with _ | _ | a <;> rcases b with _ | _ | b <;> simp_all [exprNot]
            · next e1 _ _ _ _ _ _ _ _ _ =>
              intro x y hx hy
              cases ha : ev1 e1 with
              | error e => rw [ha] at hx; cases hx
              | ok a =>
                cases hb : ev2 e1 with
                | error e => rw [hb] at hy; cases hy
                | ok b =>
                  rw [ha] at hx; rw [hb] at hy
                  have := h e1 _ _ ha hb
                  cases hx; cases hy
                  simpa using this
          · exact ih _
        · split
          · split
            · exact triv
            · exact exprPair_agree _ _ (ih _) (ih _)
          · split
            · split
              · exact triv
              · exact exprPair_agree _ _ (ih _) (ih _)
            · exact triv

theorem evalExpr_agree {ev1 ev2 : Str → Except UB (Option Bool)} (h : ∀ x, AgreeE (ev1 x) (ev2 x)) (s : Str) :
    AgreeE (evalExpr ev1 s) (evalExpr ev2 s) := by
  intro x y hx hy
  unfold evalExpr at hx hy
  cases ha : exprEval ev1 (exprFuel s) s with
  | error e => rw [ha] at hx; cases hx
  | ok a =>
    cases hb : exprEval ev2 (exprFuel s) s with
    | error e => rw [hb] at hy; cases hy
    | ok b =>
      rw [ha] at hx; rw [hb] at hy
      have := exprEval_agree h _ s _ _ ha hb
      cases hx; cases hy
      rcases a with _ | _ | a <;> rcases b with _ | _ | b <;> simp_all

theorem compareNode_agree {cfg cfg' : Config} (hc : cfg.nlConfigured = cfg'.nlConfigured) (n n' : Node4D)
    (op data : Str) : AgreeE (compareNode cfg n op data) (compareNode cfg' n' op data) := by
  intro x y hx hy
  unfold compareNode at hx hy
  rw [← hc] at hy
  split at hx
  · next h => rw [if_pos h] at hy; cases hx; cases hy; rfl
  · next h =>
    rw [if_neg h] at hy
    cases hp : parse4DPat data with
    | error u => rw [hp] at hx; cases hx
    | ok o =>
      rw [hp] at hx hy
      cases o with
      | none =>
        dsimp only at hx hy
        split at hx
        · next h => rw [if_pos h] at hy; cases hx; cases hy; rfl
        · cases hx
      | some p =>
        dsimp only at hx hy
        split at hx
        · next h =>
          rw [if_pos h] at hy
          split at hx
          · next h => rw [if_pos h] at hy; cases hx; cases hy; rfl
          · cases hx
        · next h => rw [if_neg h] at hy; cases hx; cases hy; rfl

theorem compareString_agree (a b op data : Str) : AgreeE (compareString a op data) (compareString b op data) := by
  intro x y hx hy
  unfold compareString at hx hy
  split at hx
  · next h =>
    rw [if_pos h] at hy
    cases ha : foundBool (bmfind data a 0) with
    | error u => rw [ha] at hx; cases hx
    | ok v =>
      cases hb : foundBool (bmfind data b 0) with
      | error u => rw [hb] at hy; cases hy
      | ok w => rw [ha] at hx; rw [hb] at hy; cases hx; cases hy; rfl
  · next h =>
    rw [if_neg h] at hy
    split at hx
    · next h => rw [if_pos h] at hy; cases hx; cases hy; rfl
    · next h => rw [if_neg h] at hy; cases hx; cases hy; rfl

theorem compareBool_agree (a b : Bool) (op data : Str) :
    AgreeE (.ok (compareBool a op data)) (.ok (compareBool b op data)) := by
  intro x y hx hy
  cases hx; cases hy
  unfold compareBool
  repeat' split
  all_goals rfl

theorem nlLookup_agree {cfg cfg' : Config} (hc : cfg.nlConfigured = cfg'.nlConfigured) (a b : Node4D) :
    AgreeE (.ok (nlLookup cfg a)) (.ok (nlLookup cfg' b)) := by
  intro x y hx hy
  cases hx; cases hy
  unfold nlLookup
  rw [← hc]
  repeat' split
  all_goals rfl

theorem compareText_go_some (kludge : Bool) (data : Str) (cs : List Str) (x : Option Bool)
    (h : compareText.go kludge data cs = .ok x) : x.isSome = true := by
  induction cs with
  | nil => cases h; rfl
  | cons c cs ih =>
    unfold compareText.go at h
    split at h
    · cases h
    · cases h; rfl
    · exact ih h

theorem compareText_agree (kludge : Bool) (op data : Str) (cs ds : List Str) :
    AgreeE (compareText kludge op data cs) (compareText kludge op data ds) := by
  intro x y hx hy
  unfold compareText at hx hy
  split at hx
  · next h => rw [if_pos h] at hy; cases hx; cases hy; rfl
  · next h =>
    rw [if_neg h] at hy
    rw [compareText_go_some _ _ _ _ hx, compareText_go_some _ _ _ _ hy]

theorem agree_ite {α : Type} {c : Prop} [Decidable c] {a a' b b' : Except UB (Option α)} (h1 : AgreeE a a')
    (h2 : AgreeE b b') : AgreeE (if c then a else b) (if c then a' else b') := by
  split
  · exact h1
  · exact h2

theorem evalFunc_agree {cfg cfg' : Config} (hc : cfg.nlConfigured = cfg'.nlConfigured) (m n : MemMsg) (s : Str) :
    AgreeE (evalFunc cfg m s) (evalFunc cfg' n s) := by
  unfold evalFunc
  generalize splitStmt s = t
  obtain ⟨var, op, data⟩ := t
  dsimp only
  repeat'
    first
      | exact compareNode_agree hc _ _ _ _
      | exact compareString_agree _ _ _ _
      | exact compareBool_agree _ _ _ _
      | exact nlLookup_agree hc _ _
      | exact compareText_agree _ _ _ _ _
      | with_reducible apply agree_ite
  · intro x y hx hy; cases hx; cases hy; rfl
  · intro x y hx hy; cases hx

/-- Whether a filter can be evaluated does not depend on the message. -/
theorem filter_broken_const (f : Filter) (s u : HSt) (m n : MemMsg) (v : Bool)
    (hc : s.cfg.nlConfigured = u.cfg.nlConfigured) (h : f.Broken s m) : ¬ f.Says u n v := by
  intro h'
  exact absurd (evalExpr_agree (evalFunc_agree hc m n) _ _ _ h h') (by simp)

/-- C37. A filter of at most 200 characters that was accepted when the configuration was read can be
evaluated for every message. -/
theorem accepted_filter_works (f : Filter) (cfg : Config) (s : HSt) (m : MemMsg)
    (hc : s.cfg.nlConfigured = cfg.nlConfigured) (hl : f.text.length ≤ 200)
    (h : checkFilter cfg f.text = .ok true) : ¬ f.Broken s m := by
  intro hb
  unfold checkFilter at h
  cases he : evalExpr (evalFunc cfg {}) f.text with
  | error u => rw [he] at h; cases h
  | ok r =>
    rw [he] at h
    simp only [Except.map, Except.ok.injEq, Bool.or_eq_true, decide_eq_true_eq] at h
    rcases h with h | h
    · have := evalExpr_agree (evalFunc_agree hc m {}) _ _ _ hb he
      rw [h] at this; cases this
    · omega

theorem filterMsg_frame {env : Env} {af : (MemMsg → M Unit) → MemMsg → M Unit} {n : Nat} {m m' : MemMsg} {s t : HSt}
    (h : filterMsg env (handleMessage env af n) m s = .ok m' t) : Frame s t :=
  ((filterMsg_sat Good.frame env m fun _ g hg => handleMessage_gen Good.frame env af n g hg) s).1 _ _ h

/-- C37. With filters of at most 200 characters that were all accepted when the configuration was
read, a message that is not killed has been through all filters, and every command of every matching
one has been executed once, in order. -/
theorem filter_accepted (env : Env) (af : (MemMsg → M Unit) → MemMsg → M Unit) (n : Nat) (m m' : MemMsg) (s t : HSt)
    (hf : ∀ f ∈ s.cfg.filters, f.text.length ≤ 200 ∧ checkFilter s.cfg f.text = .ok true)
    (h : filterMsg env (handleMessage env af n) m s = .ok m' t) (hk : m'.has MMFLAG_KILL = false) :
    Pass env (handleMessage env af n) s.cfg.filters m s m' t := by
  refine filter_all_executed env _ m m' s t h hk fun f hm u n hc => ?_
  refine accepted_filter_works f s.cfg u n ?_ (hf f hm).1 (hf f hm).2
  rw [hc, (filterMsg_frame h).1]

/-- C37. What an external command does to the message is up to its exit code alone: with 0 the message
is killed, up to 19 it stays as it is, and from 20 on handling ends with an error. The command is run
once in any case. -/
theorem execute_exit_code (env : Env) (self : MemMsg → M Unit) (m : MemMsg) (cmd line : Str) (s : HSt) :
    (∃ x, expandFilter cmd x = .ok line ∧ x = m.xargs x.rfc1 x.rfc2 x.msg ∧
      (hasPct 114 cmd = true → x.rfc1 = env.tmpnam s.log 0) ∧ (hasPct 82 cmd = true → x.rfc2 = env.tmpnam s.log 1) ∧
      (hasPct 109 cmd = true → x.msg = env.tmpnam s.log 2) ∧ (hasPct 114 cmd = false → x.rfc1 = []) ∧
      (hasPct 82 cmd = false → x.rfc2 = []) ∧ (hasPct 109 cmd = false → x.msg = [])) →
    let t := { s with log := s.log ++ [.execute line] }
    (env.exec s.log line = 0 →
      runCommand env self m (.execute cmd) s = .ok { m with flags := m.flags ||| MMFLAG_KILL } t) ∧
    (0 < env.exec s.log line → env.exec s.log line < 20 → runCommand env self m (.execute cmd) s = .ok m t) ∧
    (20 ≤ env.exec s.log line → runCommand env self m (.execute cmd) s = .fail t) := by
  rintro ⟨x, hx, hm, h1, h2, h3, h4, h5, h6⟩
  have e : x = m.xargs (if hasPct 114 cmd then env.tmpnam s.log 0 else [])
      (if hasPct 82 cmd then env.tmpnam s.log 1 else []) (if hasPct 109 cmd then env.tmpnam s.log 2 else []) := by
    rw [hm]
    congr 1
    · cases hp : hasPct 114 cmd
      · exact h4 hp
      · exact h1 hp
    · cases hp : hasPct 82 cmd
      · exact h5 hp
      · exact h2 hp
    · cases hp : hasPct 109 cmd
      · exact h6 hp
      · exact h3 hp
  have run : runCommand env self m (.execute cmd) s =
      (if env.exec s.log line = 0 then pure { m with flags := m.flags ||| MMFLAG_KILL }
        else if 20 ≤ env.exec s.log line then M.fail else pure m : M MemMsg)
        { s with log := s.log ++ [.execute line] } := by
    show filterExecute env m cmd s = _
    unfold filterExecute
    rw [get_bind, ← e, hx]
    rfl
  refine ⟨fun h => ?_, fun h h' => ?_, fun h => ?_⟩
  · rw [run, if_pos h]; rfl
  · rw [run, if_neg (by omega), if_neg (by omega)]; rfl
  · rw [run, if_neg (by omega), if_pos h]; rfl

/-! ## Concrete cases -/

namespace Ex

/-- A filter of more than 200 characters that makes no sense. -/
def longFilter : Filter := ⟨b!"SUBJECT" ++ List.replicate 200 33, []⟩

/-- Kills everything. -/
def killAll : Filter := ⟨b!"TYPE=ECHOMAIL", [.kill]⟩

/-- C37 (violated). A broken filter of more than 200 characters is accepted, and disables the filters
after it: the second filter would kill the message, which is delivered. -/
theorem long_filter_disables :
    checkFilter (cfg [testArea]) longFilter.text = .ok true ∧
    (∃ t, handleMessage env noAf 2 (msg b!"test" []) (st { cfg [testArea] with filters := [longFilter, killAll] }) =
      .ok () t ∧ ((sent t.log).map (·.1) == [1, 3]) = true) ∧
    ∃ t, handleMessage env noAf 2 (msg b!"test" []) (st { cfg [testArea] with filters := [killAll] }) =
      .ok () t ∧ (t.log == []) = true :=
  ⟨by decide +kernel, ok_of (by decide +kernel), ok_of (by decide +kernel)⟩

/-- A command line. -/
example : expandFilter b!"raid %r %f" ((msg b!"test" []).xargs b!"x" [] []) = .ok b!"raid x " := by decide +kernel

/-- A filter that is accepted. -/
example : checkFilter (cfg []) b!"TYPE=ECHOMAIL and not FROMADDR=1:*/*.*" = .ok true := by decide +kernel

/-- A filter that is not. -/
example : checkFilter (cfg []) b!"TYPE=ECHOMAIL and" = .ok false := by decide +kernel

def aMsg : MemMsg := msg b!"test" []
def twoLogs : Filter := ⟨b!"TYPE=ECHOMAIL", [.writeLog b!"a", .kill, .writeLog b!"b"]⟩
def aState : HSt := st { cfg [] with filters := [⟨b!"TYPE=NETMAIL", [.kill]⟩, twoLogs, killAll] }

/-- A message killed by the second command of the second filter. -/
example : KilledBy env (fun _ => pure ()) aState.cfg.filters aMsg aState
    { aMsg with flags := aMsg.flags ||| MMFLAG_KILL } { aState with log := [.log b!"a"] }
    [⟨b!"TYPE=NETMAIL", [.kill]⟩] twoLogs [killAll] [.writeLog b!"a"] .kill [.writeLog b!"b"] aMsg aState aMsg
    { aState with log := [.log b!"a"] } :=
  ⟨rfl, rfl, .skip (by unfold Filter.Says; decide +kernel) (.nil _ _), by unfold Filter.Says; decide +kernel,
    .cons rfl (by decide) (.nil _ _), rfl, by decide⟩

/-- A message that goes through all filters. -/
example : Pass env (fun _ => pure ()) [⟨b!"TYPE=NETMAIL", [.kill]⟩, ⟨b!"AREA=TEST", [.writeLog b!"a", .twit]⟩] aMsg aState
    { aMsg with flags := aMsg.flags ||| MMFLAG_TWIT } { aState with log := [.log b!"a"] } :=
  .skip (by unfold Filter.Says; decide +kernel) (.run (by unfold Filter.Says; decide +kernel)
    (.cons rfl (by decide) (.cons rfl (by decide) (.nil _ _))) (.nil _ _))

end Ex

end CM
