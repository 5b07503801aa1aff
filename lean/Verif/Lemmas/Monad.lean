import Verif.Model.Config
/-! # Reasoning about the monad of message handling -/

namespace CM

theorem pure_run {α : Type} (a : α) (s : HSt) : (pure a : M α) s = .ok a s := rfl

theorem bind_run {α β : Type} (x : M α) (f : α → M β) (s : HSt) :
    (x >>= f) s = match x s with
      | .ub u => .ub u
      | .stuck => .stuck
      | .fail s => .fail s
      | .ok a s => f a s := rfl

theorem get_run (s : HSt) : M.get s = .ok s s := rfl
theorem set_run (s t : HSt) : M.set t s = .ok () t := rfl
theorem ub_run {α : Type} (u : UB) (s : HSt) : (M.ub u : M α) s = .ub u := rfl
theorem stuck_run {α : Type} (s : HSt) : (M.stuck : M α) s = .stuck := rfl
theorem fail_run {α : Type} (s : HSt) : (M.fail : M α) s = .fail s := rfl
theorem emit_run (e : Effect) (s : HSt) : M.emit e s = .ok () { s with log := s.log ++ [e] } := rfl
theorem get_bind {β : Type} (f : HSt → M β) (s : HSt) : (M.get >>= f) s = f s s := rfl
theorem set_bind {β : Type} (t : HSt) (f : Unit → M β) (s : HSt) : (M.set t >>= f) s = f () t := rfl
theorem pure_bind' {α β : Type} (a : α) (f : α → M β) (s : HSt) : ((pure a : M α) >>= f) s = f a s := rfl
theorem emit_bind {β : Type} (e : Effect) (f : Unit → M β) (s : HSt) :
    (M.emit e >>= f) s = f () { s with log := s.log ++ [e] } := rfl

theorem bind_ok {α β : Type} {x : M α} {f : α → M β} {s : HSt} {b : β} {t : HSt} :
    (x >>= f) s = .ok b t ↔ ∃ a u, x s = .ok a u ∧ f a u = .ok b t := by
  rw [bind_run]
  cases x s with
  | ok a u =>
    refine ⟨fun h => ⟨a, u, rfl, h⟩, ?_⟩
    rintro ⟨a', u', h, h'⟩
    cases h; exact h'
  | _ => simp

theorem bind_fail {α β : Type} {x : M α} {f : α → M β} {s t : HSt} :
    (x >>= f) s = .fail t ↔ x s = .fail t ∨ ∃ a u, x s = .ok a u ∧ f a u = .fail t := by
  rw [bind_run]
  cases x s with
  | ok a u =>
    refine ⟨fun h => .inr ⟨a, u, rfl, h⟩, ?_⟩
    rintro (h | ⟨a', u', h, h'⟩)
    · cases h
    · cases h; exact h'
  | _ => simp

theorem lift_ok {α : Type} {e : Except UB α} {s : HSt} {a : α} {t : HSt} :
    M.lift e s = .ok a t ↔ e = .ok a ∧ s = t := by
  cases e with
  | error u => simp [M.lift, M.ub]
  | ok b => simp [M.lift, pure_run]

theorem liftO_ok {α : Type} {e : Except UB (Option α)} {s : HSt} {a : α} {t : HSt} :
    M.liftO e s = .ok a t ↔ e = .ok (some a) ∧ s = t := by
  cases e with
  | error u => simp [M.liftO, M.ub]
  | ok b => cases b <;> simp [M.liftO, pure_run, M.stuck]

theorem lift_fail {α : Type} {e : Except UB α} {s t : HSt} : ¬ M.lift e s = .fail t := by
  cases e <;> simp [M.lift, M.ub, pure_run]

theorem liftO_fail {α : Type} {e : Except UB (Option α)} {s t : HSt} : ¬ M.liftO e s = .fail t := by
  cases e with
  | error u => simp [M.liftO, M.ub]
  | ok b => cases b <;> simp [M.liftO, pure_run, M.stuck]

theorem importMsg_ok {env : Env} {i : Nat} {m : MemMsg} {s t : HSt} :
    importMsg env i m s = .ok () t ↔
      env.importOk s.log i m = true ∧ t = { s with log := s.log ++ [.importMsg i m] } := by
  unfold importMsg
  split
  · next h => simp only [Out.ok.injEq, true_and, h, eq_comm]
  · next h => simp [h]

theorem importMsg_fail {env : Env} {i : Nat} {m : MemMsg} {s t : HSt} :
    importMsg env i m s = .fail t ↔ env.importOk s.log i m = false ∧ t = s := by
  unfold importMsg
  split
  · next h => simp [h]
  · next h => simp only [Out.fail.injEq, eq_comm, h]; simp

/-- Every state the computation ends in, whether it returns normally or with `FALSE`, is related to
the state it started in. -/
def Sat {α : Type} (R : HSt → HSt → Prop) (x : M α) : Prop :=
  ∀ s, (∀ a t, x s = .ok a t → R s t) ∧ ∀ t, x s = .fail t → R s t

section
variable {α β : Type} {R : HSt → HSt → Prop}

theorem Sat.pure (hr : ∀ s, R s s) (a : α) : Sat R (pure a : M α) := by
  intro s; refine ⟨?_, ?_⟩ <;> simp [pure_run]; exact hr s

theorem Sat.ub (u : UB) : Sat R (M.ub u : M α) := by
  intro s; refine ⟨?_, ?_⟩ <;> simp [ub_run]

theorem Sat.stuck : Sat R (M.stuck : M α) := by
  intro s; refine ⟨?_, ?_⟩ <;> simp [stuck_run]

theorem Sat.fail (hr : ∀ s, R s s) : Sat R (M.fail : M α) := by
  intro s; refine ⟨?_, ?_⟩ <;> simp [fail_run]; exact hr s

theorem Sat.get (hr : ∀ s, R s s) : Sat R M.get := by
  intro s; refine ⟨?_, ?_⟩ <;> simp [get_run]; exact hr s

theorem Sat.lift (hr : ∀ s, R s s) (e : Except UB α) : Sat R (M.lift e) := by
  intro s
  refine ⟨fun a t h => ?_, fun t h => absurd h lift_fail⟩
  rw [lift_ok] at h; exact h.2 ▸ hr s

theorem Sat.liftO (hr : ∀ s, R s s) (e : Except UB (Option α)) : Sat R (M.liftO e) := by
  intro s
  refine ⟨fun a t h => ?_, fun t h => absurd h liftO_fail⟩
  rw [liftO_ok] at h; exact h.2 ▸ hr s

theorem Sat.bind (ht : ∀ s t u, R s t → R t u → R s u) {x : M α} {f : α → M β} (hx : Sat R x)
    (hf : ∀ a, Sat R (f a)) : Sat R (x >>= f) := by
  intro s
  refine ⟨fun b t h => ?_, fun t h => ?_⟩
  · rw [bind_ok] at h
    obtain ⟨a, u, h1, h2⟩ := h
    exact ht _ _ _ ((hx s).1 _ _ h1) ((hf a u).1 _ _ h2)
  · rw [bind_fail] at h
    rcases h with h | ⟨a, u, h1, h2⟩
    · exact (hx s).2 _ h
    · exact ht _ _ _ ((hx s).1 _ _ h1) ((hf a u).2 _ h2)

/-- The state read by `get` is the one the rest starts in. -/
theorem Sat.get_bind {f : HSt → M β} (hf : ∀ s, ((∀ a t, f s s = .ok a t → R s t) ∧ ∀ t, f s s = .fail t → R s t)) :
    Sat R (M.get >>= f) := fun s => hf s

theorem Sat.import (env : Env) (i : Nat) (m : MemMsg) (hr : ∀ s, R s s)
    (he : ∀ s, R s { s with log := s.log ++ [.importMsg i m] }) : Sat R (importMsg env i m) := by
  intro s
  refine ⟨fun a t h => ?_, fun t h => ?_⟩
  · rw [importMsg_ok] at h; rw [h.2]; exact he _
  · rw [importMsg_fail] at h; rw [h.2]; exact hr _

theorem Sat.emit (e : Effect) (he : ∀ s, R s { s with log := s.log ++ [e] }) : Sat R (M.emit e) := by
  intro s; refine ⟨?_, ?_⟩ <;> simp [emit_run]; exact he _

end

/-- To show that a computation returns in a state with a property, evaluate it. -/
def Out.ends {α : Type} (p : HSt → Bool) : Out α → Bool
  | .ok _ t => p t
  | _ => false

theorem ok_of {x : Out Unit} {p : HSt → Bool} (h : x.ends p = true) : ∃ t, x = .ok () t ∧ p t = true := by
  cases x with
  | ok a t => exact ⟨t, rfl, h⟩
  | _ => cases h

end CM
