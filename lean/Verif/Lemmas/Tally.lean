import Verif.Model.Tally
import Verif.Lemmas.Echo

/-! # The counting functions do what those of `Model/Handle.lean` do -/

set_option linter.unusedSimpArgs false

namespace CM

/-- A run without its result. -/
def M.forget {α : Type} (x : M α) : M Unit := fun s =>
  match x s with
  | .ub u => .ub u
  | .stuck => .stuck
  | .fail s => .fail s
  | .ok _ s => .ok () s

theorem forget_bind {α β : Type} (x : M α) (f : α → M β) : (x >>= f).forget = x >>= fun a => (f a).forget := by
  funext s
  show M.forget _ s = M.bind _ _ s
  simp only [M.forget, bind_run, M.bind]
  cases x s <;> rfl

theorem forget_pure {α : Type} (a : α) : (pure a : M α).forget = pure () := rfl

theorem forget_ub {α : Type} (u : UB) : (M.ub u : M α).forget = M.ub u := rfl

theorem bind_unit (x : M Unit) : (x >>= fun _ => pure ()) = x := by
  funext s
  rw [bind_run]
  cases x s <;> rfl

theorem forget_then {α β : Type} (x : M α) (b : β) : (x >>= fun _ => (pure b : M β)).forget = x.forget := by
  funext s
  simp only [M.forget, bind_run]
  cases x s <;> rfl

theorem forget_thenF {α β : Type} (x : M α) (f : α → β) : (x >>= fun a => (pure (f a) : M β)).forget = x.forget := by
  funext s
  simp only [M.forget, bind_run]
  cases x s <;> rfl

theorem forget_unit (x : M Unit) : x.forget = x := by
  funext s
  simp only [M.forget]
  cases x s <;> rfl

theorem bind_forget {α β : Type} (x : M α) (f : Unit → M β) : (x.forget >>= f) = x >>= fun _ => f () := by
  funext s
  simp only [M.forget, bind_run]
  cases x s <;> rfl

theorem bind_bind {α β γ : Type} (x : M α) (f : α → M β) (g : β → M γ) : ((x >>= f) >>= g) = x >>= fun a => f a >>= g := by
  funext s
  simp only [bind_run]
  cases x s <;> rfl

theorem pure_bindM {α β : Type} (a : α) (f : α → M β) : ((pure a : M α) >>= f) = f a := rfl

theorem writeBadT_forget (env : Env) (m : MemMsg) (r : Str) : (writeBadT env m r).forget = writeBad env m r := by
  unfold writeBadT writeBad
  rw [forget_bind]
  refine congrArg _ (funext fun s => ?_)
  cases s.cfg.areas.findIdx? (·.type == .bad) with
  | none => rfl
  | some i =>
    dsimp only
    split
    · rw [forget_then, forget_unit]
    · rfl

theorem refuseT_forget (env : Env) (m : MemMsg) (r : Str) : (refuseT env m r).forget = writeBad env m r := by
  unfold refuseT
  rw [forget_thenF, writeBadT_forget]

/-- Sending to all, without the number. -/
theorem sendAllT_fst (env : Env) (aka : Node4D) (ls : List Link) : ∀ m, (sendAllT env aka m ls >>= fun r => (pure r.1 : M MemMsg)) = sendAll env aka m ls := by
  induction ls with
  | nil => intro m; rfl
  | cons l r ih =>
    intro m
    simp only [sendAllT, sendAll, bind_bind]
    refine congrArg _ (funext fun s => ?_)
    split
    · simp only [bind_bind]
      refine congrArg _ (funext fun m' => ?_)
      rw [← ih m']
      rfl
    · exact ih m

theorem deliverEchoT_forget (env : Env) (self : MemMsg → M Unit) (i : Nat) (a : Area) (aka : Node4D) (ls : List Link) (m : MemMsg) :
    (deliverEchoT env self i a aka ls m).forget = deliverEcho env self i a aka ls m := by
  unfold deliverEchoT deliverEcho
  rw [forget_bind]
  refine congrArg _ (funext fun m => ?_)
  split
  · rfl
  · rw [forget_bind]
    have key : ∀ (x : M (MemMsg × Nat)) (y : M MemMsg), (x >>= fun r => (pure r.1 : M MemMsg)) = y →
        (x >>= fun r => M.forget (if r.1.has MMFLAG_TWIT then pure { texts := [i], written := r.2 }
          else if !r.1.has MMFLAG_EXPORTED && a.base.isSome then do
            let s ← M.get
            importMsg env i (markSent (stripSubject s.cfg r.1))
            pure ({ texts := [i], written := r.2, imported := 1 } : Tally)
          else pure { texts := [i], written := r.2 })) = y >>= fun m => (if m.has MMFLAG_TWIT then pure ()
            else if !m.has MMFLAG_EXPORTED && a.base.isSome then do
              let s ← M.get
              importMsg env i (markSent (stripSubject s.cfg m))
            else pure ()) := by
      intro x y h
      rw [← h, bind_bind]
      refine congrArg _ (funext fun r => ?_)
      rw [pure_bindM]
      split
      · rfl
      · split
        · rw [forget_bind]
          refine congrArg _ (funext fun s => ?_)
          rw [forget_then, forget_unit]
        · rfl
    refine key _ _ ?_
    split
    · rfl
    · exact sendAllT_fst env aka ls m

theorem tossEchoT_forget (env : Env) (self : MemMsg → M Unit) (i : Nat) (a : Area) (aka : Aka) (ls : List Link) (m : MemMsg) :
    (tossEchoT env self i a aka ls m).forget = tossEcho env self i a aka ls m := by
  unfold tossEchoT tossEcho
  rw [forget_bind]
  refine congrArg _ (funext fun s => ?_)
  dsimp only
  rw [forget_bind]
  refine congrArg _ (funext fun _ => ?_)
  rw [forget_bind]
  refine congrArg _ (funext fun p => ?_)
  rw [forget_bind]
  refine congrArg _ (funext fun d => ?_)
  split
  · rw [forget_thenF]
    split
    · exact writeBadT_forget _ _ _
    · rfl
  · rw [forget_bind]
    refine congrArg _ (funext fun sb => ?_)
    exact deliverEchoT_forget _ _ _ _ _ _ _

theorem handleEchomailT_forget (env : Env) (self : MemMsg → M Unit) (m : MemMsg) :
    (handleEchomailT env self m).forget = handleEchomail env self m := by
  unfold handleEchomailT handleEchomail
  dsimp only
  rw [forget_bind]
  refine congrArg _ (funext fun i => ?_)
  rw [forget_bind]
  refine congrArg _ (funext fun s => ?_)
  cases s.cfg.areas[i]? with
  | none => rfl
  | some a =>
    dsimp only
    split
    · exact refuseT_forget _ _ _
    · split
      · rfl
      · cases resolveLinks s.cfg.nodes a.tossNodes with
        | none => rfl
        | some ls =>
          dsimp only
          cases denied { m with type := PKTS_ECHOMAIL } ls with
          | some r => exact refuseT_forget _ _ _
          | none =>
            dsimp only
            cases a.aka.bind (s.cfg.akas[·]?) with
            | none => rfl
            | some aka => exact tossEchoT_forget _ _ _ _ _ _ _

theorem importNetmailT_forget (env : Env) (self : MemMsg → M Unit) (i : Nat) (m : MemMsg) :
    (importNetmailT env self i m).forget = importNetmail env self i m := by
  unfold importNetmailT importNetmail
  split
  · rfl
  · rw [forget_bind]
    refine congrArg _ (funext fun s => ?_)
    dsimp only
    rw [forget_bind]
    refine congrArg _ (funext fun b => ?_)
    rw [forget_bind]
    split
    · simp only [bind_bind, pure_bindM, forget_then, forget_unit]
    · simp only [pure_bindM, forget_then, forget_unit]

theorem checkLoopT_forget (env : Env) (m : MemMsg) : (checkLoopT env m).forget = checkLoop env m := by
  unfold checkLoopT checkLoop
  rw [forget_bind]
  refine congrArg _ (funext fun s => ?_)
  split
  · rw [forget_bind]
    refine congrArg _ (funext fun l => ?_)
    split
    · rw [forget_bind]
      refine congrArg _ (funext fun t => ?_)
      exact refuseT_forget _ _ _
    · rfl
  · rfl

theorem routeOnT_forget (env : Env) (self : MemMsg → M Unit) (m : MemMsg) : (routeOnT env self m).forget = routeOn env self m := by
  unfold routeOnT routeOn
  rw [forget_bind]
  refine congrArg _ (funext fun s => ?_)
  dsimp only
  generalize ({ m with attr := routedAttr m, type := _ } : MemMsg) = m1
  generalize routeNetmail s.cfg.nl s.cfg.routes s.cfg.changes m.dest _ = r
  rcases r with _ | ⟨dest, pri, aka⟩
  · exact refuseT_forget _ _ _
  · dsimp only
    generalize ({ m with attr := routedAttr m, type := pri.toType } : MemMsg) = m2
    rw [← checkLoopT_forget, bind_forget, forget_bind]
    refine congrArg _ (funext fun t => ?_)
    cases bounceReason s.cfg m2 with
    | some r => dsimp only; rw [forget_then, forget_unit]
    | none =>
      simp only [forget_bind, forget_then, forget_unit]
      refine congrArg _ (funext fun m => ?_)
      refine congrArg _ (funext fun s => ?_)
      refine congrArg _ (funext fun m => ?_)
      refine congrArg _ (funext fun _ => ?_)
      exact bind_unit _

theorem handleNetmailT_forget (env : Env) (af self : MemMsg → M Unit) (m : MemMsg) : (handleNetmailT env af self m).forget = handleNetmail env af self m := by
  unfold handleNetmailT handleNetmail
  rw [forget_bind]
  refine congrArg _ (funext fun m => ?_)
  rw [forget_bind]
  refine congrArg _ (funext fun m => ?_)
  split
  · rfl
  · rw [forget_bind]
    refine congrArg _ (funext fun s => ?_)
    dsimp only
    rw [forget_bind]
    refine congrArg _ (funext fun _ => ?_)
    split
    · rfl
    · rw [forget_bind]
      refine congrArg _ (funext fun s => ?_)
      cases netmailArea s.cfg m.dest with
      | some i => exact importNetmailT_forget _ _ _ _
      | none => exact routeOnT_forget _ _ _

/-- Counting changes nothing: the counting `HandleMessage` does what `HandleMessage` does. -/
theorem handleMessageT_forget (env : Env) (af : (MemMsg → M Unit) → MemMsg → M Unit) (f : Nat) (m : MemMsg) :
    (handleMessageT env af f m).forget = handleMessage env af f m := by
  cases f with
  | zero => rfl
  | succ f =>
    show M.forget (if m.area = [] then _ else _) = if m.area = [] then _ else _
    split
    · exact handleNetmailT_forget _ _ _ _
    · exact handleEchomailT_forget _ _ _

end CM
