import Verif.Lemmas.Frame
/-! # Which generated messages are handed back to `HandleMessage` -/

namespace CM

theorem bindC {α β : Type} {x y : M α} {f g : α → M β} (P : α → Prop) (h : x = y)
    (hp : ∀ s a t, x s = .ok a t → P a) (hf : ∀ a, P a → f a = g a) : (x >>= f) = (y >>= g) := by
  subst h
  funext s
  rw [bind_run, bind_run]
  cases hx : x s with
  | ok a t => exact congrFun (hf a (hp _ _ _ hx)) t
  | _ => rfl

theorem bindC' {α β : Type} {x : M α} {f g : α → M β} (hf : ∀ a, f a = g a) : (x >>= f) = (x >>= g) :=
  bindC (fun _ => True) rfl (fun _ _ _ _ => trivial) fun a _ => hf a

section
variable {self self' : MemMsg → M Unit}

theorem bounce_congr (env : Env) (m : MemMsg) (hs : m.has MMFLAG_AUTOGEN = false → ∀ t, Gen t → self t = self' t)
    (reason : Str) (h : Bool) : bounce env self m reason h = bounce env self' m reason h := by
  unfold bounce
  split
  · rfl
  · next ha =>
    have hs := hs (by simpa using ha)
    refine bindC' fun s => ?_
    split
    · rfl
    · refine bindC Gen rfl (fun _ _ _ h => newNetmail_gen h) fun t gt => ?_
      split
      · rfl
      · refine bindC Gen rfl (fun _ _ _ h => gt.keep (mmAddLines_keep h)) fun t gt => ?_
        split
        · exact hs _ gt
        · exact bindC' fun cs => hs _ (gt.text cs)

/-- A message that asks for no receipt and no audit. -/
structure Plain (m : MemMsg) : Prop where
  area : m.area = []
  rreq : m.attrHas FLAG_RREQ = false
  audit : m.attrHas FLAG_AUDIT = false

theorem Gen.toPlain {m : MemMsg} (g : Gen m) : Plain m := ⟨g.area, g.rreq, g.audit⟩

theorem Plain.keep {m m' : MemMsg} (h : Plain m) (k : Keep m m') : Plain m' :=
  ⟨k.area.trans h.area, (k.attrHas _).trans h.rreq, (k.attrHas _).trans h.audit⟩

theorem newNetmail_plain {env : Env} {dest aka : Node4D} {to subject : Str} {flags : UInt16} {s t : HSt} {m : MemMsg}
    (h : newNetmail env dest aka to subject (FLAG_PVT ||| FLAG_IRRR) flags s = .ok m t) : Plain m := by
  unfold newNetmail at h
  rw [get_bind, bind_ok] at h
  obtain ⟨m1, s1, h1, h⟩ := h
  rw [liftO_ok] at h1
  have k := makeNetmailKludges_keep h1.1
  have p : Plain m1 := Plain.keep ⟨rfl, by dsimp [MemMsg.attrHas]; decide, by dsimp [MemMsg.attrHas]; decide⟩ k
  split at h
  · rw [liftO_ok] at h
    exact p.keep (mmAddLine_keep h.1)
  · cases h; exact p

theorem answerReceipt_congr (env : Env) (hs : ∀ m, Plain m → self m = self' m) (m : MemMsg) :
    answerReceipt env self m = answerReceipt env self' m := by
  unfold answerReceipt
  refine bindC' fun s => ?_
  split
  · rfl
  · refine bindC Plain rfl (fun _ _ _ h => newNetmail_plain h) fun t gt => ?_
    exact bindC Plain rfl (fun _ _ _ h => gt.keep (mmAddLines_keep h)) fun t gt => hs _ gt

theorem answerAudit_congr (env : Env) (hs : ∀ m, Gen m → self m = self' m) (m : MemMsg) :
    answerAudit env self m = answerAudit env self' m := by
  unfold answerAudit
  refine bindC' fun s => ?_
  split
  · rfl
  · refine bindC Gen rfl (fun _ _ _ h => newNetmail_gen h) fun t gt => ?_
    exact bindC Gen rfl (fun _ _ _ h => gt.keep (mmAddLines_keep h)) fun t gt => hs _ gt

theorem runCommand_congr (env : Env) (m : MemMsg)
    (hs : m.has MMFLAG_AUTOGEN = false → ∀ t, Gen t → self t = self' t) (c : Command) :
    runCommand env self m c = runCommand env self' m c := by
  cases c with
  | bounce h s =>
    refine bindC' fun line => ?_
    rw [bounce_congr env m hs]
  | _ => rfl

theorem runCommands_congr (env : Env) (m : MemMsg)
    (hs : m.has MMFLAG_AUTOGEN = false → ∀ t, Gen t → self t = self' t) (cs : List Command) :
    runCommands env self m cs = runCommands env self' m cs := by
  induction cs generalizing m with
  | nil => rfl
  | cons c cs ih =>
    refine bindC (Keep m) (runCommand_congr env m hs c) (fun _ _ _ h => runCommand_keep h) fun m1 k => ?_
    split
    · rfl
    · exact ih _ fun h => hs (by rw [← k.has _ (by decide)]; exact h)

theorem runFilters_congr (env : Env) (m : MemMsg)
    (hs : m.has MMFLAG_AUTOGEN = false → ∀ t, Gen t → self t = self' t) (fs : List Filter) :
    runFilters env self m fs = runFilters env self' m fs := by
  induction fs generalizing m with
  | nil => rfl
  | cons f fs ih =>
    unfold runFilters
    refine bindC' fun s => bindC' fun v => ?_
    split
    · rfl
    · exact ih _ hs
    · refine bindC (fun r => Keep m r.1) (runCommands_congr env m hs _) (fun _ _ _ h => runCommands_keep h) fun r k => ?_
      obtain ⟨m1, b⟩ := r
      dsimp only
      split
      · rfl
      · exact ih _ fun h => hs (by rw [← k.has _ (by decide)]; exact h)

theorem filterMsg_congr (env : Env) (m : MemMsg)
    (hs : m.has MMFLAG_AUTOGEN = false → ∀ t, Gen t → self t = self' t) :
    filterMsg env self m = filterMsg env self' m := bindC' fun _ => runFilters_congr env _ hs _

theorem importNetmail_congr (env : Env) (i : Nat) (m : MemMsg)
    (hs : m.attrHas FLAG_RREQ = true → ∀ m, Plain m → self m = self' m) :
    importNetmail env self i m = importNetmail env self' i m := by
  unfold importNetmail
  split
  · rfl
  · refine bindC' fun s => bindC' fun it => ?_
    refine bindC (fun m' => m'.attrHas FLAG_RREQ = m.attrHas FLAG_RREQ) rfl ?_ fun m1 k => ?_
    · intro s1 a t h
      have k0 : (stripSubject s.cfg m).attr = m.attr := by unfold stripSubject; split <;> rfl
      split at h
      · rw [bind_ok] at h
        obtain ⟨_, _, _, h⟩ := h
        cases h
        have k1 : (stripSubject s.cfg (stripSubject s.cfg m)).attr = m.attr := by
          unfold stripSubject; split <;> rfl
        unfold markSent MemMsg.attrHas
        dsimp only
        rw [k1, UInt16.and_assoc, show ~~~FLAG_LOCAL &&& FLAG_RREQ = FLAG_RREQ by decide]
        rw [or_and_u16 _ _ _ (by decide)]
      · cases h
        unfold MemMsg.attrHas; rw [k0]
    · split
      · next hc =>
        refine answerReceipt_congr env (hs ?_) _
        rw [← k]; simp only [Bool.and_eq_true] at hc; exact hc.1
      · rfl

theorem routeOn_congr (env : Env) (m : MemMsg)
    (hs : (m.has MMFLAG_AUTOGEN = false ∨ m.attrHas FLAG_AUDIT = true) → ∀ t, Gen t → self t = self' t) :
    routeOn env self m = routeOn env self' m := by
  unfold routeOn
  refine bindC' fun s => ?_
  dsimp only
  split
  · rfl
  · refine bindC' fun _ => ?_
    split
    · exact bounce_congr env _ (fun h => hs (Or.inl h)) _ _
    · refine bindC (fun m' => m'.attrHas FLAG_AUDIT = m.attrHas FLAG_AUDIT) rfl ?_ fun m1 k1 => ?_
      · intro s m' t h
        rw [handleAttach_keep h]
        unfold MemMsg.attrHas
        rw [← routedAttr_audit m]
      · refine bindC' fun s => ?_
        refine bindC (fun m' => m'.attrHas FLAG_AUDIT = m.attrHas FLAG_AUDIT) rfl ?_ fun m2 k2 => ?_
        · intro s m' t h
          rw [liftO_ok] at h
          rw [← k1]; exact (mmAddLine_keep h.1).attrHas _
        · refine bindC' fun _ => ?_
          split
          · next hc =>
            refine answerAudit_congr env (hs (Or.inr ?_)) _
            rw [← k2]; simp only [Bool.and_eq_true] at hc; exact hc.1.1
          · rfl

/-- Handling a generated message hands nothing back. -/
theorem handleNetmail_gen_eq (env : Env) (af af' self self' : MemMsg → M Unit) (m : MemMsg) (g : Gen m) :
    handleNetmail env af self m = handleNetmail env af' self' m := by
  unfold handleNetmail
  refine bindC Gen rfl (fun _ _ _ h => g.keep (prepNetmail_keep h)) fun m g => ?_
  refine bindC Gen (filterMsg_congr env m fun h => ?_) (fun _ _ _ h => g.keep (filterMsg_keep h)) fun m g => ?_
  · rw [g.autogen] at h; cases h
  split
  · rfl
  · refine bindC' fun s => ?_
    dsimp only
    rw [g.autogen]
    simp only [Bool.not_true, Bool.and_false, Bool.false_and, Bool.false_eq_true, if_false]
    refine bindC' fun _ => bindC' fun s => ?_
    split
    · exact importNetmail_congr env _ _ fun h => by rw [g.rreq] at h; cases h
    · refine routeOn_congr env _ fun h => ?_
      rcases h with h | h
      · rw [g.autogen] at h; cases h
      · rw [g.audit] at h; cases h

theorem handleNetmail_congr (env : Env) {af af' : MemMsg → M Unit} (m : MemMsg)
    (haf : ∀ m, af m = af' m) (hg : ∀ t, Gen t → self t = self' t)
    (hp : m.attrHas FLAG_RREQ = true → ∀ t, Plain t → self t = self' t) :
    handleNetmail env af self m = handleNetmail env af' self' m := by
  unfold handleNetmail
  refine bindC (Keep m) rfl (fun _ _ _ h => prepNetmail_keep h) fun m1 k1 => ?_
  refine bindC (Keep m) (filterMsg_congr env m1 fun _ => hg) (fun _ _ _ h => k1.trans (filterMsg_keep h)) fun m2 k2 => ?_
  split
  · rfl
  · refine bindC' fun s => ?_
    dsimp only
    refine bindC (fun _ => True) ?_ (fun _ _ _ _ => trivial) fun _ _ => ?_
    · split
      · exact haf _
      · rfl
    · split
      · rfl
      · refine bindC' fun s => ?_
        split
        · exact importNetmail_congr env _ _ fun h => hp (by rw [← k2.attrHas]; exact h)
        · exact routeOn_congr env _ fun _ => hg

theorem deliverEcho_congr (env : Env) (i : Nat) (a : Area) (aka : Node4D) (ls : List Link) (m : MemMsg)
    (hg : ∀ t, Gen t → self t = self' t) : deliverEcho env self i a aka ls m = deliverEcho env self' i a aka ls m := by
  unfold deliverEcho
  rw [filterMsg_congr env m fun _ => hg]

theorem handleEchomail_congr (env : Env) (m : MemMsg) (hg : ∀ t, Gen t → self t = self' t) :
    handleEchomail env self m = handleEchomail env self' m := by
  unfold handleEchomail
  dsimp only
  refine bindC' fun i => bindC' fun s => ?_
  split
  · rfl
  · split
    · rfl
    · split
      · rfl
      · split
        · rfl
        · split
          · rfl
          · split
            · rfl
            · unfold tossEcho
              refine bindC' fun s => ?_
              dsimp only
              refine bindC' fun _ => bindC' fun p => bindC' fun b => ?_
              split
              · rfl
              · exact bindC' fun sb => deliverEcho_congr env _ _ _ _ _ hg

end

end CM
