import Verif.Lemmas.Keep
import Verif.Model.Handle
/-! # What message handling leaves alone

`Frame`: only the areas of the configuration change, and effects are only added. -/

namespace CM

/-- Only areas are changed or added in the configuration, and effects are only added. -/
def Frame (s t : HSt) : Prop :=
  t.cfg = { s.cfg with
    areas := t.cfg.areas
    changed := t.cfg.changed } ∧ s.log <+: t.log

theorem Frame.refl (s : HSt) : Frame s s := ⟨rfl, List.prefix_refl _⟩

theorem Frame.trans (s t u : HSt) (h1 : Frame s t) (h2 : Frame t u) : Frame s u := by
  refine ⟨?_, h1.2.trans h2.2⟩
  have a := h1.1
  have b := h2.1
  rw [a] at b
  exact b

theorem Frame.emit (s : HSt) (e : Effect) : Frame s { s with log := s.log ++ [e] } :=
  ⟨rfl, List.prefix_append _ _⟩

/-- The computation does not touch the state. -/
abbrev Quiet {α : Type} (x : M α) : Prop := Sat (fun s t => t = s) x

theorem Quiet.bind {α β : Type} {x : M α} {f : α → M β} (hx : Quiet x) (hf : ∀ a, Quiet (f a)) :
    Quiet (x >>= f) := Sat.bind (fun _ _ _ h1 h2 => h2.trans h1) hx hf

theorem Quiet.pure {α : Type} (a : α) : Quiet (pure a : M α) := Sat.pure (R := fun s t => t = s) (fun _ => rfl) a
theorem Quiet.lift {α : Type} (e : Except UB α) : Quiet (M.lift e) := Sat.lift (R := fun s t => t = s) (fun _ => rfl) e
theorem Quiet.liftO {α : Type} (e : Except UB (Option α)) : Quiet (M.liftO e) := Sat.liftO (R := fun s t => t = s) (fun _ => rfl) e
theorem Quiet.get : Quiet M.get := Sat.get (fun _ => rfl)
theorem Quiet.ub {α : Type} (u : UB) : Quiet (M.ub u : M α) := Sat.ub u

theorem Quiet.noFail {α : Type} {x : M α} (hx : Quiet x) {s t : HSt} {a : α} (h : x s = .ok a t) : t = s :=
  (hx s).1 _ _ h

/-- Quiet computations satisfy every reflexive relation. -/
theorem Quiet.sat {α : Type} {R : HSt → HSt → Prop} (hr : ∀ s, R s s) {x : M α} (hx : Quiet x) : Sat R x :=
  fun s => ⟨fun a t h => by rw [(hx s).1 a t h]; exact hr s, fun t h => by rw [(hx s).2 t h]; exact hr s⟩

theorem mmAddLines_quiet (m : MemMsg) (ls : List Str) : Quiet (mmAddLines m ls) := by
  induction ls generalizing m with
  | nil => exact Quiet.pure _
  | cons l ls ih => exact Quiet.bind (Quiet.liftO _) fun m => ih m

theorem addBufs_quiet (cs : List Str) (ls : List Str) : Quiet (addBufs cs ls) := by
  induction ls generalizing cs with
  | nil => exact Quiet.pure _
  | cons l ls ih => exact Quiet.bind (Quiet.liftO _) fun m => ih m

theorem newNetmail_quiet (env : Env) (dest aka : Node4D) (to subject : Str) (attr flags : UInt16) :
    Quiet (newNetmail env dest aka to subject attr flags) := by
  unfold newNetmail
  refine Quiet.bind Quiet.get fun s => Quiet.bind (Quiet.liftO _) fun m => ?_
  split
  · exact Quiet.liftO _
  · exact Quiet.pure _

theorem matchFlags_quiet (g : UInt8) (s : Str) : Quiet (matchFlags g s) := Quiet.liftO _

theorem findGroupDefault_quiet (g : UInt8) (as : List Area) : Quiet (findGroupDefault g as) := by
  induction as with
  | nil => exact Quiet.pure _
  | cons a as ih =>
    unfold findGroupDefault
    split
    · refine Quiet.bind (matchFlags_quiet _ _) fun b => ?_
      split
      · exact Quiet.pure _
      · exact ih
    · exact ih

theorem findDefault_quiet (as : List Area) (cn : Option ConfigNode) : Quiet (findDefault as cn) := by
  unfold findDefault
  refine Quiet.bind ?_ fun d => ?_
  · split
    · split
      · exact findGroupDefault_quiet _ _
      · exact Quiet.pure _
    · exact Quiet.pure _
  · split <;> exact Quiet.pure _

theorem addGroupLinks_quiet (g : UInt8) (ro : Bool) (ts : List TossNode) (i : Nat) (ns : List ConfigNode) :
    Quiet (addGroupLinks g ro ts i ns) := by
  induction ns generalizing ts i with
  | nil => exact Quiet.pure _
  | cons n ns ih =>
    unfold addGroupLinks
    refine Quiet.bind (matchFlags_quiet _ _) fun b => ?_
    split
    · refine Quiet.bind ?_ fun ro => ih _ _
      split
      · exact Quiet.pure _
      · exact matchFlags_quiet _ _
    · exact ih _ _

/-! ## Any relation that is reflexive, transitive and allows new effects other than echomail sent -/

/-- Is this the writing of an echomail to a packet? -/
def Effect.isEcho : Effect → Bool
  | .echo _ _ _ => true
  | _ => false

structure Good (R : HSt → HSt → Prop) : Prop where
  refl : ∀ s, R s s
  trans : ∀ s t u, R s t → R t u → R s u
  emit : ∀ s e, e.isEcho = false → R s { s with log := s.log ++ [e] }

theorem Good.frame : Good Frame := ⟨Frame.refl, Frame.trans, fun s e _ => Frame.emit s e⟩

section
variable {R : HSt → HSt → Prop} (G : Good R)
include G

theorem Good.pure {α : Type} (a : α) : Sat R (Pure.pure a : M α) := Sat.pure G.refl a
theorem Good.bind {α β : Type} {x : M α} {f : α → M β} (hx : Sat R x) (hf : ∀ a, Sat R (f a)) :
    Sat R (x >>= f) := Sat.bind G.trans hx hf
theorem Good.bindP {α β : Type} {x : M α} {f : α → M β} (P : α → Prop) (hx : Sat R x)
    (hp : ∀ s a t, x s = .ok a t → P a) (hf : ∀ a, P a → Sat R (f a)) : Sat R (x >>= f) := by
  intro s
  refine ⟨fun b t h => ?_, fun t h => ?_⟩
  · rw [bind_ok] at h
    obtain ⟨a, u, h1, h2⟩ := h
    exact G.trans _ _ _ ((hx s).1 _ _ h1) ((hf a (hp _ _ _ h1) u).1 _ _ h2)
  · rw [bind_fail] at h
    rcases h with h | ⟨a, u, h1, h2⟩
    · exact (hx s).2 _ h
    · exact G.trans _ _ _ ((hx s).1 _ _ h1) ((hf a (hp _ _ _ h1) u).2 _ h2)
theorem Good.quiet {α : Type} {x : M α} (h : Quiet x) : Sat R x := h.sat G.refl
theorem Good.get : Sat R M.get := Sat.get G.refl
theorem Good.lift {α : Type} (e : Except UB α) : Sat R (M.lift e) := Sat.lift G.refl e
theorem Good.liftO {α : Type} (e : Except UB (Option α)) : Sat R (M.liftO e) := Sat.liftO G.refl e
theorem Good.import (env : Env) (i : Nat) (m : MemMsg) : Sat R (importMsg env i m) :=
  Sat.import env i m G.refl fun s => G.emit s _ rfl

theorem writeBad_sat (env : Env) (m : MemMsg) (reason : Str) : Sat R (writeBad env m reason) := by
  unfold writeBad
  refine G.bind G.get fun s => ?_
  split
  · exact G.pure _
  · split
    · exact G.import _ _ _
    · exact G.pure _

theorem bounce_sat (env : Env) {self : MemMsg → M Unit} (m : MemMsg)
    (hs : m.has MMFLAG_AUTOGEN = false → ∀ t, Gen t → Sat R (self t))
    (reason : Str) (h : Bool) : Sat R (bounce env self m reason h) := by
  unfold bounce
  split
  · exact G.pure _
  · next ha =>
    have hs := hs (by simpa using ha)
    refine G.bind G.get fun s => ?_
    split
    · exact G.pure _
    · refine G.bindP Gen (G.quiet (newNetmail_quiet _ _ _ _ _ _ _)) (fun _ _ _ h => newNetmail_gen h) fun t gt => ?_
      split
      · exact Sat.ub _
      · refine G.bindP Gen (G.quiet (mmAddLines_quiet _ _)) (fun _ _ _ h => gt.keep (mmAddLines_keep h)) fun t gt => ?_
        split
        · exact hs _ gt
        · exact G.bind (G.quiet (addBufs_quiet _ _)) fun cs => hs _ (gt.text cs)

theorem answerReceipt_sat (env : Env) {self : MemMsg → M Unit} (hs : ∀ m, Sat R (self m)) (m : MemMsg) :
    Sat R (answerReceipt env self m) := by
  unfold answerReceipt
  refine G.bind G.get fun s => ?_
  split
  · exact G.pure _
  · refine G.bind (G.quiet (newNetmail_quiet _ _ _ _ _ _ _)) fun t => ?_
    exact G.bind (G.quiet (mmAddLines_quiet _ _)) fun t => hs _

theorem answerAudit_sat (env : Env) {self : MemMsg → M Unit} (hs : ∀ m, Gen m → Sat R (self m)) (m : MemMsg) :
    Sat R (answerAudit env self m) := by
  unfold answerAudit
  refine G.bind G.get fun s => ?_
  split
  · exact G.pure _
  · refine G.bindP Gen (G.quiet (newNetmail_quiet _ _ _ _ _ _ _)) (fun _ _ _ h => newNetmail_gen h) fun t gt => ?_
    exact G.bindP Gen (G.quiet (mmAddLines_quiet _ _)) (fun _ _ _ h => gt.keep (mmAddLines_keep h)) fun t gt => hs _ gt

theorem filterCopy_sat (env : Env) (m : MemMsg) (tag : Str) : Sat R (filterCopy env m tag) := by
  unfold filterCopy
  refine G.bind G.get fun s => ?_
  split
  · exact G.pure _
  · refine G.bind (G.quiet (addBufs_quiet _ _)) fun cs => ?_
    split
    · intro s
      unfold copyInto
      refine ⟨fun a t h => ?_, fun t h => ?_⟩
      · split at h
        · next h1 => cases h; exact ((G.import _ _ _) s).1 _ _ h1
        · next h1 => cases h; exact ((G.import _ _ _) s).2 _ h1
        · cases h
        · cases h
      · split at h <;> cases h
    · exact Sat.ub _

theorem filterExecute_sat (env : Env) (m : MemMsg) (cmd : Str) : Sat R (filterExecute env m cmd) := by
  unfold filterExecute
  refine G.bind G.get fun s => ?_
  refine G.bind (G.lift _) fun line => G.bind (Sat.emit _ fun s => G.emit s _ rfl) fun _ => ?_
  split
  · exact G.pure _
  · split
    · exact Sat.fail G.refl
    · exact G.pure _

omit G in
theorem filterRemap_quiet (m : MemMsg) (name : Str) (dest : Pat4) : Quiet (filterRemap m name dest) := by
  unfold filterRemap
  split
  · exact Quiet.pure _
  · refine Quiet.bind Quiet.get fun s => Quiet.bind (Quiet.lift _) fun to => ?_
    refine Quiet.bind (Quiet.liftO _) fun n => Quiet.bind (Quiet.lift _) fun ls => ?_
    refine Quiet.bind (addBufs_quiet _ _) fun cs => ?_
    dsimp only
    split <;> split
    · exact Quiet.ub _
    · exact mmAddLines_quiet _ _
    · exact Quiet.ub _
    · exact mmAddLines_quiet _ _

omit G in
theorem filterMasquerade_quiet (m : MemMsg) (name : Str) (dest : Pat4) :
    Quiet (filterMasquerade m name dest) := by
  unfold filterMasquerade
  refine Quiet.bind Quiet.get fun s => Quiet.bind (Quiet.lift _) fun frm => ?_
  refine Quiet.bind (addBufs_quiet _ _) fun cs => ?_
  dsimp only
  refine Quiet.bind ?_ fun n => ?_
  · split
    · exact Quiet.liftO _
    · exact Quiet.pure _
  · refine Quiet.bind (Quiet.lift _) fun ls => Quiet.bind (Quiet.lift _) fun out => ?_
    refine Quiet.bind (addBufs_quiet _ _) fun cs => Quiet.bind (Quiet.liftO _) fun p => Quiet.pure _

theorem runCommand_sat (env : Env) {self : MemMsg → M Unit} (m : MemMsg)
    (hs : m.has MMFLAG_AUTOGEN = false → ∀ t, Gen t → Sat R (self t))
    (c : Command) : Sat R (runCommand env self m c) := by
  cases c with
  | kill => exact G.pure _
  | twit => exact G.pure _
  | copy tag => exact filterCopy_sat G _ _ _
  | execute cmd => exact filterExecute_sat G _ _ _
  | writeLog s =>
    exact G.bind (G.lift _) fun l => G.bind (Sat.emit _ fun s => G.emit s _ rfl) fun _ => G.pure _
  | writeBad s => exact G.bind (writeBad_sat G _ _ _) fun _ => G.pure _
  | bounce h s => exact G.bind (G.lift _) fun l => G.bind (bounce_sat G env _ hs _ _) fun _ => G.pure _
  | remap n d => exact G.quiet (filterRemap_quiet _ _ _)
  | masquerade n d => exact G.quiet (filterMasquerade_quiet _ _ _)

theorem runCommands_sat (env : Env) {self : MemMsg → M Unit} (m : MemMsg)
    (hs : m.has MMFLAG_AUTOGEN = false → ∀ t, Gen t → Sat R (self t))
    (cs : List Command) : Sat R (runCommands env self m cs) := by
  induction cs generalizing m with
  | nil => exact G.pure _
  | cons c cs ih =>
    refine G.bindP (Keep m) (runCommand_sat G env m hs c) (fun _ _ _ h => runCommand_keep h) fun m1 k => ?_
    split
    · exact G.pure _
    · exact ih _ fun h => hs (by rw [← k.has _ (by decide)]; exact h)

theorem runFilters_sat (env : Env) {self : MemMsg → M Unit} (m : MemMsg)
    (hs : m.has MMFLAG_AUTOGEN = false → ∀ t, Gen t → Sat R (self t))
    (fs : List Filter) : Sat R (runFilters env self m fs) := by
  induction fs generalizing m with
  | nil => exact G.pure _
  | cons f fs ih =>
    refine G.bind G.get fun s => G.bind (G.lift _) fun v => ?_
    split
    · exact G.pure _
    · exact ih _ hs
    · refine G.bindP (fun r => Keep m r.1) (runCommands_sat G env _ hs _) (fun _ _ _ h => runCommands_keep h) fun r k => ?_
      obtain ⟨m1, b⟩ := r
      dsimp only at k ⊢
      split
      · exact G.pure _
      · exact ih _ fun h => hs (by rw [← k.has _ (by decide)]; exact h)

theorem filterMsg_sat (env : Env) {self : MemMsg → M Unit} (m : MemMsg)
    (hs : m.has MMFLAG_AUTOGEN = false → ∀ t, Gen t → Sat R (self t)) :
    Sat R (filterMsg env self m) := G.bind G.get fun _ => runFilters_sat G env _ hs _

theorem importNetmail_sat (env : Env) {self : MemMsg → M Unit} (i : Nat) (m : MemMsg)
    (hs : m.attrHas FLAG_RREQ = true → ∀ m, Sat R (self m)) : Sat R (importNetmail env self i m) := by
  unfold importNetmail
  split
  · exact G.pure _
  · refine G.bind G.get fun s => ?_
    dsimp only
    have hst : ∀ c, (stripSubject c m).attr = m.attr := by
      intro c; unfold stripSubject; split <;> rfl
    refine G.bind ?_ fun b => G.bindP (fun m' => m'.attrHas FLAG_RREQ = m.attrHas FLAG_RREQ) ?_ ?_ fun m' hm => ?_
    · split
      · exact G.pure _
      · exact G.lift _
    · split
      · exact G.bind (G.import _ _ _) fun _ => G.pure _
      · exact G.pure _
    · intro s m' t h
      split at h
      · rw [bind_ok] at h
        obtain ⟨_, u, _, h⟩ := h
        cases h
        unfold MemMsg.attrHas markSent
        have e : ∀ c, (stripSubject c (stripSubject c m)).attr = m.attr := by
          intro c; unfold stripSubject; split <;> rfl
        dsimp only
        rw [e, UInt16.and_assoc, show ~~~FLAG_LOCAL &&& FLAG_RREQ = FLAG_RREQ by decide,
          or_and_u16 _ _ _ (by decide)]
      · cases h
        unfold MemMsg.attrHas; rw [hst]
    · split
      · next hc =>
        refine answerReceipt_sat G env (hs ?_) _
        rw [← hm]; simp only [Bool.and_eq_true] at hc; exact hc.1
      · exact G.pure _

theorem checkLoop_sat (env : Env) (m : MemMsg) : Sat R (checkLoop env m) := by
  unfold checkLoop
  refine G.bind G.get fun s => ?_
  split
  · refine G.bind (G.lift _) fun l => ?_
    split
    · refine G.bind (G.quiet ?_) fun t => writeBad_sat G _ _ _
      exact Quiet.bind (Quiet.lift _) fun ls => Quiet.bind (addBufs_quiet _ _) fun cs => Quiet.pure _
    · exact G.pure _
  · exact G.pure _

theorem attachFiles_sat (env : Env) (m : MemMsg) (dest : Node4D) (ws : List Str) :
    Sat R (attachFiles env m dest ws) := by
  induction ws with
  | nil => exact G.pure _
  | cons w ws ih =>
    refine G.bind ?_ fun _ => ih
    unfold attachFile
    refine G.bind G.get fun s => ?_
    split
    · split
      · dsimp only
        split
        · exact G.bind (Sat.emit _ fun s => G.emit s _ rfl) fun _ => Sat.emit _ fun s => G.emit s _ rfl
        · exact Sat.fail G.refl
      · exact Sat.emit _ fun s => G.emit s _ rfl
    · dsimp only
      split
      · exact G.bind (Sat.emit _ fun s => G.emit s _ rfl) fun _ => Sat.emit _ fun s => G.emit s _ rfl
      · exact Sat.emit _ fun s => G.emit s _ rfl

theorem handleAttach_sat (env : Env) (m : MemMsg) (dest : Node4D) : Sat R (handleAttach env m dest) := by
  unfold handleAttach
  split
  · exact G.bind (G.liftO _) fun ws => G.bind (attachFiles_sat G _ _ _ _) fun _ => G.pure _
  · exact G.pure _

theorem sendNetmail_sat (env : Env) (dest aka : Node4D) (m : MemMsg) : Sat R (sendNetmail env dest aka m) := by
  intro s
  unfold sendNetmail
  refine ⟨fun a t h => ?_, fun t h => ?_⟩
  · split at h
    · cases h; exact G.emit _ _ rfl
    · cases h
  · split at h
    · cases h
    · cases h; exact G.refl _

omit G in
theorem routedAttr_audit (m : MemMsg) : routedAttr m &&& FLAG_AUDIT = m.attr &&& FLAG_AUDIT := by
  unfold routedAttr
  dsimp only
  split
  · rw [UInt16.and_assoc, UInt16.and_assoc]
    congr 1
  · rw [UInt16.and_assoc]
    congr 1

omit G in
theorem handleAttach_keep {env : Env} {m m' : MemMsg} {dest : Node4D} {s t : HSt}
    (h : handleAttach env m dest s = .ok m' t) : m' = { m with subject := m'.subject } := by
  unfold handleAttach at h
  split at h
  · rw [bind_ok] at h
    obtain ⟨ws, u, _, h⟩ := h
    rw [bind_ok] at h
    obtain ⟨_, u, _, h⟩ := h
    cases h; rfl
  · cases h; rfl

theorem routeOn_sat (env : Env) {self : MemMsg → M Unit} (m : MemMsg)
    (hs : (m.has MMFLAG_AUTOGEN = false ∨ m.attrHas FLAG_AUDIT = true) → ∀ t, Gen t → Sat R (self t)) :
    Sat R (routeOn env self m) := by
  unfold routeOn
  refine G.bind G.get fun s => ?_
  dsimp only
  split
  · exact writeBad_sat G _ _ _
  · refine G.bind (checkLoop_sat G _ _) fun _ => ?_
    split
    · exact bounce_sat G env _ (fun h => hs (Or.inl h)) _ _
    · refine G.bindP (fun m' => m'.attrHas FLAG_AUDIT = m.attrHas FLAG_AUDIT) (handleAttach_sat G _ _ _) ?_ fun m1 k1 => ?_
      · intro s m' t h
        rw [handleAttach_keep h]
        unfold MemMsg.attrHas
        rw [← routedAttr_audit m]
      · refine G.bind G.get fun s => ?_
        refine G.bindP (fun m' => m'.attrHas FLAG_AUDIT = m.attrHas FLAG_AUDIT) (G.liftO _) ?_ fun m2 k2 => ?_
        · intro s m' t h
          rw [liftO_ok] at h
          rw [← k1]; exact (mmAddLine_keep h.1).attrHas _
        · refine G.bind (sendNetmail_sat G _ _ _ _) fun _ => ?_
          split
          · next hc =>
            refine answerAudit_sat G env (hs (Or.inr ?_)) _
            rw [← k2]; simp only [Bool.and_eq_true] at hc; exact hc.1.1
          · exact G.pure _

omit G in
theorem prepNetmail_quiet (m : MemMsg) : Quiet (prepNetmail m) := by
  unfold prepNetmail
  dsimp only
  split
  · exact Quiet.pure _
  · split
    · exact Quiet.bind (Quiet.liftO _) fun cs => Quiet.pure _
    · exact Quiet.pure _

theorem handleNetmail_sat (env : Env) {af self : MemMsg → M Unit} (ha : ∀ m, Sat R (af m))
    (hs : ∀ m, Sat R (self m)) (m : MemMsg) : Sat R (handleNetmail env af self m) := by
  unfold handleNetmail
  refine G.bind (G.quiet (prepNetmail_quiet m)) fun m => G.bind (filterMsg_sat G env m fun _ t _ => hs t) fun m => ?_
  split
  · exact G.pure _
  · refine G.bind G.get fun s => ?_
    dsimp only
    refine G.bind ?_ fun _ => ?_
    · split
      · exact ha _
      · exact G.pure _
    · split
      · exact G.pure _
      · refine G.bind G.get fun s => ?_
        split
        · exact importNetmail_sat G env _ _ fun _ => hs
        · exact routeOn_sat G env _ fun _ t _ => hs t

/-- Handling a generated message generates no further messages and never reaches AreaFix. -/
theorem handleNetmail_gen (env : Env) (af self : MemMsg → M Unit) (m : MemMsg) (g : Gen m) :
    Sat R (handleNetmail env af self m) := by
  unfold handleNetmail
  refine G.bindP Gen (G.quiet (prepNetmail_quiet m)) (fun _ _ _ h => g.keep (prepNetmail_keep h)) fun m g => ?_
  refine G.bindP Gen (filterMsg_sat G env m fun h => ?_) (fun _ _ _ h => g.keep (filterMsg_keep h)) fun m g => ?_
  · rw [g.autogen] at h; cases h
  split
  · exact G.pure _
  · refine G.bind G.get fun s => ?_
    dsimp only
    rw [g.autogen]
    simp only [Bool.not_true, Bool.and_false, Bool.false_and, Bool.false_eq_true, if_false]
    refine G.bind (G.pure _) fun _ => G.bind G.get fun s => ?_
    split
    · exact importNetmail_sat G env _ _ fun h => by rw [g.rreq] at h; cases h
    · refine routeOn_sat G env _ fun h => ?_
      rcases h with h | h
      · rw [g.autogen] at h; cases h
      · rw [g.audit] at h; cases h

end

/-! ## Functions that change the configuration -/

theorem linkArea_quiet (cfg : Config) (a : Area) (ci : Option Nat) : Quiet (linkArea cfg a ci) := by
  unfold linkArea
  split
  · split
    · exact Quiet.bind (addGroupLinks_quiet _ _ _ _ _) fun _ => Quiet.pure _
    · exact Quiet.pure _
  · exact Quiet.pure _

theorem linkArea_ok {cfg : Config} {a b : Area} {ci : Option Nat} {s t : HSt}
    (h : linkArea cfg a ci s = .ok b t) : b = { a with
      group := b.group
      tossNodes := b.tossNodes } := by
  cases ci with
  | none => cases h; rfl
  | some i =>
    simp only [linkArea] at h
    cases hn : cfg.nodes[i]? with
    | none => rw [hn] at h; cases h; rfl
    | some n =>
      rw [hn] at h
      dsimp only at h
      rw [bind_ok] at h
      obtain ⟨ts, u, _, h⟩ := h
      cases h; rfl

/-- What `AddArea` does to the state: one new echomail area at the end. -/
theorem addArea_ok {env : Env} {name : Str} {node mynode : Node4D} {active passthru : Bool} {s t : HSt} {i : Nat}
    (h : addArea env name node mynode active passthru s = .ok i t) :
    i = s.cfg.areas.length ∧ ∃ a : Area, a.tag = name ∧ a.type = .echomail ∧ a.importNodes = [] ∧
      (active = false → a.flags = AREA_UNCONFIRMED) ∧ (active = true → a.has AREA_UNCONFIRMED = false) ∧
      a.aka = areaAka s.cfg mynode ∧ a.changed = true ∧
      t = { s with cfg := { s.cfg with
        areas := s.cfg.areas ++ [a]
        changed := true } } := by
  unfold addArea at h
  rw [get_bind] at h
  dsimp only at h
  rw [bind_ok] at h
  obtain ⟨d, s1, h1, h⟩ := h
  have e1 := (findDefault_quiet _ _).noFail h1
  subst e1
  rw [bind_ok] at h
  obtain ⟨a, s2, h2, h⟩ := h
  rw [set_bind, pure_run] at h
  injection h with hi ht
  have := linkArea_ok h2
  refine ⟨hi.symm, a, ?_, ?_, ?_, ?_, ?_, ?_, ?_, ht.symm⟩
  · rw [this]; rfl
  · rw [this]; rfl
  · rw [this]; cases d <;> rfl
  · intro e; rw [this]; subst e; rfl
  · intro e; rw [this]; subst e
    simp only [Area.has, newArea]
    cases d with
    | none => simp
    | some d =>
      simp only [if_true]
      generalize d.flags = f
      have : f &&& (AREA_MANDATORY ||| AREA_DEFREADONLY ||| AREA_IGNOREDUPES ||| AREA_IGNORESEENBY) &&& AREA_UNCONFIRMED = 0 := by
        rw [UInt8.and_assoc]
        have : (AREA_MANDATORY ||| AREA_DEFREADONLY ||| AREA_IGNOREDUPES ||| AREA_IGNORESEENBY) &&& AREA_UNCONFIRMED = 0 := by
          decide
        rw [this, UInt8.and_zero]
      simp [this]
  · rw [this]; rfl
  · rw [this]; rfl

/-- A relation that also allows what echomail handling does to the state itself. -/
structure Great (R : HSt → HSt → Prop) : Prop extends Good R where
  echo : ∀ s i a m, R s { s with log := s.log ++ [.echo i a m] }
  seen : ∀ s f, R s { s with seen := f }
  dupe : ∀ s d, R s { s with dupe := d }
  area : ∀ s a, a.changed = true → R s { s with cfg := { s.cfg with
    areas := s.cfg.areas ++ [a]
    changed := true } }

theorem Great.frame : Great Frame :=
  ⟨Good.frame, fun _ _ _ _ => Frame.emit _ _, fun _ _ => ⟨rfl, List.prefix_refl _⟩, fun _ _ => ⟨rfl, List.prefix_refl _⟩,
    fun _ _ _ => ⟨rfl, List.prefix_refl _⟩⟩

theorem addArea_noFail {env : Env} {name : Str} {node mynode : Node4D} {active passthru : Bool} {s t : HSt}
    (h : addArea env name node mynode active passthru s = .fail t) : t = s := by
  unfold addArea at h
  rw [get_bind] at h
  dsimp only at h
  rw [bind_fail] at h
  rcases h with h | ⟨d, s1, h1, h⟩
  · exact (findDefault_quiet _ _ _).2 _ h
  · have e1 := (findDefault_quiet _ _).noFail h1
    subst e1
    rw [bind_fail] at h
    rcases h with h | ⟨a, s2, h2, h⟩
    · exact (linkArea_quiet _ _ _ _).2 _ h
    · rw [set_bind, pure_run] at h; cases h

section
variable {R : HSt → HSt → Prop} (G : Great R)
include G

theorem sendEcho_sat (env : Env) (aka : Node4D) (m : MemMsg) (l : Link) : Sat R (sendEcho env aka m l) := by
  intro s
  unfold sendEcho
  refine ⟨fun a t h => ?_, fun t h => ?_⟩
  · split at h
    · split at h
      · cases h; exact G.echo _ _ _ _
      · cases h
    · cases h
    · cases h
  · split at h
    · split at h
      · cases h
      · cases h; exact G.refl _
    · cases h
    · cases h

theorem sendAll_sat (env : Env) (aka : Node4D) (m : MemMsg) (ls : List Link) :
    Sat R (sendAll env aka m ls) := by
  induction ls generalizing m with
  | nil => exact G.pure _
  | cons l ls ih =>
    refine G.bind G.get fun s => ?_
    split
    · exact G.bind (sendEcho_sat G _ _ _ _) fun m => ih m
    · exact ih m

theorem deliverEcho_sat (env : Env) {self : MemMsg → M Unit} (hs : ∀ m, Gen m → Sat R (self m)) (i : Nat) (a : Area)
    (aka : Node4D) (ls : List Link) (m : MemMsg) : Sat R (deliverEcho env self i a aka ls m) := by
  unfold deliverEcho
  refine G.bind (filterMsg_sat G.toGood env m fun _ => hs) fun m => ?_
  split
  · exact G.pure _
  · refine G.bind ?_ fun m => ?_
    · split
      · exact G.pure _
      · exact sendAll_sat G _ _ _ _
    · split
      · exact G.pure _
      · split
        · exact G.bind G.get fun s => G.toGood.import _ _ _
        · exact G.pure _

theorem addArea_sat (env : Env) (name : Str) (node mynode : Node4D) (active passthru : Bool) :
    Sat R (addArea env name node mynode active passthru) := by
  intro s
  refine ⟨fun i t h => ?_, fun t h => ?_⟩
  · obtain ⟨_, a, _, _, _, _, _, _, hm, e⟩ := addArea_ok h
    rw [e]; exact G.area _ _ hm
  · rw [addArea_noFail h]; exact G.refl _

theorem dupeCheck_sat (a : Area) (m : MemMsg) : Sat R (dupeCheck a m) := by
  refine Sat.get_bind fun s => ?_
  split
  · refine ⟨fun b t h => ?_, fun t h => ?_⟩
    · rw [bind_ok] at h
      obtain ⟨r, u, h1, h2⟩ := h
      rw [lift_ok] at h1
      rw [set_bind, pure_run] at h2
      cases h2; exact G.dupe _ _
    · rw [bind_fail] at h
      rcases h with h | ⟨r, u, h1, h2⟩
      · exact absurd h lift_fail
      · rw [set_bind, pure_run] at h2; cases h2
  · exact G.pure _ s

theorem tossEcho_sat (env : Env) {self : MemMsg → M Unit} (hs : ∀ m, Gen m → Sat R (self m)) (i : Nat) (a : Area)
    (aka : Aka) (ls : List Link) (m : MemMsg) : Sat R (tossEcho env self i a aka ls m) := by
  refine Sat.get_bind fun s => ?_
  dsimp only
  simp only [set_bind]
  have key : Sat R (do
      let path ← (if aka.node.point = 0 || s.cfg.has CFG_PATH3D
        then M.liftO (.ok (addNodePath m.path aka.node)) else pure m.path)
      let m := { m with
        seenBy := newSeenBy aka ls (zoneSeenBy aka.node m)
        path := path }
      if ← dupeCheck a m then
        if s.cfg.dupeMode = 1 then writeBad env m b!"Duplicate message" else pure ()
      else
        let sb ← M.lift (mmSortNodes2D m.seenBy)
        deliverEcho env self i a aka.node ls { m with seenBy := sb }) := by
    refine G.bind ?_ fun p => G.bind (dupeCheck_sat G _ _) fun b => ?_
    · split
      · exact G.liftO _
      · exact G.pure _
    · split
      · split
        · exact writeBad_sat G.toGood _ _ _
        · exact G.pure _
      · exact G.bind (G.lift _) fun sb => deliverEcho_sat G env hs _ _ _ _ _
  refine ⟨fun b t h => G.trans _ _ _ (G.seen s _) ((key _).1 b t h), fun t h => G.trans _ _ _ (G.seen s _) ((key _).2 t h)⟩

theorem findOrAddArea_sat (env : Env) (m : MemMsg) : Sat R (findOrAddArea env m) := by
  refine G.bind G.get fun s => ?_
  split
  · exact G.pure _
  · exact addArea_sat G _ _ _ _ _ _

theorem handleEchomail_sat (env : Env) {self : MemMsg → M Unit} (hs : ∀ m, Gen m → Sat R (self m)) (m : MemMsg) :
    Sat R (handleEchomail env self m) := by
  refine G.bind (findOrAddArea_sat G _ _) fun i => G.bind G.get fun s => ?_
  split
  · exact Sat.ub _
  · split
    · exact writeBad_sat G.toGood _ _ _
    · split
      · exact Sat.ub _
      · split
        · exact Sat.ub _
        · split
          · exact writeBad_sat G.toGood _ _ _
          · split
            · exact Sat.ub _
            · exact tossEcho_sat G env hs _ _ _ _ _

theorem handleMessage_sat (env : Env) {af : (MemMsg → M Unit) → MemMsg → M Unit}
    (ha : ∀ self : MemMsg → M Unit, (∀ m, Sat R (self m)) → ∀ m, Sat R (af self m)) (n : Nat) (m : MemMsg) :
    Sat R (handleMessage env af n m) := by
  induction n generalizing m with
  | zero => exact Sat.stuck
  | succ n ih =>
    unfold handleMessage
    split
    · exact handleNetmail_sat G.toGood env (ha _ ih) ih m
    · exact handleEchomail_sat G env (fun m _ => ih m) m

end

theorem handleMessage_gen {R : HSt → HSt → Prop} (G : Good R) (env : Env)
    (af : (MemMsg → M Unit) → MemMsg → M Unit) (n : Nat) (m : MemMsg) (g : Gen m) :
    Sat R (handleMessage env af n m) := by
  cases n with
  | zero => exact Sat.stuck
  | succ n =>
    unfold handleMessage
    rw [if_pos g.area]
    exact handleNetmail_gen G env _ _ m g

theorem handleMessage_echo {R : HSt → HSt → Prop} (G : Great R) (env : Env)
    (af : (MemMsg → M Unit) → MemMsg → M Unit) (n : Nat) (m : MemMsg) (h : m.area ≠ []) :
    Sat R (handleMessage env af n m) := by
  cases n with
  | zero => exact Sat.stuck
  | succ n =>
    unfold handleMessage
    rw [if_neg h]
    exact handleEchomail_sat G env (fun m g => handleMessage_gen G.toGood env af n m g) m

end CM
