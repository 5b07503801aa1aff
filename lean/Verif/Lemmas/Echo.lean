import Verif.Lemmas.Frame
import Verif.Spec.Echo
import Verif.Props.Node4D
import Verif.Props.SeenBy
/-! # Echomail: sorting, sending -/

namespace CM

/-! ## A list of blocks is determined by its entries -/

theorem Blocks.tail {b : List N2} {bs : List (List N2)} (h : Blocks (b :: bs)) : Blocks bs := by
  refine ⟨fun x hx => h.1 x ?_, fun x hx => h.2 x (List.mem_cons_of_mem _ hx)⟩
  cases bs with
  | nil => simp at hx
  | cons c cs => rw [List.dropLast_cons_of_ne_nil (by simp)]; exact List.mem_cons_of_mem _ hx

theorem blocks_unique (a b : List (List N2)) (ha : Blocks a) (hb : Blocks b) (h : a.flatten = b.flatten) : a = b := by
  induction a generalizing b with
  | nil =>
    cases b with
    | nil => rfl
    | cons y ys =>
      have := (hb.2 y (by simp)).1
      have h2 := congrArg List.length h
      simp only [List.flatten_cons, List.length_append, List.flatten_nil, List.length_nil] at h2; omega
  | cons x xs ih =>
    cases b with
    | nil =>
      have := (ha.2 x (by simp)).1
      have h2 := congrArg List.length h
      simp only [List.flatten_cons, List.length_append, List.flatten_nil, List.length_nil] at h2; omega
    | cons y ys =>
      have hlen : x.length = y.length := by
        have hx := (ha.2 x (by simp))
        have hy := (hb.2 y (by simp))
        have hl := congrArg List.length h
        simp only [List.flatten_cons, List.length_append] at hl
        cases xs with
        | nil =>
          cases ys with
          | nil => simpa using hl
          | cons z zs =>
            have h1 := hb.1 y (by simp)
            have h2 := (hb.2 z (by simp)).1
            simp at hl; omega
        | cons w ws =>
          have h1 := ha.1 x (by simp)
          cases ys with
          | nil =>
            have h2 := (ha.2 w (by simp)).1
            simp at hl; omega
          | cons z zs => have h2 := hb.1 y (by simp); omega
      simp only [List.flatten_cons] at h
      obtain ⟨e1, e2⟩ := List.append_inj h hlen
      rw [e1, ih ys ha.tail hb.tail e2]

theorem compareSort_antisymm (a b : N2) (h1 : compareSort a b ≤ 0) (h2 : compareSort b a ≤ 0) : a = b := by
  rw [compareSort_le_iff] at h1 h2
  have e1 : a.1.toNat = b.1.toNat := by omega
  have e2 : a.2.toNat = b.2.toNat := by omega
  exact Prod.ext (UInt16.toNat_inj.1 e1) (UInt16.toNat_inj.1 e2)

theorem isort_idem (l : List N2) : isort compareSort (isort compareSort l) = isort compareSort l := by
  refine (isort_perm compareSort _).eq_of_pairwise (le := fun a b => compareSort a b ≤ 0) ?_ ?_ ?_
  · intro a b _ _ h1 h2; exact compareSort_antisymm a b h1 h2
  · exact isort_sorted _ compareSort_total compareSort_trans _
  · exact isort_sorted _ compareSort_total compareSort_trans _

/-- SEEN-BY blocks in order: sorting again changes nothing. -/
def SortedSB (bs : List (List N2)) : Prop := Blocks bs ∧ mmSortNodes2D bs = .ok bs

theorem sortedSB_of_sort {bs r : List (List N2)} (hb : Blocks bs) (h : mmSortNodes2D bs = .ok r) : SortedSB r := by
  obtain ⟨r1, h1, h2, h3⟩ := mmSort_spec bs hb
  rw [h1] at h; cases h
  obtain ⟨r2, h4, h5, h6⟩ := mmSort_spec r h3
  refine ⟨h3, ?_⟩
  rw [h4, blocks_unique r2 r h6 h3 (by rw [h5, h2, isort_idem])]

theorem sortedSB_one (x : N2) : SortedSB (mmAddNodes2D [] x) := by
  have e : mmAddNodes2D [] x = [[x]] := rfl
  rw [e]
  exact ⟨by simp [Blocks, num2D], rfl⟩

/-! ## Sending -/

theorem sendEcho_ok {env : Env} {aka : Node4D} {m m' : MemMsg} {l : Link} {s t : HSt} (hb : SortedSB m.seenBy)
    (h : sendEcho env aka m l s = .ok m' t) :
    m' = outMsg aka m l.node ∧ t = { s with log := s.log ++ [.echo l.idx aka (outMsg aka m l.node)] } := by
  unfold sendEcho at h
  rw [hb.2] at h
  cases he : echoSeenBy m l.node aka with
  | error u => rw [he] at h; cases h
  | ok x =>
    rw [he] at h
    dsimp only at h
    split at h
    · injection h with h1 h2
      refine ⟨?_, h2.symm⟩
      rw [← h1, ite_self]; rfl
    · cases h

theorem sendEcho_fail {env : Env} {aka : Node4D} {m : MemMsg} {l : Link} {s t : HSt}
    (h : sendEcho env aka m l s = .fail t) : t = s := by
  unfold sendEcho at h
  split at h
  · split at h
    · cases h
    · cases h; rfl
  · cases h
  · cases h

theorem outMsg_outMsg (aka : Node4D) (m : MemMsg) (a b : ConfigNode) : outMsg aka (outMsg aka m a) b = outMsg aka m b := rfl

/-- Where the copies go, and what they are. -/
theorem sendAll_ok {env : Env} {aka : Node4D} {m m' : MemMsg} {ls : List Link} {s t : HSt} (hb : SortedSB m.seenBy)
    (h : sendAll env aka m ls s = .ok m' t) :
    (∃ ty d o, m' = { m with
        type := ty
        dest := d
        orig := o }) ∧
    t = { s with log := s.log ++
      (ls.filter (wants s.cfg s.seen m)).map fun l => .echo l.idx aka (outMsg aka m l.node) } := by
  induction ls generalizing m s with
  | nil => cases h; exact ⟨⟨_, _, _, rfl⟩, by simp⟩
  | cons l ls ih =>
    rw [sendAll, get_bind] at h
    split at h
    · next hw =>
      rw [bind_ok] at h
      obtain ⟨m1, s1, h1, h⟩ := h
      obtain ⟨e1, e2⟩ := sendEcho_ok hb h1
      subst e1 e2
      obtain ⟨⟨ty, d, o, e3⟩, e4⟩ := ih (m := outMsg aka m l.node) hb h
      refine ⟨⟨ty, d, o, e3⟩, ?_⟩
      rw [e4, List.filter_cons_of_pos hw]
      simp only [List.map_cons, List.append_assoc, List.cons_append, List.nil_append]
      congr 1
    · next hw =>
      rw [List.filter_cons_of_neg (by simpa using hw)]
      exact ih hb h

/-- On a failure the copies so far have been sent. -/
theorem sendAll_fail {env : Env} {aka : Node4D} {m : MemMsg} {ls : List Link} {s t : HSt} (hb : SortedSB m.seenBy)
    (h : sendAll env aka m ls s = .fail t) :
    ∃ ls', ls' <+: ls.filter (wants s.cfg s.seen m) ∧
    t = { s with log := s.log ++ ls'.map fun l => .echo l.idx aka (outMsg aka m l.node) } := by
  induction ls generalizing m s with
  | nil => cases h
  | cons l ls ih =>
    rw [sendAll, get_bind] at h
    split at h
    · next hw =>
      rw [bind_fail] at h
      rcases h with h | ⟨m1, s1, h1, h⟩
      · exact ⟨[], List.nil_prefix, by rw [sendEcho_fail h]; simp⟩
      · obtain ⟨e1, e2⟩ := sendEcho_ok hb h1
        subst e1 e2
        obtain ⟨ls', e3, e4⟩ := ih (m := outMsg aka m l.node) hb h
        refine ⟨l :: ls', ?_, ?_⟩
        · rw [List.filter_cons_of_pos hw]
          exact (List.prefix_cons_inj l).2 e3
        · rw [e4]
          simp only [List.map_cons, List.append_assoc, List.cons_append, List.nil_append]
          congr 1
    · next hw =>
      rw [List.filter_cons_of_neg (by simpa using hw)]
      exact ih hb h

/-! ## Filters on echomail -/

/-- What filters can do to an echomail: SEEN-BY and PATH are kept or, by MASQUERADE, replaced; a
message is not turned into a rescanned one. -/
structure EKeep (m m' : MemMsg) : Prop where
  keep : Keep m m'
  seenBy : m'.seenBy = m.seenBy ∨ ∃ x, m'.seenBy = mmAddNodes2D [] x
  rescanned : m'.has MMFLAG_RESCANNED = m.has MMFLAG_RESCANNED

theorem EKeep.refl (m : MemMsg) : EKeep m m := ⟨Keep.refl _, .inl rfl, rfl⟩

theorem EKeep.trans {a b c : MemMsg} (h1 : EKeep a b) (h2 : EKeep b c) : EKeep a c := by
  refine ⟨h1.keep.trans h2.keep, ?_, h2.rescanned.trans h1.rescanned⟩
  rcases h2.seenBy with h | h
  · rw [h]; exact h1.seenBy
  · exact .inr h

theorem EKeep.sorted {m m' : MemMsg} (h : EKeep m m') (hb : SortedSB m.seenBy) : SortedSB m'.seenBy := by
  rcases h.seenBy with e | ⟨x, e⟩
  · rw [e]; exact hb
  · rw [e]; exact sortedSB_one x

/-- The commands that can change the SEEN-BY list. -/
def Command.isMasquerade : Command → Bool
  | .masquerade _ _ => true
  | _ => false

theorem has_or (m : MemMsg) (k mask : UInt16) (h : k &&& mask = 0) :
    MemMsg.has { m with flags := m.flags ||| k } mask = m.has mask := by
  unfold MemMsg.has; rw [or_and_u16 _ _ _ h]

theorem filterMasquerade_seen {m m' : MemMsg} {name : Str} {dest : Pat4} {s t : HSt} (ha : m.area ≠ [])
    (h : filterMasquerade m name dest s = .ok m' t) :
    (∃ x, m'.seenBy = mmAddNodes2D [] x) ∧ m'.has MMFLAG_RESCANNED = m.has MMFLAG_RESCANNED := by
  unfold filterMasquerade at h
  rw [get_bind] at h
  dsimp only at h
  rw [bind_ok] at h
  obtain ⟨frm, s1, _, h⟩ := h
  rw [bind_ok] at h
  obtain ⟨cs, s2, _, h⟩ := h
  rw [bind_ok] at h
  obtain ⟨n, s3, hn, h⟩ := h
  rw [bind_ok] at h
  obtain ⟨ls, s4, _, h⟩ := h
  rw [bind_ok] at h
  obtain ⟨out, s5, _, h⟩ := h
  rw [bind_ok] at h
  obtain ⟨cs', s6, _, h⟩ := h
  rw [bind_ok] at h
  obtain ⟨p, s7, _, h⟩ := h
  cases h
  rw [if_neg ha] at hn
  cases hn
  exact ⟨⟨_, rfl⟩, rfl⟩

theorem runCommand_ekeep {env : Env} {self : MemMsg → M Unit} {m m' : MemMsg} {c : Command} {s t : HSt}
    (ha : m.area ≠ []) (h : runCommand env self m c s = .ok m' t) :
    EKeep m m' ∧ (c.isMasquerade = false → m'.seenBy = m.seenBy) := by
  have k := runCommand_keep h
  have one : ∀ {x : MemMsg}, m' = x → x.seenBy = m.seenBy → x.has MMFLAG_RESCANNED = m.has MMFLAG_RESCANNED →
      EKeep m m' ∧ (c.isMasquerade = false → m'.seenBy = m.seenBy) := by
    intro x e h1 h2; subst e; exact ⟨⟨k, .inl h1, h2⟩, fun _ => h1⟩
  cases c with
  | kill => cases h; exact one rfl rfl (has_or _ _ _ (by decide))
  | twit => cases h; exact one rfl rfl (has_or _ _ _ (by decide))
  | copy tag => exact one (filterCopy_text h) rfl rfl
  | execute cmd =>
    rcases filterExecute_keep h with e | e
    · exact one e rfl rfl
    · exact one e rfl (has_or _ _ _ (by decide))
  | writeLog x =>
    simp only [runCommand, filterWriteLog] at h
    rw [bind_ok] at h
    obtain ⟨l, s1, _, h⟩ := h
    rw [emit_bind] at h
    cases h; exact one rfl rfl rfl
  | writeBad x =>
    simp only [runCommand] at h
    rw [bind_ok] at h
    obtain ⟨l, s1, _, h⟩ := h
    cases h; exact one rfl rfl rfl
  | bounce b x =>
    simp only [runCommand, filterBounce] at h
    rw [bind_ok] at h
    obtain ⟨l, s1, _, h⟩ := h
    rw [bind_ok] at h
    obtain ⟨_, s2, _, h⟩ := h
    cases h; exact one rfl rfl rfl
  | remap n d => exact one ((filterRemap_keep h).2 ha) rfl rfl
  | masquerade n d =>
    obtain ⟨h1, h2⟩ := filterMasquerade_seen ha h
    exact ⟨⟨k, .inr h1, h2⟩, fun h => by cases h⟩

theorem runCommands_ekeep {env : Env} {self : MemMsg → M Unit} {m : MemMsg} {cs : List Command} {s t : HSt}
    {r : MemMsg × Bool} (ha : m.area ≠ []) (h : runCommands env self m cs s = .ok r t) :
    EKeep m r.1 ∧ ((∀ c ∈ cs, c.isMasquerade = false) → r.1.seenBy = m.seenBy) := by
  induction cs generalizing m s with
  | nil => cases h; exact ⟨EKeep.refl _, fun _ => rfl⟩
  | cons c cs ih =>
    rw [runCommands, bind_ok] at h
    obtain ⟨m1, s1, h1, h⟩ := h
    have k := runCommand_ekeep ha h1
    split at h
    · cases h; exact ⟨k.1, fun hc => k.2 (hc c (by simp))⟩
    · have k2 := ih (by rw [k.1.keep.area]; exact ha) h
      exact ⟨k.1.trans k2.1, fun hc => (k2.2 fun c h => hc c (List.mem_cons_of_mem _ h)).trans (k.2 (hc c (by simp)))⟩

theorem runFilters_ekeep {env : Env} {self : MemMsg → M Unit} {m m' : MemMsg} {fs : List Filter} {s t : HSt}
    (ha : m.area ≠ []) (h : runFilters env self m fs s = .ok m' t) :
    EKeep m m' ∧ ((∀ f ∈ fs, ∀ c ∈ f.commands, c.isMasquerade = false) → m'.seenBy = m.seenBy) := by
  induction fs generalizing m s with
  | nil => cases h; exact ⟨EKeep.refl _, fun _ => rfl⟩
  | cons f fs ih =>
    rw [runFilters, get_bind, bind_ok] at h
    obtain ⟨v, s1, h1, h⟩ := h
    split at h
    · cases h; exact ⟨EKeep.refl _, fun _ => rfl⟩
    · have k := ih ha h
      exact ⟨k.1, fun hc => k.2 fun f h => hc f (List.mem_cons_of_mem _ h)⟩
    · rw [bind_ok] at h
      obtain ⟨r, s2, h2, h⟩ := h
      have k := runCommands_ekeep ha h2
      obtain ⟨m1, b⟩ := r
      dsimp only at h k
      split at h
      · cases h; exact ⟨k.1, fun hc => k.2 (hc f (by simp))⟩
      · have k2 := ih (by rw [k.1.keep.area]; exact ha) h
        exact ⟨k.1.trans k2.1, fun hc => (k2.2 fun f h => hc f (List.mem_cons_of_mem _ h)).trans (k.2 (hc f (by simp)))⟩

/-! ## What filtering and generated messages do to the state -/

/-- The state apart from the log, and the echomail sent, are the same. -/
def Calm (s t : HSt) : Prop :=
  t.cfg = s.cfg ∧ t.seen = s.seen ∧ t.dupe = s.dupe ∧ ∃ es, t.log = s.log ++ es ∧ ∀ e ∈ es, e.isEcho = false

theorem Calm.good : Good Calm := by
  refine ⟨fun s => ⟨rfl, rfl, rfl, [], by simp⟩, ?_, fun s e h => ⟨rfl, rfl, rfl, [e], rfl, by simpa using h⟩⟩
  rintro s t u ⟨a1, a2, a3, es, a4, a5⟩ ⟨b1, b2, b3, es', b4, b5⟩
  refine ⟨b1.trans a1, b2.trans a2, b3.trans a3, es ++ es', by rw [b4, a4, List.append_assoc], ?_⟩
  intro e he
  rcases List.mem_append.1 he with h | h
  · exact a5 e h
  · exact b5 e h

end CM
namespace CM

/-! ## Both ways of returning -/

theorem Ret.bind {α β : Type} {x : M α} {f : α → M β} {s t : HSt} {b : Bool} :
    Ret (x >>= f) s b t ↔ (b = false ∧ x s = .fail t) ∨ ∃ a u, x s = .ok a u ∧ Ret (f a) u b t := by
  unfold Ret
  cases b with
  | true =>
    simp only [if_true, bind_ok, Bool.true_eq_false, false_and, false_or]
    constructor
    · rintro ⟨c, a, u, h1, h2⟩; exact ⟨a, u, h1, c, h2⟩
    · rintro ⟨a, u, h1, c, h2⟩; exact ⟨c, a, u, h1, h2⟩
  | false => simp only [Bool.false_eq_true, if_false, bind_fail, true_and]

theorem Ret.get {β : Type} {f : HSt → M β} {s t : HSt} {b : Bool} : Ret (M.get >>= f) s b t ↔ Ret (f s) s b t := Iff.rfl
theorem Ret.set {β : Type} {u : HSt} {f : Unit → M β} {s t : HSt} {b : Bool} :
    Ret (M.set u >>= f) s b t ↔ Ret (f ()) u b t := Iff.rfl
theorem Ret.ub {α : Type} {u : UB} {s t : HSt} {b : Bool} : ¬ Ret (M.ub u : M α) s b t := by
  unfold Ret; cases b <;> simp [ub_run]
theorem Ret.stuck {α : Type} {s t : HSt} {b : Bool} : ¬ Ret (M.stuck : M α) s b t := by
  unfold Ret; cases b <;> simp [stuck_run]
theorem Ret.pure {α : Type} {a : α} {s t : HSt} {b : Bool} : Ret (Pure.pure a : M α) s b t ↔ b = true ∧ t = s := by
  unfold Ret; cases b <;> simp [pure_run, eq_comm]
theorem Ret.import {env : Env} {i : Nat} {m : MemMsg} {s t : HSt} {b : Bool} : Ret (importMsg env i m) s b t ↔
    (b = true ∧ env.importOk s.log i m = true ∧ t = { s with log := s.log ++ [.importMsg i m] }) ∨
    (b = false ∧ env.importOk s.log i m = false ∧ t = s) := by
  unfold Ret
  cases b with
  | true =>
    simp only [if_true, true_and, Bool.true_eq_false, false_and, or_false]
    rw [← importMsg_ok]
    exact ⟨fun ⟨_, h⟩ => h, fun h => ⟨(), h⟩⟩
  | false => simp only [Bool.false_eq_true, if_false, importMsg_fail, true_and, false_and, false_or]

theorem Ret.sat {α : Type} {R : HSt → HSt → Prop} {x : M α} (h : Sat R x) {s t : HSt} {b : Bool} (e : Ret x s b t) :
    R s t := by
  unfold Ret at e
  cases b with
  | true => obtain ⟨a, e⟩ := e; exact (h s).1 a t e
  | false => exact (h s).2 t e

/-! ## The structure of `HandleEchomail` -/

/-- The computation never returns `FALSE`. -/
def NoFail {α : Type} (x : M α) : Prop := ∀ s t, x s ≠ .fail t

theorem NoFail.bind {α β : Type} {x : M α} {f : α → M β} (hx : NoFail x) (hf : ∀ a, NoFail (f a)) : NoFail (x >>= f) := by
  intro s t h
  rw [bind_fail] at h
  rcases h with h | ⟨a, u, _, h⟩
  · exact hx _ _ h
  · exact hf a _ _ h
theorem NoFail.pure {α : Type} (a : α) : NoFail (Pure.pure a : M α) := fun s t h => by cases h
theorem NoFail.get : NoFail M.get := fun s t h => by cases h
theorem NoFail.set (u : HSt) : NoFail (M.set u) := fun s t h => by cases h
theorem NoFail.liftO {α : Type} (e : Except UB (Option α)) : NoFail (M.liftO e) := fun _ _ h => liftO_fail h
theorem NoFail.lift {α : Type} (e : Except UB α) : NoFail (M.lift e) := fun _ _ h => lift_fail h

theorem findGroupDefault_noFail (g : UInt8) (as : List Area) : NoFail (findGroupDefault g as) := by
  induction as with
  | nil => exact NoFail.pure _
  | cons a as ih =>
    unfold findGroupDefault
    split
    · refine NoFail.bind (NoFail.liftO _) fun b => ?_
      split
      · exact NoFail.pure _
      · exact ih
    · exact ih

theorem addGroupLinks_noFail (g : UInt8) (ro : Bool) (ts : List TossNode) (i : Nat) (ns : List ConfigNode) :
    NoFail (addGroupLinks g ro ts i ns) := by
  induction ns generalizing ts i with
  | nil => exact NoFail.pure _
  | cons n ns ih =>
    unfold addGroupLinks
    refine NoFail.bind (NoFail.liftO _) fun b => ?_
    split
    · refine NoFail.bind ?_ fun ro => ih _ _
      split
      · exact NoFail.pure _
      · exact NoFail.liftO _
    · exact ih _ _

theorem addArea_never (env : Env) (name : Str) (node mynode : Node4D) (active passthru : Bool) :
    NoFail (addArea env name node mynode active passthru) := by
  unfold addArea
  refine NoFail.bind NoFail.get fun s => ?_
  dsimp only
  refine NoFail.bind ?_ fun d => NoFail.bind ?_ fun a => NoFail.bind (NoFail.set _) fun _ => NoFail.pure _
  · unfold findDefault
    refine NoFail.bind ?_ fun d => ?_
    · split
      · split
        · exact findGroupDefault_noFail _ _
        · exact NoFail.pure _
      · exact NoFail.pure _
    · split <;> exact NoFail.pure _
  · unfold linkArea
    split
    · split
      · exact NoFail.bind (addGroupLinks_noFail _ _ _ _ _) fun _ => NoFail.pure _
      · exact NoFail.pure _
    · exact NoFail.pure _

theorem findOrAddArea_noFail (env : Env) (m : MemMsg) : NoFail (findOrAddArea env m) := by
  unfold findOrAddArea
  refine NoFail.bind NoFail.get fun s => ?_
  split
  · exact NoFail.pure _
  · exact addArea_never _ _ _ _ _ _

/-- The area found or added. -/
theorem findOrAddArea_ok {env : Env} {m : MemMsg} {s t : HSt} {i : Nat} (h : findOrAddArea env m s = .ok i t) :
    (s.cfg.findArea m.area = some i ∧ t = s) ∨
    (s.cfg.findArea m.area = none ∧ i = s.cfg.areas.length ∧ ∃ a : Area, a.tag = m.area ∧ a.type = .echomail ∧
      a.importNodes = [] ∧
      ((∀ n, findNode s.cfg.nodes m.pktOrig = some n → n.has NODE_AUTOADD = false) → a.flags = AREA_UNCONFIRMED) ∧
      (∀ n, findNode s.cfg.nodes m.pktOrig = some n → n.has NODE_AUTOADD = true → a.has AREA_UNCONFIRMED = false) ∧
      t = { s with cfg := { s.cfg with
        areas := s.cfg.areas ++ [a]
        changed := true } }) := by
  unfold findOrAddArea at h
  rw [get_bind] at h
  cases hf : s.cfg.findArea m.area with
  | some j => rw [hf] at h; cases h; exact .inl ⟨rfl, rfl⟩
  | none =>
    rw [hf] at h
    dsimp only at h
    obtain ⟨e1, a, e2, e3, e4, e5, e6, _, _, e8⟩ := addArea_ok h
    refine .inr ⟨rfl, e1, a, e2, e3, e4, fun hn => e5 ?_, fun n hn ha => e6 ?_, e8⟩
    · cases hn' : findNode s.cfg.nodes m.pktOrig with
      | none => rfl
      | some n => exact hn n hn'
    · rw [hn]; exact ha

/-- What `HandleEchomail` does with a message. -/
theorem handleEchomail_ends {env : Env} {self : MemMsg → M Unit} {m : MemMsg} {s t : HSt} {b : Bool}
    (h : Ret (handleEchomail env self m) s b t) :
    ∃ i s1 a, findOrAddArea env { m with type := PKTS_ECHOMAIL } s = .ok i s1 ∧ s1.cfg.areas[i]? = some a ∧
      ((a.has AREA_UNCONFIRMED = true ∧ ∃ reason, Ret (writeBad env { m with type := PKTS_ECHOMAIL } reason) s1 b t) ∨
       (a.has AREA_UNCONFIRMED = false ∧ ∃ ls, resolveLinks s1.cfg.nodes a.tossNodes = some ls ∧
        ((∃ reason, denied m ls = some reason ∧ Ret (writeBad env { m with type := PKTS_ECHOMAIL } reason) s1 b t) ∨
         (denied m ls = none ∧ ∃ k aka, a.aka = some k ∧ s1.cfg.akas[k]? = some aka ∧
          Ret (tossEcho env self i a aka ls { m with type := PKTS_ECHOMAIL }) s1 b t)))) := by
  unfold handleEchomail at h
  dsimp only at h
  rw [Ret.bind] at h
  rcases h with h | ⟨i, s1, h1, h⟩
  · exact absurd h.2 (findOrAddArea_noFail _ _ _ _)
  · rw [Ret.get] at h
    cases ha : s1.cfg.areas[i]? with
    | none => rw [ha] at h; exact absurd h Ret.ub
    | some a =>
      rw [ha] at h
      dsimp only at h
      refine ⟨i, s1, a, h1, ha, ?_⟩
      split at h
      · next hu => exact .inl ⟨hu, _, h⟩
      · next hu =>
        refine .inr ⟨by simpa using hu, ?_⟩
        split at h
        · exact absurd h Ret.ub
        · cases hl : resolveLinks s1.cfg.nodes a.tossNodes with
          | none => rw [hl] at h; exact absurd h Ret.ub
          | some ls =>
            rw [hl] at h
            dsimp only at h
            refine ⟨ls, rfl, ?_⟩
            have ed : denied { m with type := PKTS_ECHOMAIL } ls = denied m ls := rfl
            rw [ed] at h
            cases hd : denied m ls with
            | some r => rw [hd] at h; exact .inl ⟨r, rfl, h⟩
            | none =>
              rw [hd] at h
              dsimp only at h
              refine .inr ⟨rfl, ?_⟩
              cases hk : a.aka with
              | none => rw [hk] at h; exact absurd h Ret.ub
              | some k =>
                rw [hk, Option.bind_some] at h
                cases hak : s1.cfg.akas[k]? with
                | none => rw [hak] at h; exact absurd h Ret.ub
                | some aka => rw [hak] at h; exact ⟨k, aka, rfl, hak, h⟩

/-- Does the message go through the duplicate check? -/
def dupeChecked (cfg : Config) (a : Area) (m : MemMsg) : Bool :=
  cfg.dupeMode ≠ 0 && m.has MMFLAG_TOSSED && !a.has AREA_IGNOREDUPES

theorem dupeCheck_cases {a : Area} {m : MemMsg} {s t : HSt} {b : Bool} (h : dupeCheck a m s = .ok b t) :
    (dupeChecked s.cfg a m = true ∧ ∃ d, checkDupe s.cfg.dupeSize s.dupe m.msgid m.area = .ok (d, b) ∧
      t = { s with dupe := d }) ∨ (dupeChecked s.cfg a m = false ∧ b = false ∧ t = s) := by
  unfold dupeCheck at h
  rw [get_bind] at h
  split at h
  · next hc =>
    rw [bind_ok] at h
    obtain ⟨r, u, h1, h2⟩ := h
    rw [lift_ok] at h1
    rw [set_bind, pure_run] at h2
    cases h2
    exact .inl ⟨hc, r.1, h1.1, rfl⟩
  · next hc =>
    cases h
    exact .inr ⟨by simpa [dupeChecked] using hc, rfl, rfl⟩

theorem dupeCheck_noFail {a : Area} {m : MemMsg} {s t : HSt} : ¬ dupeCheck a m s = .fail t := by
  intro h
  unfold dupeCheck at h
  rw [get_bind] at h
  split at h
  · rw [bind_fail] at h
    rcases h with h | ⟨r, u, h1, h2⟩
    · exact lift_fail h
    · rw [set_bind] at h2; cases h2
  · cases h

/-- The message with its new SEEN-BY and PATH, not yet sorted. -/
def seenMsg (aka : Aka) (ls : List Link) (m : MemMsg) (path : List (List Str)) : MemMsg :=
  { m with
    seenBy := newSeenBy aka ls (zoneSeenBy aka.node m)
    path := path }

/-- What `HandleEchomail` does with a message that may be posted. -/
theorem tossEcho_ends {env : Env} {self : MemMsg → M Unit} {i : Nat} {a : Area} {aka : Aka} {ls : List Link}
    {m : MemMsg} {s t : HSt} {b : Bool} (h : Ret (tossEcho env self i a aka ls m) s b t) :
    ∃ path d s2, dupeCheck a (seenMsg aka ls m path)
        { s with seen := markSeen s.cfg a aka.node ls (zoneSeenBy aka.node m) s.seen } = .ok d s2 ∧
      ((d = true ∧ s.cfg.dupeMode = 1 ∧ Ret (writeBad env (seenMsg aka ls m path) b!"Duplicate message") s2 b t) ∨
       (d = true ∧ s.cfg.dupeMode ≠ 1 ∧ b = true ∧ t = s2) ∨
       (d = false ∧ ∃ sb, mmSortNodes2D (newSeenBy aka ls (zoneSeenBy aka.node m)) = .ok sb ∧
        Ret (deliverEcho env self i a aka.node ls { seenMsg aka ls m path with seenBy := sb }) s2 b t)) := by
  unfold tossEcho at h
  rw [Ret.get] at h
  dsimp only at h
  rw [Ret.set, Ret.bind] at h
  rcases h with h | ⟨path, u, h1, h⟩
  · split at h
    · exact absurd h.2 liftO_fail
    · cases h.2
  · have eu : u = { s with seen := markSeen s.cfg a aka.node ls (zoneSeenBy aka.node m) s.seen } := by
      split at h1
      · rw [liftO_ok] at h1; exact h1.2.symm
      · cases h1; rfl
    subst eu
    rw [Ret.bind] at h
    rcases h with h | ⟨d, s2, h2, h⟩
    · exact absurd h.2 dupeCheck_noFail
    · refine ⟨path, d, s2, h2, ?_⟩
      cases d with
      | true =>
        rw [if_pos rfl] at h
        split at h
        · next hd => exact .inl ⟨rfl, hd, h⟩
        · next hd => exact .inr (.inl ⟨rfl, hd, Ret.pure.1 h⟩)
      | false =>
        rw [if_neg (by simp), Ret.bind] at h
        rcases h with h | ⟨sb, u, h3, h⟩
        · exact absurd h.2 lift_fail
        · rw [lift_ok] at h3
          obtain ⟨h3, rfl⟩ := h3
          exact .inr (.inr ⟨rfl, sb, h3, h⟩)

theorem writeBad_ends {env : Env} {m : MemMsg} {reason : Str} {s t : HSt} {b : Bool}
    (h : Ret (writeBad env m reason) s b t) : ∃ es, t = { s with log := s.log ++ es } ∧
      (b = false → es = []) ∧ (b = true →
      (∃ i a, s.cfg.areas[i]? = some a ∧ a.type = .bad ∧
        es = [.importMsg i { m with text := badHeader m reason :: m.text }]) ∨
      (es = [] ∧ ((∀ a ∈ s.cfg.areas, a.type ≠ .bad) ∨ ∃ a ∈ s.cfg.areas, a.type = .bad ∧ a.base = none))) := by
  unfold writeBad at h
  rw [Ret.get] at h
  cases hf : s.cfg.areas.findIdx? (·.type == .bad) with
  | none =>
    rw [hf] at h
    obtain ⟨e1, rfl⟩ := Ret.pure.1 h
    refine ⟨[], by simp, by simp, fun _ => .inr ⟨rfl, .inl fun a ha => ?_⟩⟩
    have := List.findIdx?_eq_none_iff.1 hf a ha
    simpa using this
  | some i =>
    rw [hf] at h
    dsimp only at h
    rw [List.findIdx?_eq_some_iff_getElem] at hf
    obtain ⟨hi, h1, _⟩ := hf
    rw [beq_iff_eq] at h1
    have hg : s.cfg.areas[i]? = some s.cfg.areas[i] := by simp [hi]
    rw [hg, Option.bind_some] at h
    split at h
    · rw [Ret.import] at h
      rcases h with ⟨e1, _, e2⟩ | ⟨e1, _, e2⟩
      · exact ⟨_, e2, by simp [e1], fun _ => .inl ⟨i, _, hg, h1, rfl⟩⟩
      · exact ⟨[], by rw [e2, List.append_nil], by simp, by simp [e1]⟩
    · next hb =>
      obtain ⟨e1, e2⟩ := Ret.pure.1 h
      refine ⟨[], by rw [e2, List.append_nil], by simp, fun _ => .inr ⟨rfl, .inr ⟨_, List.getElem_mem hi, h1, ?_⟩⟩⟩
      cases hx : s.cfg.areas[i].base with
      | none => rfl
      | some b => rw [hx] at hb; simp at hb

theorem newSeenBy_blocks (aka : Aka) (ls : List Link) (sb : List (List N2)) (h : Blocks sb) :
    Blocks (newSeenBy aka ls sb) := by
  have fold : ∀ {α : Type} (f : List (List N2) → α → List (List N2)), (∀ b x, Blocks b → Blocks (f b x)) →
      ∀ (xs : List α) b, Blocks b → Blocks (xs.foldl f b) := by
    intro α f hf xs
    induction xs with
    | nil => intro b hb; exact hb
    | cons x xs ih => intro b hb; exact ih _ (hf b x hb)
  unfold newSeenBy
  dsimp only
  have h1 := fold (fun sb (l : Link) => mmAddNodes2D sb (l.node.node.net, l.node.node.node))
    (fun b x hb => mmAddNodes2D_blocks b _ hb) (ls.filter fun l => inZone aka.node l && l.active) sb h
  have h2 := fold mmRemNodes2DPat (fun b x hb => remPat_blocks b x hb) aka.remList _ h1
  have h3 := fold (fun sb (n : Node4D) => mmAddNodes2D sb (n.net, n.node))
    (fun b x hb => mmAddNodes2D_blocks b _ hb) aka.addList _ h2
  split
  · exact mmAddNodes2D_blocks _ _ h3
  · exact h3

theorem zoneSeenBy_blocks (aka : Node4D) (m : MemMsg) (h : Blocks m.seenBy) : Blocks (zoneSeenBy aka m) := by
  unfold zoneSeenBy
  split
  · exact ⟨by simp, by simp⟩
  · exact h

/-- What happens to a message that is to be delivered: the effects of filters, then either nothing
more or the copies and the import. -/
theorem deliverEcho_ends {env : Env} {self : MemMsg → M Unit} {i : Nat} {a : Area} {aka : Node4D} {ls : List Link}
    {m : MemMsg} {s t : HSt} {b : Bool} (hs : ∀ m, Gen m → Sat Calm (self m)) (ha : m.area ≠ [])
    (hb : SortedSB m.seenBy) (h : Ret (deliverEcho env self i a aka ls m) s b t) :
    (b = false ∧ filterMsg env self m s = .fail t ∧ Calm s t) ∨
    ∃ m' s', filterMsg env self m s = .ok m' s' ∧ Calm s s' ∧ EKeep m m' ∧
      ((m'.has MMFLAG_KILL = true ∧ b = true ∧ t = s') ∨
       (m'.has MMFLAG_KILL = false ∧
        ∃ sent, sent <+: (if m'.has MMFLAG_RESCANNED then [] else ls.filter (wants s'.cfg s'.seen m')) ∧
        ∃ imp, t = { s' with log := s'.log ++ (sent.map fun l => .echo l.idx aka (outMsg aka m' l.node)) ++ imp } ∧
          (b = true → sent = if m'.has MMFLAG_RESCANNED then [] else ls.filter (wants s'.cfg s'.seen m')) ∧
          ((imp = [] ∧ (b = true →
              m'.has MMFLAG_TWIT = true ∨ m'.has MMFLAG_EXPORTED = true ∨ a.base = none)) ∨
           (b = true ∧ m'.has MMFLAG_TWIT = false ∧ m'.has MMFLAG_EXPORTED = false ∧ a.base.isSome = true ∧
            ∃ ty d o, imp = [.importMsg i (markSent (stripSubject s'.cfg { m' with
              type := ty
              dest := d
              orig := o }))])))) := by
  have hc : Sat Calm (filterMsg env self m) := filterMsg_sat Calm.good env m fun _ => hs
  unfold deliverEcho at h
  rw [Ret.bind] at h
  rcases h with h | ⟨m', s', h1, h⟩
  · exact .inl ⟨h.1, h.2, (hc s).2 _ h.2⟩
  have hk : EKeep m m' := by
    unfold filterMsg at h1
    rw [get_bind] at h1
    exact (runFilters_ekeep ha h1).1
  refine .inr ⟨m', s', h1, (hc s).1 _ _ h1, hk, ?_⟩
  cases hkill : m'.has MMFLAG_KILL with
  | true =>
    rw [if_pos hkill] at h
    exact .inl ⟨rfl, Ret.pure.1 h⟩
  | false =>
    rw [if_neg (by simp [hkill])] at h
    refine .inr ⟨rfl, ?_⟩
    rw [Ret.bind] at h
    rcases h with ⟨hbf, h⟩ | ⟨m2, s2, h2, h⟩
    · split at h
      · cases h
      · next hr =>
        rw [if_neg hr]
        obtain ⟨ls', e1, e2⟩ := sendAll_fail (hk.sorted hb) h
        exact ⟨ls', e1, [], by rw [List.append_nil]; exact e2, by simp [hbf], .inl ⟨rfl, by simp [hbf]⟩⟩
    · have sendk : (∃ ty d o, m2 = { m' with
          type := ty
          dest := d
          orig := o }) ∧
        s2 = { s' with log := s'.log ++ ((if m'.has MMFLAG_RESCANNED then [] else
          ls.filter (wants s'.cfg s'.seen m')).map fun l => .echo l.idx aka (outMsg aka m' l.node)) } := by
        split at h2
        · next hr => cases h2; rw [if_pos hr]; exact ⟨⟨_, _, _, rfl⟩, by rw [List.map_nil, List.append_nil]⟩
        · next hr => rw [if_neg hr]; exact sendAll_ok (hk.sorted hb) h2
      obtain ⟨⟨ty, d, o, em⟩, es⟩ := sendk
      refine ⟨_, List.prefix_refl _, ?_⟩
      subst em
      split at h
      · next ht =>
        refine ⟨[], ?_, fun _ => rfl, .inl ⟨rfl, fun _ => .inl ht⟩⟩
        rw [(Ret.pure.1 h).2, es, List.append_nil]
      · next ht =>
        have ht : m'.has MMFLAG_TWIT = false := Bool.eq_false_iff.2 ht
        split at h
        · next he =>
          simp only [Bool.and_eq_true, Bool.not_eq_true'] at he
          rw [Ret.get, Ret.import] at h
          rcases h with ⟨h1, h2, h3⟩ | ⟨h1, h2, h3⟩
          · refine ⟨[.importMsg i (markSent (stripSubject s2.cfg { m' with
              type := ty
              dest := d
              orig := o }))], ?_, fun _ => rfl, .inr ⟨h1, ht, he.1, he.2, ty, d, o, ?_⟩⟩
            · rw [h3, es]
            · rw [es]
          · refine ⟨[], ?_, fun _ => rfl, .inl ⟨rfl, by simp [h1]⟩⟩
            rw [h3, es, List.append_nil]
        · next he =>
          refine ⟨[], ?_, fun _ => rfl, .inl ⟨rfl, fun _ => .inr ?_⟩⟩
          · rw [(Ret.pure.1 h).2, es, List.append_nil]
          · simp only [Bool.and_eq_true, Bool.not_eq_true', not_and] at he
            cases hx : m'.has MMFLAG_EXPORTED with
            | true => exact .inl rfl
            | false =>
              have := he hx
              cases hb : a.base with
              | none => exact .inr rfl
              | some b => rw [hb] at this; simp at this

end CM
