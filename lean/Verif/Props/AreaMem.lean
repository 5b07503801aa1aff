import Verif.Props.JamOpen
import Verif.Spec.AreaMem

/-! # Messages are stored in the base of their area, also when areas come and go (C121) -/

set_option linter.unusedSimpArgs false

namespace CM

theorem closeHnd_live {st st' : JamSlots} {s : JamSlot} (h : jamCloseHnd st s = .ok st') : st'.fresh = st.fresh ∧ st'.slots = st.slots ∧ ∀ x ∈ st'.live, x ∈ st.live := by
  unfold jamCloseHnd at h
  by_cases hm : (s.hnd, s.area) ∈ st.live
  · rw [if_pos hm] at h
    cases h
    exact ⟨rfl, rfl, fun x hx => List.mem_of_mem_erase hx⟩
  · rw [if_neg hm] at h
    cases h

theorem freeSlot_live {st st' : JamSlots} {c : Nat} (h : jamFreeSlot st = .ok (c, st')) : st'.fresh = st.fresh ∧ ∀ x ∈ st'.live, x ∈ st.live := by
  unfold jamFreeSlot at h
  cases hf : st.slots.findIdx? (·.last == 0) with
  | some k => rw [hf] at h; cases h; exact ⟨rfl, fun x hx => hx⟩
  | none =>
    rw [hf] at h
    dsimp only at h
    cases hs : st.slots with
    | nil => rw [hs] at h; cases h
    | cons s t =>
      rw [hs] at h
      dsimp only at h
      cases hx : (s :: t)[jamLru (s :: t) s]? with
      | none => rw [hx] at h; cases h
      | some x =>
        rw [hx] at h
        dsimp only at h
        cases hc : jamCloseHnd st x with
        | error e => rw [hc] at h; cases h
        | ok st1 =>
          rw [hc] at h
          obtain ⟨h1, _, h3⟩ := closeHnd_live hc
          cases h
          exact ⟨h1, h3⟩

/-- What is open after an area has been used. -/
theorem openBase_live {ok : Bool} {a : Nat} {st st' : JamSlots} {r : Option Nat} (h : jamOpenBase ok a st = .ok (r, st')) :
    (st'.fresh = st.fresh ∧ ∀ x ∈ st'.live, x ∈ st.live) ∨ (st'.fresh = st.fresh + 1 ∧ ∀ x ∈ st'.live, x ∈ st.live ∨ x = (st.fresh, a)) := by
  unfold jamOpenBase at h
  cases hf : st.slots.findIdx? (fun s => s.area == a && s.last != 0) with
  | some c =>
    rw [hf] at h
    dsimp only at h
    cases hs : st.slots[c]? with
    | none => rw [hs] at h; cases h
    | some s => rw [hs] at h; cases h; exact .inl ⟨rfl, fun x hx => hx⟩
  | none =>
    rw [hf] at h
    dsimp only at h
    cases hc : jamFreeSlot st with
    | error e => rw [hc] at h; cases h
    | ok y =>
      obtain ⟨c, st1⟩ := y
      rw [hc] at h
      obtain ⟨h1, h2⟩ := freeSlot_live hc
      cases ok with
      | false =>
        cases h
        exact .inl ⟨h1, h2⟩
      | true =>
        cases h
        refine .inr ⟨by rw [← h1], fun x hx => ?_⟩
        rcases List.mem_cons.1 hx with hx | hx
        · exact .inr (by rw [hx, h1])
        · exact .inl (h2 x hx)

/-- What holds at any time. `P` are the operations done. -/
structure AreaInv (n : Nat) (mem0 : Nat → Option Str) (P : List AreaOp) (m : AreaMem) : Prop where
  ok : SlotsOk n m.slots
  owner : ∀ a, m.mem a = ownerAfter mem0 a P
  listed : ∀ a, a ∈ m.list → ∃ ok, .store a ok ∈ P
  nodup : m.list.Nodup
  num : m.slots.lastnum.toNat ≤ P.length + 1
  base : ∀ x ∈ m.slots.live, ∃ a, m.list[x.2]? = some a ∧ ∀ q, m.mem a = some q → q = m.path x.1
  alive : NoneRemoved P → ∀ a ∈ m.list, m.mem a ≠ none

theorem owner_snoc (mem : Nat → Option Str) (a : Nat) (P : List AreaOp) (o : AreaOp) : ownerAfter mem a (P ++ [o]) =
    match o with
    | .create b q => if b = a then (match ownerAfter mem a P with | some p => some p | none => some q) else ownerAfter mem a P
    | .remove b => if b = a then none else ownerAfter mem a P
    | .store _ _ => ownerAfter mem a P := by
  unfold ownerAfter
  rw [List.foldl_append]
  rfl

theorem entry_spec (l : List Nat) (a : Nat) : ∃ t, (areaEntry l a).2 = l ++ t ∧ (∀ b ∈ t, b = a ∧ a ∉ l) ∧ (areaEntry l a).2[(areaEntry l a).1]? = some a ∧ (l.Nodup → (areaEntry l a).2.Nodup) := by
  unfold areaEntry
  cases hf : l.findIdx? (· == a) with
  | some k =>
    obtain ⟨h1, h2, _⟩ := List.findIdx?_eq_some_iff_getElem.1 hf
    refine ⟨[], (List.append_nil _).symm, fun b hb => (by cases hb), ?_, id⟩
    show l[k]? = some a
    rw [List.getElem?_eq_getElem h1, eq_of_beq h2]
  | none =>
    have hn : a ∉ l := by
      intro hm
      have := List.findIdx?_eq_none_iff.1 hf a hm
      simp at this
    refine ⟨[a], rfl, fun b hb => ⟨List.mem_singleton.1 hb, hn⟩, ?_, fun hl => ?_⟩
    · show (l ++ [a])[l.length]? = some a
      simp
    · show (l ++ [a]).Nodup
      rw [List.nodup_append]
      exact ⟨hl, by simp, fun x hx y hy => by rw [List.mem_singleton.1 hy]; exact fun e => hn (e ▸ hx)⟩

theorem areaOp_step {n mem0 P m} (hn : n ≠ 0) (o : AreaOp) (h : AreaInv n mem0 P m) (hb : P.length + 2 < 2 ^ 32) (hr : ∀ a p, o = .create a p → ∀ ok, .store a ok ∉ P) :
    ∃ r m', areaOp m o = .ok (r, m') ∧ AreaInv n mem0 (P ++ [o]) m' ∧
      ∀ a ok, o = .store a ok → r = ownerAfter mem0 a P ∨ (ok = false ∧ r = none) := by
  have hlist : ∀ a, a ∈ m.list → ∃ ok, .store a ok ∈ P ++ [o] := fun a ha => by
    obtain ⟨ok, hok⟩ := h.listed a ha
    exact ⟨ok, List.mem_append.2 (.inl hok)⟩
  have hrem : NoneRemoved (P ++ [o]) → NoneRemoved P := fun hh x a y e => hh x a (y ++ [o]) (by rw [e, List.append_assoc]; rfl)
  have hnum : m.slots.lastnum.toNat ≤ (P ++ [o]).length + 1 := by
    have := h.num
    rw [List.length_append]
    omega
  cases o with
  | create a p =>
    cases hm : m.mem a with
    | some q =>
      refine ⟨none, m, by simp only [areaOp, hm], ⟨h.ok, fun b => ?_, hlist, h.nodup, hnum, h.base, fun hh => h.alive (hrem hh)⟩, fun _ _ e => (by cases e)⟩
      rw [owner_snoc, ← h.owner b]
      dsimp only
      by_cases hab : a = b
      · subst hab; rw [if_pos rfl, hm]
      · rw [if_neg hab]
    | none =>
      refine ⟨none, { m with mem := fun b => if b = a then some p else m.mem b }, by simp only [areaOp, hm], ⟨h.ok, fun b => ?_, hlist, h.nodup, hnum, fun x hx => ?_, fun hh b hb => ?_⟩, fun _ _ e => (by cases e)⟩
      · rw [owner_snoc, ← h.owner b]
        dsimp only
        by_cases hab : a = b
        · subst hab; rw [if_pos rfl, if_pos rfl, hm]
        · rw [if_neg hab, if_neg fun e => hab e.symm]
      · obtain ⟨b, h1, h2⟩ := h.base x hx
        refine ⟨b, h1, fun q hq => ?_⟩
        have hba : b ≠ a := by
          intro e
          obtain ⟨ok, hok⟩ := h.listed b (List.mem_of_getElem? h1)
          exact hr a p rfl ok (e ▸ hok)
        dsimp only at hq
        rw [if_neg hba] at hq
        exact h2 q hq
      · dsimp only
        by_cases hba : b = a
        · rw [if_pos hba]; simp
        · rw [if_neg hba]; exact h.alive (hrem hh) b hb
  | remove a =>
    refine ⟨none, { m with mem := fun b => if b = a then none else m.mem b }, rfl, ⟨h.ok, fun b => ?_, hlist, h.nodup, hnum, fun x hx => ?_, fun hh b hb => ?_⟩, fun _ _ e => (by cases e)⟩
    · rw [owner_snoc, ← h.owner b]
      dsimp only
      by_cases hab : a = b
      · subst hab; simp
      · rw [if_neg hab, if_neg fun e => hab e.symm]
    · obtain ⟨b, h1, h2⟩ := h.base x hx
      refine ⟨b, h1, fun q hq => h2 q ?_⟩
      dsimp only at hq
      by_cases hba : b = a
      · rw [if_pos hba] at hq; cases hq
      · rwa [if_neg hba] at hq
    · dsimp only
      have hba : b ≠ a := by
        intro e
        obtain ⟨ok, hok⟩ := h.listed b hb
        exact hh P a [] rfl ok (e ▸ hok)
      rw [if_neg hba]
      exact h.alive (hrem hh) b hb
  | store a ok =>
    have hown : ∀ b, m.mem b = ownerAfter mem0 b (P ++ [.store a ok]) := fun b => by rw [owner_snoc]; exact h.owner b
    cases hm : m.mem a with
    | none =>
      refine ⟨none, m, by simp only [areaOp, hm], ⟨h.ok, hown, hlist, h.nodup, hnum, h.base, fun hh => h.alive (hrem hh)⟩, fun b ok' e => ?_⟩
      cases e
      exact .inl (by rw [← h.owner a, hm])
    | some p =>
      obtain ⟨t, t1, t2, t3, t4⟩ := entry_spec m.list a
      obtain ⟨r, st, s1, s2, s3, s4, s5, s6⟩ := openbase_ok hn h.ok (by have := h.num; omega) ok (areaEntry m.list a).1
      have hpath : ∀ x : Nat × Nat, x ∈ st.live → ∃ b, (areaEntry m.list a).2[x.2]? = some b ∧
          ∀ q, m.mem b = some q → q = (if st.fresh = m.slots.fresh then m.path else fun h => if h = m.slots.fresh then p else m.path h) x.1 := by
        have old : ∀ x : Nat × Nat, x ∈ m.slots.live → ∃ b, (areaEntry m.list a).2[x.2]? = some b ∧ ∀ q, m.mem b = some q → q = m.path x.1 := by
          intro x hx
          obtain ⟨b, h1, h2⟩ := h.base x hx
          refine ⟨b, ?_, h2⟩
          rw [t1, List.getElem?_append_left (List.getElem?_eq_some_iff.1 h1).1]
          exact h1
        intro x hx
        rcases openBase_live s1 with ⟨e1, e2⟩ | ⟨e1, e2⟩
        · rw [if_pos e1]
          exact old x (e2 x hx)
        · rw [if_neg (by omega)]
          rcases e2 x hx with e2 | e2
          · have hlt := h.ok.fresh x e2
            rw [if_neg (by omega)]
            exact old x e2
          · subst e2
            dsimp only
            rw [if_pos rfl]
            exact ⟨a, t3, fun q hq => by rw [hm] at hq; injection hq with hq; exact hq.symm⟩
      refine ⟨r.map (if st.fresh = m.slots.fresh then m.path else fun h => if h = m.slots.fresh then p else m.path h), { m with list := (areaEntry m.list a).2, slots := st, path := if st.fresh = m.slots.fresh then m.path else fun h => if h = m.slots.fresh then p else m.path h }, ?_,
        ⟨s2, hown, fun b hb => ?_, t4 h.nodup, ?_, hpath, fun hh b hb => ?_⟩, fun b ok' e => ?_⟩
      · simp only [areaOp, hm, areaStore, s1]
        rfl
      · rw [t1, List.mem_append] at hb
        rcases hb with hb | hb
        · exact hlist b hb
        · exact ⟨ok, by rw [(t2 b hb).1]; simp⟩
      · have := h.num
        rw [List.length_append, List.length_singleton]
        dsimp only
        omega
      · rw [t1, List.mem_append] at hb
        rcases hb with hb | hb
        · exact h.alive (hrem hh) b hb
        · rw [(t2 b hb).1, hm]; simp
      · cases e
        cases r with
        | none =>
          cases ok with
          | true => exact absurd rfl (s6 rfl)
          | false => exact .inr ⟨rfl, rfl⟩
        | some x =>
          refine .inl ?_
          obtain ⟨b, b1, b2⟩ := hpath _ (s4 x rfl)
          have : b = a := by
            rw [t3] at b1
            injection b1 with b1
            exact b1.symm
          rw [this] at b2
          rw [← h.owner a, hm]
          exact congrArg some (b2 p hm).symm

theorem areaRun_inv {n mem0} (hn : n ≠ 0) : ∀ (os P : List AreaOp) (m : AreaMem), AreaInv n mem0 P m → (P ++ os).length + 2 < 2 ^ 32 → NoneReused (P ++ os) →
    ∃ rs m', areaRun os m = .ok (rs, m') ∧ AreaInv n mem0 (P ++ os) m' ∧ rs.length = os.length ∧
      ∀ (k a : Nat) (ok : Bool), os[k]? = some (.store a ok) → rs[k]? = some (ownerAfter mem0 a (P ++ os.take k)) ∨ (ok = false ∧ rs[k]? = some none) := by
  intro os
  induction os with
  | nil =>
    intro P m h _ _
    exact ⟨[], m, rfl, by rwa [List.append_nil], rfl, fun k a ok hk => (by simp at hk)⟩
  | cons o os ih =>
    intro P m h hl hr
    have e : P ++ o :: os = (P ++ [o]) ++ os := by rw [List.append_assoc]; rfl
    obtain ⟨r, m1, h1, h2, h3⟩ := areaOp_step hn o h (by rw [List.length_append] at hl; omega) (fun a p ho ok => hr P a p os (by rw [ho]) ok)
    obtain ⟨rs, m2, i1, i2, i3, i4⟩ := ih (P ++ [o]) m1 h2 (e ▸ hl) (e ▸ hr)
    refine ⟨r :: rs, m2, ?_, e ▸ i2, by rw [List.length_cons, List.length_cons, i3], fun k a ok hk => ?_⟩
    · simp only [areaRun, h1]
      show (areaRun os m1 >>= _ : Except UB _) = _
      rw [i1]
      rfl
    · cases k with
      | zero =>
        rw [List.getElem?_cons_zero] at hk
        injection hk with hk
        rw [List.getElem?_cons_zero, List.take_zero, List.append_nil]
        rcases h3 a ok hk with h3 | ⟨h3, h4⟩
        · exact .inl (by rw [h3])
        · exact .inr ⟨h3, by rw [h4]⟩
      | succ k =>
        rw [List.getElem?_cons_succ] at hk
        rw [List.getElem?_cons_succ, List.take_succ_cons]
        have := i4 k a ok hk
        rwa [List.append_assoc] at this

theorem areaStart_inv (maxOpen : Nat) (mem : Nat → Option Str) : AreaInv (if maxOpen = 0 then 5 else maxOpen) mem [] (areaStart maxOpen mem) :=
  ⟨slots0_ok maxOpen, fun _ => rfl, fun _ h => (by cases h), List.nodup_nil, by show (1 : UInt32).toNat ≤ _; decide, fun x hx => (by cases hx), fun _ a ha => (by cases ha)⟩

/-- **C121 (partial).** Whatever areas are created and removed during a run, and whatever messages are stored: every message is stored in the base of its own area,
unless a new area gets its record at the address of an area that was removed after messages had been stored in it. -/
theorem stored_right_partial (maxOpen : Nat) (mem : Nat → Option Str) (os : List AreaOp) (hl : os.length + 2 < 2 ^ 32) (hr : NoneReused os) :
    ∃ rs m, areaRun os (areaStart maxOpen mem) = .ok (rs, m) ∧ StoredRight mem os rs := by
  obtain ⟨rs, m, h1, _, h3, h4⟩ := areaRun_inv (by split <;> omega) os [] _ (areaStart_inv maxOpen mem) hl hr
  exact ⟨rs, m, h1, h3, h4⟩

/-- The areas that exist and have got messages are on the list. -/
def AllListed (P : List AreaOp) (m : AreaMem) : Prop := ∀ a ok, .store a ok ∈ P → m.mem a ≠ none → a ∈ m.list

theorem listed_step {P m o r m'} (h : AllListed P m) (hr : ∀ a p, o = .create a p → ∀ ok, .store a ok ∉ P) (ho : areaOp m o = .ok (r, m')) : AllListed (P ++ [o]) m' := by
  intro b ok' hb hm'
  rw [List.mem_append, List.mem_singleton] at hb
  cases o with
  | create a p =>
    have hb : .store b ok' ∈ P := hb.resolve_right (fun e => by cases e)
    have hba : b ≠ a := fun e => hr a p rfl ok' (e ▸ hb)
    cases hm : m.mem a with
    | some q =>
      simp only [areaOp, hm] at ho
      cases ho
      exact h b ok' hb hm'
    | none =>
      simp only [areaOp, hm] at ho
      cases ho
      dsimp only at hm'
      rw [if_neg hba] at hm'
      exact h b ok' hb hm'
  | remove a =>
    have hb : .store b ok' ∈ P := hb.resolve_right (fun e => by cases e)
    cases ho
    dsimp only at hm'
    by_cases hba : b = a
    · rw [if_pos hba] at hm'; exact absurd rfl hm'
    · rw [if_neg hba] at hm'; exact h b ok' hb hm'
  | store a ok =>
    cases hm : m.mem a with
    | none =>
      simp only [areaOp, hm] at ho
      cases ho
      rcases hb with hb | hb
      · exact h b ok' hb hm'
      · injection hb with hb _; exact absurd (hb ▸ hm) hm'
    | some p =>
      obtain ⟨t, t1, t2, t3, t4⟩ := entry_spec m.list a
      simp only [areaOp, hm, areaStore] at ho
      cases ho' : jamOpenBase ok (areaEntry m.list a).1 m.slots with
      | error e => rw [ho'] at ho; cases ho
      | ok y =>
        rw [ho'] at ho
        cases ho
        show b ∈ (areaEntry m.list a).2
        rcases hb with hb | hb
        · rw [t1]; exact List.mem_append.2 (.inl (h b ok' hb hm'))
        · injection hb with hb _; rw [hb]; exact List.mem_of_getElem? t3

theorem listed_run : ∀ (os P : List AreaOp) (m : AreaMem) (rs : List (Option Str)) (m' : AreaMem), AllListed P m → NoneReused (P ++ os) → areaRun os m = .ok (rs, m') → AllListed (P ++ os) m'
  | [], P, m, rs, m', h, _, ho => by cases ho; rwa [List.append_nil]
  | o :: os, P, m, rs, m', h, hr, ho => by
    have e : P ++ o :: os = (P ++ [o]) ++ os := by rw [List.append_assoc]; rfl
    cases h1 : areaOp m o with
    | error x => simp [areaRun, h1, bind, Except.bind] at ho
    | ok y =>
      obtain ⟨r, m1⟩ := y
      cases h2 : areaRun os m1 with
      | error x => simp [areaRun, h1, h2, bind, Except.bind] at ho
      | ok z =>
        obtain ⟨rs', m2⟩ := z
        simp only [areaRun, h1, h2, bind, Except.bind, pure, Except.pure] at ho
        cases ho
        rw [e]
        exact listed_run os (P ++ [o]) m1 rs' m' (listed_step h (fun a p ho ok => hr P a p os (by rw [ho]) ok) h1) (e ▸ hr) h2

theorem mapM_some {f : Nat → Except UB Str} {g : Nat → Option Str} : ∀ (l : List Nat), (∀ a ∈ l, ∃ p, f a = .ok p ∧ g a = some p) → ∃ ps, l.mapM f = .ok ps ∧ ps.map some = l.map g
  | [], _ => ⟨[], rfl, rfl⟩
  | a :: l, h => by
    obtain ⟨p, hp, hg⟩ := h a List.mem_cons_self
    obtain ⟨ps, hps, hgs⟩ := mapM_some l fun b hb => h b (List.mem_cons_of_mem _ hb)
    exact ⟨p :: ps, by rw [List.mapM_cons, hp]; show (l.mapM f >>= _ : Except UB _) = _; rw [hps]; rfl, by rw [List.map_cons, List.map_cons, hgs, hg]⟩

/-- **C121 (partial).** If no area is removed after messages have been stored in it, the end of the run reads only records that exist: those of all areas that exist
and have got messages, each once. -/
theorem link_defined_partial (maxOpen : Nat) (mem : Nat → Option Str) (os : List AreaOp) (hl : os.length + 2 < 2 ^ 32) (hr : NoneReused os) (hn : NoneRemoved os) :
    ∃ rs m ps, areaRun os (areaStart maxOpen mem) = .ok (rs, m) ∧ areaLink m = .ok ps ∧ LinksAll mem os ps := by
  obtain ⟨rs, m, h1, h2, _⟩ := areaRun_inv (by split <;> omega) os [] _ (areaStart_inv maxOpen mem) hl hr
  have ha := h2.alive hn
  have hs : AllListed os m := listed_run os [] _ rs m (fun _ _ h => by cases h) hr h1
  have ho : ∀ a, m.mem a = ownerAfter mem a os := h2.owner
  obtain ⟨ps, hps, hgs⟩ := mapM_some (f := fun a => match m.mem a with | some p => .ok p | none => .error .oobRead) (g := fun a => ownerAfter mem a os) m.list fun a h => by
    cases hm : m.mem a with
    | none => exact absurd hm (ha a h)
    | some p => exact ⟨p, rfl, by rw [← ho, hm]⟩
  exact ⟨rs, m, ps, h1, hps, m.list, h2.nodup, fun a => ⟨fun h => ⟨h2.listed a h, by rw [← ho]; exact ha a h⟩, fun ⟨⟨ok, h⟩, h'⟩ => hs a ok h (by rw [ho]; exact h')⟩, hgs⟩

/-- A message is stored in an area, the area is removed, a new area gets its record at the same address, and a message is stored in it. -/
def reuseOps (a : Nat) (q : Str) : List AreaOp := [.store a true, .remove a, .create a q, .store a true]

/-- A message is stored in an area: its base is open afterwards. -/
theorem store_opens {n mem0 P m a p} (hn : n ≠ 0) (h : AreaInv n mem0 P m) (hb : P.length + 2 < 2 ^ 32) (hm : m.mem a = some p) :
    ∃ m1 x k, areaOp m (.store a true) = .ok (some p, m1) ∧ SlotsOk n m1.slots ∧ m1.mem = m.mem ∧ m1.list.Nodup ∧ m1.slots.lastnum.toNat ≤ P.length + 2 ∧
      (x, k) ∈ m1.slots.live ∧ m1.list[k]? = some a ∧ m1.path x = p := by
  obtain ⟨t, t1, t2, t3, t4⟩ := entry_spec m.list a
  obtain ⟨r, st, s1, s2, s3, s4, s5, s6⟩ := openbase_ok hn h.ok (by have := h.num; omega) true (areaEntry m.list a).1
  cases r with
  | none => exact absurd rfl (s6 rfl)
  | some x =>
    have hx := s4 x rfl
    have hpath : (if st.fresh = m.slots.fresh then m.path else fun h => if h = m.slots.fresh then p else m.path h) x = p := by
      have old : (x, (areaEntry m.list a).1) ∈ m.slots.live → m.path x = p := by
        intro ho
        obtain ⟨b, b1, b2⟩ := h.base _ ho
        have : b = a := by
          rw [t1, List.getElem?_append_left (List.getElem?_eq_some_iff.1 b1).1, b1] at t3
          injection t3
        exact (b2 p (this ▸ hm)).symm
      rcases openBase_live s1 with ⟨e1, e2⟩ | ⟨e1, e2⟩
      · rw [if_pos e1]
        exact old (e2 _ hx)
      · rw [if_neg (by omega)]
        rcases e2 _ hx with e2 | e2
        · have := h.ok.fresh _ e2
          dsimp only at this
          rw [if_neg (by omega)]
          exact old e2
        · injection e2 with e2
          rw [if_pos e2]
    refine ⟨{ m with list := (areaEntry m.list a).2, slots := st, path := if st.fresh = m.slots.fresh then m.path else fun h => if h = m.slots.fresh then p else m.path h }, x, (areaEntry m.list a).1,
      ?_, s2, rfl, t4 h.nodup, ?_, hx, t3, hpath⟩
    · simp only [areaOp, hm, areaStore, s1]
      exact congrArg (fun z => Except.ok (some z, _)) hpath
    · have := h.num
      dsimp only
      omega

/-- An area whose base is open: the message is stored in that base, whatever the record says. -/
theorem store_known {n : Nat} {m : AreaMem} {a x k : Nat} {q : Str} (hn : n ≠ 0) (h : SlotsOk n m.slots) (hb : m.slots.lastnum.toNat + 1 < 2 ^ 32) (hd : m.list.Nodup)
    (hm : m.mem a = some q) (hx : (x, k) ∈ m.slots.live) (hk : m.list[k]? = some a) : ∃ m1, areaOp m (.store a true) = .ok (some (m.path x), m1) := by
  obtain ⟨t, t1, t2, t3, t4⟩ := entry_spec m.list a
  have ht : t = [] := by
    cases t with
    | nil => rfl
    | cons b t => exact absurd (List.mem_of_getElem? hk) (t2 b List.mem_cons_self).2
  rw [ht, List.append_nil] at t1
  have he : (areaEntry m.list a).1 = k := by
    rw [t1] at t3
    exact List.getElem?_inj (List.getElem?_eq_some_iff.1 t3).1 hd |>.1 (t3.trans hk.symm)
  obtain ⟨r, st, s1, s2, s3, s4, s5, s6⟩ := openbase_ok hn h hb true k
  obtain ⟨hr, _⟩ := s5 x hx
  subst hr
  have hpath : (if st.fresh = m.slots.fresh then m.path else fun h => if h = m.slots.fresh then q else m.path h) x = m.path x := by
    have := h.fresh _ hx
    dsimp only at this
    split
    · rfl
    · exact if_neg (by omega)
  refine ⟨{ m with list := (areaEntry m.list a).2, slots := st, path := if st.fresh = m.slots.fresh then m.path else fun h => if h = m.slots.fresh then q else m.path h }, ?_⟩
  simp only [areaOp, hm, areaStore, he, s1]
  exact congrArg (fun z => Except.ok (some z, _)) hpath

theorem areaRun_append : ∀ (os os' : List AreaOp) (m m1 : AreaMem) (rs : List (Option Str)), areaRun os m = .ok (rs, m1) →
    areaRun (os ++ os') m = (areaRun os' m1).map fun y => (rs ++ y.1, y.2)
  | [], os', m, m1, rs, h => by
    cases h
    cases h' : areaRun os' m <;> simp [h', Except.map]
  | o :: os, os', m, m1, rs, h => by
    cases ho : areaOp m o with
    | error e => simp [areaRun, ho, bind, Except.bind] at h
    | ok y =>
      obtain ⟨r, m2⟩ := y
      cases hr : areaRun os m2 with
      | error e => simp [areaRun, ho, hr, bind, Except.bind] at h
      | ok z =>
        obtain ⟨rs', m3⟩ := z
        simp only [areaRun, ho, hr, bind, Except.bind, pure, Except.pure] at h
        cases h
        have ih := areaRun_append os os' m2 m1 rs' hr
        simp only [List.cons_append, areaRun, ho, bind, Except.bind, pure, Except.pure, ih]
        cases h' : areaRun os' m1 <;> simp [h', Except.map]

/-- **C121, violated.** Whatever has happened before in the run: the message for the new area is stored in the base of the area that was removed. -/
theorem misfiled (maxOpen : Nat) (mem : Nat → Option Str) (os : List AreaOp) (hl : os.length + 5 < 2 ^ 32) (hr : NoneReused os) (a : Nat) (p q : Str)
    (hm : ownerAfter mem a os = some p) :
    ∃ rs m, areaRun (os ++ reuseOps a q) (areaStart maxOpen mem) = .ok (rs ++ [some p, none, none, some p], m) ∧ rs.length = os.length ∧
      ownerAfter mem a (os ++ (reuseOps a q).take 3) = some q := by
  have hn : (if maxOpen = 0 then 5 else maxOpen) ≠ 0 := by split <;> omega
  obtain ⟨rs, m, h1, h2, h3, _⟩ := areaRun_inv hn os [] _ (areaStart_inv maxOpen mem) (by rw [List.nil_append]; omega) hr
  rw [List.nil_append] at h2
  obtain ⟨m1, x, k, k1, k2, k3, k4, k5, k6, k7, k8⟩ := store_opens hn h2 (by omega) (p := p) (by rw [h2.owner, hm])
  let m2 : AreaMem := { m1 with mem := fun b => if b = a then none else m1.mem b }
  let m3 : AreaMem := { m2 with mem := fun b => if b = a then some q else m2.mem b }
  have e2 : areaOp m1 (.remove a) = .ok (none, m2) := rfl
  have e3 : areaOp m2 (.create a q) = .ok (none, m3) := by
    have : m2.mem a = none := if_pos rfl
    simp only [areaOp, this]
    rfl
  obtain ⟨m4, e4⟩ := store_known (m := m3) (a := a) (x := x) (k := k) (q := q) hn k2 (by show m1.slots.lastnum.toNat + 1 < _; omega) k4 (if_pos rfl) k6 k7
  have e4' : areaOp m3 (.store a true) = .ok (some p, m4) := by rw [e4, ← k8]
  have hrun : areaRun (reuseOps a q) m = .ok ([some p, none, none, some p], m4) := by
    simp only [reuseOps, areaRun, k1, e2, e3, e4', bind, Except.bind, pure, Except.pure]
  refine ⟨rs, m4, ?_, h3, ?_⟩
  · rw [areaRun_append os _ _ m rs h1, hrun]
    rfl
  · show ownerAfter mem a (os ++ [.store a true, .remove a, .create a q]) = _
    unfold ownerAfter
    rw [List.foldl_append]
    simp

/-- **C121, violated.** If an area is removed after a message has been stored in it, the end of the run reads a record that was freed. -/
theorem link_dangling (maxOpen : Nat) (mem : Nat → Option Str) (os : List AreaOp) (hl : os.length + 5 < 2 ^ 32) (hr : NoneReused os) (a : Nat) (p : Str)
    (hm : ownerAfter mem a os = some p) :
    ∃ rs m, areaRun (os ++ [.store a true, .remove a]) (areaStart maxOpen mem) = .ok (rs, m) ∧ areaLink m = .error .oobRead := by
  have hn : (if maxOpen = 0 then 5 else maxOpen) ≠ 0 := by split <;> omega
  obtain ⟨rs, m, h1, h2, h3, _⟩ := areaRun_inv hn os [] _ (areaStart_inv maxOpen mem) (by rw [List.nil_append]; omega) hr
  rw [List.nil_append] at h2
  obtain ⟨m1, x, k, k1, k2, k3, k4, k5, k6, k7, k8⟩ := store_opens hn h2 (by omega) (p := p) (by rw [h2.owner, hm])
  refine ⟨rs ++ [some p, none], { m1 with mem := fun b => if b = a then none else m1.mem b }, ?_, ?_⟩
  · rw [areaRun_append os _ _ m rs h1]
    have e2 : areaOp m1 (.remove a) = .ok (none, { m1 with mem := fun b => if b = a then none else m1.mem b }) := rfl
    simp only [areaRun, k1, e2, bind, Except.bind, pure, Except.pure, Except.map]
  · have key : ∀ (l : List Nat), a ∈ l → (l.mapM fun b => match (if b = a then none else m1.mem b) with | some p => .ok p | none => .error .oobRead : Except UB (List Str)) = .error .oobRead := by
      intro l
      induction l with
      | nil => intro h; cases h
      | cons b l ih =>
        intro h
        rw [List.mapM_cons]
        by_cases hb : b = a
        · rw [if_pos hb]; rfl
        · rw [if_neg hb]
          have hl := ih ((List.mem_cons.1 h).resolve_left fun e => hb e.symm)
          cases m1.mem b with
          | none => rfl
          | some q =>
            show (List.mapM _ l >>= _ : Except UB _) = _
            rw [hl]
            rfl
    exact key _ (List.mem_of_getElem? k7)

namespace Ex

/-- Two areas, of which the second is removed before anything is stored in it; a new area gets its place. -/
def areaMem0 : Nat → Option Str := fun a => if a = 16 then some b!"/a" else if a = 32 then some b!"/b" else none

def areaOps : List AreaOp := [.store 16 true, .remove 32, .create 32 b!"/c", .store 32 true, .store 16 true, .create 48 b!"/d", .store 48 false]

theorem areaOps_reused : NoneReused areaOps := by
  intro x a p y h ok hm
  have key : ∀ (n : Nat), n < 7 → areaOps[n]? = some (.create a p) → n = 2 ∧ a = 32 ∨ n = 5 ∧ a = 48 := by
    intro n hn
    match n, hn with
    | 0, _ | 1, _ | 3, _ | 4, _ | 6, _ => intro hh; simp [areaOps] at hh
    | 2, _ => intro hh; simp [areaOps] at hh; exact .inl ⟨rfl, hh.1.symm⟩
    | 5, _ => intro hh; simp [areaOps] at hh; exact .inr ⟨rfl, hh.1.symm⟩
    | n + 7, hn => omega
  have hl : x.length < 7 := by
    have := congrArg List.length h
    rw [List.length_append, List.length_cons] at this
    have e : areaOps.length = 7 := rfl
    omega
  have hx : x = areaOps.take x.length := by rw [h, List.take_left']; rfl
  have hn := key x.length hl (by rw [h, List.getElem?_append_right (Nat.le_refl _), Nat.sub_self]; rfl)
  rcases hn with ⟨hn, ha⟩ | ⟨hn, ha⟩ <;> rw [hn] at hx <;> subst hx <;> subst ha <;> simp [areaOps] at hm

theorem areaOps_removed : NoneRemoved areaOps := by
  intro x a y h ok hm
  have key : ∀ (n : Nat), n < 7 → areaOps[n]? = some (.remove a) → n = 1 ∧ a = 32 := by
    intro n hn
    match n, hn with
    | 0, _ | 2, _ | 3, _ | 4, _ | 5, _ | 6, _ => intro hh; simp [areaOps] at hh
    | 1, _ => intro hh; simp [areaOps] at hh; exact ⟨rfl, hh.symm⟩
    | n + 7, hn => omega
  have hl : x.length < 7 := by
    have := congrArg List.length h
    rw [List.length_append, List.length_cons] at this
    have e : areaOps.length = 7 := rfl
    omega
  have hx : x = areaOps.take x.length := by rw [h, List.take_left']; rfl
  obtain ⟨hn, ha⟩ := key x.length hl (by rw [h, List.getElem?_append_right (Nat.le_refl _), Nat.sub_self]; rfl)
  rw [hn] at hx
  subst hx
  subst ha
  simp [areaOps] at hm

/-- The conditions are met, and areas are created, removed and used. -/
theorem area_case : NoneReused areaOps ∧ NoneRemoved areaOps ∧
    (areaRun areaOps (areaStart 1 areaMem0)).toOption.map (·.1) = some [some b!"/a", none, none, some b!"/c", some b!"/a", none, none] :=
  ⟨areaOps_reused, areaOps_removed, by decide +kernel⟩

/-- The message for `/new` is stored in `/a`. -/
theorem area_misfiled : (areaRun (reuseOps 16 b!"/new") (areaStart 0 areaMem0)).toOption.map (·.1) = some [some b!"/a", none, none, some b!"/a"] := by decide +kernel

end Ex

end CM
