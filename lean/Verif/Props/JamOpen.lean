import Verif.Model.JamOpen
/-! # Message bases are opened and closed as they should be -/

namespace CM

/-- What holds at any time: the used slots have exactly the open handles, for different areas. -/
structure SlotsOk (n : Nat) (st : JamSlots) : Prop where
  len : st.slots.length = n
  live : st.live.Perm ((st.slots.filter (fun s => s.last != 0)).map fun s => (s.hnd, s.area))
  hnds : (st.live.map (·.1)).Nodup
  areas : (st.live.map (·.2)).Nodup
  fresh : ∀ x ∈ st.live, x.1 < st.fresh
  pos : 0 < st.lastnum.toNat
  past : ∀ s ∈ st.slots, s.last.toNat < st.lastnum.toNat

theorem set_perm {α : Type} : ∀ (l : List α) (c : Nat) (s x : α), l[c]? = some s → ∃ r, l.Perm (s :: r) ∧ (l.set c x).Perm (x :: r)
  | [], c, s, x, h => by simp at h
  | a :: l, 0, s, x, h => by
    simp only [List.getElem?_cons_zero, Option.some.injEq] at h
    subst h
    exact ⟨l, .refl _, .refl _⟩
  | a :: l, c + 1, s, x, h => by
    rw [List.getElem?_cons_succ] at h
    obtain ⟨r, h1, h2⟩ := set_perm l c s x h
    exact ⟨a :: r, (h1.cons a).trans (.swap _ _ _), by rw [List.set_cons_succ]; exact (h2.cons a).trans (.swap _ _ _)⟩

/-- The open handles after a slot has changed. -/
theorem used_set {slots : List JamSlot} {c : Nat} {s : JamSlot} (x : JamSlot) (h : slots[c]? = some s) : ∃ r : List (Nat × Nat),
    ((slots.filter (fun s => s.last != 0)).map fun s => (s.hnd, s.area)).Perm (if s.last = 0 then r else (s.hnd, s.area) :: r) ∧
    (((slots.set c x).filter (fun s => s.last != 0)).map fun s => (s.hnd, s.area)).Perm (if x.last = 0 then r else (x.hnd, x.area) :: r) := by
  obtain ⟨r, h1, h2⟩ := set_perm slots c s x h
  refine ⟨(r.filter (fun s => s.last != 0)).map fun s => (s.hnd, s.area), ?_, ?_⟩
  · refine ((h1.filter _).map _).trans ?_
    by_cases hz : s.last = 0
    · simp [hz]
    · rw [List.filter_cons_of_pos (by simpa using hz), if_neg hz]; exact .refl _
  · refine ((h2.filter _).map _).trans ?_
    by_cases hz : x.last = 0
    · simp [hz]
    · rw [List.filter_cons_of_pos (by simpa using hz), if_neg hz]; exact .refl _

theorem used_live {n : Nat} {st : JamSlots} (h : SlotsOk n st) {s : JamSlot} (hs : s ∈ st.slots) (hu : s.last ≠ 0) : (s.hnd, s.area) ∈ st.live :=
  h.live.mem_iff.2 (List.mem_map.2 ⟨s, List.mem_filter.2 ⟨hs, by simpa using hu⟩, rfl⟩)

theorem lru_get (slots : List JamSlot) (s : JamSlot) (t : List JamSlot) (e : slots = s :: t) :
    ∃ x, slots[jamLru slots s]? = some x ∧ ∀ y ∈ slots, x.last ≤ y.last := by
  have key : ∀ (cs : List Nat) (best : Nat × UInt32), (∃ x, slots[best.1]? = some x ∧ x.last = best.2) →
      let r := cs.foldl (fun (best : Nat × UInt32) c =>
        match slots[c]? with
        | some t => if t.last < best.2 then (c, t.last) else best
        | none => best) best
      (∃ x, slots[r.1]? = some x ∧ x.last = r.2) ∧ r.2 ≤ best.2 ∧ ∀ c ∈ cs, ∀ y, slots[c]? = some y → r.2 ≤ y.last := by
    intro cs
    induction cs with
    | nil => intro best hb; exact ⟨hb, UInt32.le_refl _, fun c hc => by cases hc⟩
    | cons c cs ih =>
      intro best hb
      have step : ∃ b', (match slots[c]? with
          | some t => if t.last < best.2 then (c, t.last) else best
          | none => best) = b' ∧ (∃ x, slots[b'.1]? = some x ∧ x.last = b'.2) ∧ b'.2 ≤ best.2 ∧ ∀ y, slots[c]? = some y → b'.2 ≤ y.last := by
        match hc : slots[c]? with
        | none => exact ⟨best, rfl, hb, UInt32.le_refl _, fun y hy => by cases hy⟩
        | some t =>
          by_cases hl : t.last < best.2
          · exact ⟨(c, t.last), by simp only [hl, if_true], ⟨t, hc, rfl⟩, UInt32.le_of_lt hl, fun y hy => by cases hy; exact UInt32.le_refl _⟩
          · exact ⟨best, by simp only [hl, if_false], hb, UInt32.le_refl _, fun y hy => by cases hy; exact UInt32.not_lt.1 hl⟩
      obtain ⟨b', e1, e2, e3, e4⟩ := step
      obtain ⟨i1, i2, i3⟩ := ih b' e2
      rw [List.foldl_cons, e1]
      refine ⟨i1, UInt32.le_trans i2 e3, fun d hd y hy => ?_⟩
      rcases List.mem_cons.1 hd with rfl | hd
      · exact UInt32.le_trans i2 (e4 y hy)
      · exact i3 d hd y hy
  obtain ⟨⟨x, h1, h2⟩, h3, h4⟩ := key (List.range slots.length) (0, s.last) ⟨s, by rw [e]; rfl, rfl⟩
  refine ⟨x, h1, fun y hy => ?_⟩
  obtain ⟨c, hc⟩ := List.mem_iff_getElem?.1 hy
  rw [h2]
  exact h4 c (List.mem_range.2 (List.getElem?_eq_some_iff.1 hc).1) y hc

theorem nodup_perm_map {α β : Type} {f : α → β} {a b : List α} (h : a.Perm b) (hn : (a.map f).Nodup) : (b.map f).Nodup :=
  (h.map f).nodup_iff.1 hn

/-- A free slot is found; if none was free, the base that has not been used for the longest time has been closed. -/
theorem freeSlot_ok {n : Nat} {st : JamSlots} (hn : n ≠ 0) (h : SlotsOk n st) :
    ∃ c st' s, jamFreeSlot st = .ok (c, st') ∧ SlotsOk n st' ∧ st'.slots[c]? = some s ∧ s.last = 0 ∧ st'.lastnum = st.lastnum ∧ st'.fresh = st.fresh ∧ (∀ x ∈ st'.live, x ∈ st.live) ∧
      ((∃ s ∈ st.slots, s.last = 0) → st' = st) ∧
      ((∀ s ∈ st.slots, s.last ≠ 0) → ∃ x ∈ st.slots, (∀ y ∈ st.slots, x.last ≤ y.last) ∧ st.live.Perm ((x.hnd, x.area) :: st'.live)) := by
  match hf : st.slots.findIdx? (·.last == 0) with
  | some c =>
    obtain ⟨h1, h2, _⟩ := List.findIdx?_eq_some_iff_getElem.1 hf
    have hz : (st.slots[c]'h1).last = 0 := by simpa using h2
    exact ⟨c, st, st.slots[c]'h1, by simp only [jamFreeSlot, hf], h, List.getElem?_eq_getElem h1, hz, rfl, rfl, fun _ hx => hx, fun _ => rfl,
      fun ha => absurd hz (ha _ (List.getElem_mem h1))⟩
  | none =>
    have hall : ∀ s ∈ st.slots, s.last ≠ 0 := fun s hs => by
      have := List.findIdx?_eq_none_iff.1 hf s hs
      simpa using this
    match hs : st.slots with
    | [] => rw [← h.len, hs] at hn; exact absurd rfl hn
    | s :: t =>
      obtain ⟨x, hx, hmin⟩ := lru_get (s :: t) s t rfl
      have hxm : x ∈ st.slots := by rw [hs]; exact List.mem_iff_getElem?.2 ⟨_, hx⟩
      have hxl := used_live h hxm (hall x hxm)
      have hc : jamFreeSlot st = .ok (jamLru (s :: t) s, { st with live := st.live.erase (x.hnd, x.area), slots := st.slots.set (jamLru (s :: t) s) { x with last := 0 } }) := by
        simp only [jamFreeSlot, hf]
        simp only [hs, hx, jamCloseHnd, if_pos hxl]
        rfl
      rw [← hs]
      have hp := List.perm_cons_erase hxl
      have hx' : st.slots[jamLru (s :: t) s]? = some x := by rw [hs]; exact hx
      obtain ⟨r, u1, u2⟩ := used_set { x with last := 0 } hx'
      rw [if_neg (hall x hxm)] at u1
      rw [if_pos rfl] at u2
      have hlt : jamLru (s :: t) s < st.slots.length := (List.getElem?_eq_some_iff.1 hx').1
      refine ⟨_, _, { x with last := 0 }, hc, ⟨?_, ?_, ?_, ?_, fun y hy => h.fresh y (List.mem_of_mem_erase hy), h.pos, fun y hy => ?_⟩, ?_, rfl, rfl, rfl, fun y hy => List.mem_of_mem_erase hy, ?_, ?_⟩
      · show (st.slots.set _ _).length = n
        rw [List.length_set]; exact h.len
      · refine List.Perm.trans ?_ u2.symm
        exact (hp.symm.trans (h.live.trans u1)).cons_inv
      · exact (List.nodup_cons.1 (nodup_perm_map hp h.hnds)).2
      · exact (List.nodup_cons.1 (nodup_perm_map hp h.areas)).2
      · rcases List.mem_or_eq_of_mem_set hy with hy | rfl
        · exact h.past y hy
        · exact h.pos
      · exact List.getElem?_set_self hlt
      · rintro ⟨y, hy, e⟩
        exact absurd e (hall y hy)
      · exact fun _ => ⟨x, hxm, by rw [hs]; exact hmin, hp⟩

/-- Asking for the base of an area: the handle that is returned is open and is the one of this area; never is a handle closed that is not open; no more than `n` are
open. -/
theorem openbase_ok {n : Nat} {st : JamSlots} (hn : n ≠ 0) (h : SlotsOk n st) (hl : st.lastnum.toNat + 1 < 2 ^ 32) (ok : Bool) (a : Nat) :
    ∃ r st', jamOpenBase ok a st = .ok (r, st') ∧ SlotsOk n st' ∧ st'.lastnum.toNat ≤ st.lastnum.toNat + 1 ∧ (∀ x, r = some x → (x, a) ∈ st'.live) ∧
      (∀ x, (x, a) ∈ st.live → r = some x ∧ st'.live = st.live) ∧ (ok = true → r ≠ none) := by
  have hadd : (st.lastnum + 1).toNat = st.lastnum.toNat + 1 := by
    rw [UInt32.toNat_add]; show (st.lastnum.toNat + 1) % 2 ^ 32 = _; omega
  match hf : st.slots.findIdx? (fun s => s.area == a && s.last != 0) with
  | some c =>
    obtain ⟨h1, h2, _⟩ := List.findIdx?_eq_some_iff_getElem.1 hf
    have hg : st.slots[c]? = some (st.slots[c]'h1) := List.getElem?_eq_getElem h1
    have hm : (st.slots[c]'h1) ∈ st.slots := List.getElem_mem h1
    generalize st.slots[c]'h1 = s at hg h2 hm
    simp only [Bool.and_eq_true, beq_iff_eq, bne_iff_ne] at h2
    obtain ⟨ha, hu⟩ := h2
    have hsl := used_live h hm hu
    have hc : jamOpenBase ok a st = .ok (some s.hnd, { st with slots := st.slots.set c { s with last := st.lastnum }, lastnum := st.lastnum + 1 }) := by
      simp only [jamOpenBase, hf, hg]
    obtain ⟨r, u1, u2⟩ := used_set { s with last := st.lastnum } hg
    rw [if_neg hu] at u1
    have hnz : st.lastnum ≠ 0 := fun e => by have := h.pos; rw [e] at this; exact absurd this (by decide)
    rw [if_neg (show ¬({ s with last := st.lastnum } : JamSlot).last = 0 from hnz)] at u2
    refine ⟨_, _, hc, ⟨by show (st.slots.set _ _).length = n; rw [List.length_set]; exact h.len, (h.live.trans u1).trans u2.symm, h.hnds, h.areas, h.fresh, ?_, fun y hy => ?_⟩,
      Nat.le_of_eq hadd, fun x hx => ?_, fun x hx => ⟨?_, rfl⟩, fun _ => by simp⟩
    · show 0 < (st.lastnum + 1).toNat; omega
    · show y.last.toNat < (st.lastnum + 1).toNat
      rcases List.mem_or_eq_of_mem_set hy with hy | rfl
      · have := h.past y hy; omega
      · show st.lastnum.toNat < _; omega
    · cases hx; rw [← ha]; exact hsl
    · -- one handle for an area
      have hx2 : (x, a) = (s.hnd, s.area) := by
        have := h.areas
        rw [List.nodup_iff_pairwise_ne] at this
        rcases List.mem_iff_getElem.1 hx with ⟨i, hi, ei⟩
        rcases List.mem_iff_getElem.1 hsl with ⟨j, hj, ej⟩
        by_cases hij : i = j
        · subst hij; rw [← ei, ej]
        · exfalso
          have hp := List.pairwise_iff_getElem.1 this
          rcases Nat.lt_or_gt_of_ne hij with hlt | hlt
          · exact hp i j (by simpa using hi) (by simpa using hj) hlt (by simp [ei, ej, ha])
          · exact hp j i (by simpa using hj) (by simpa using hi) hlt (by simp [ei, ej, ha])
      rw [(Prod.mk.inj hx2).1]
  | none =>
    have hno : ∀ x, (x, a) ∉ st.live := fun x hx => by
      obtain ⟨s, hs, e⟩ := List.mem_map.1 (h.live.mem_iff.1 hx)
      have hs := List.mem_filter.1 hs
      have := List.findIdx?_eq_none_iff.1 hf s hs.1
      simp only [Prod.mk.injEq] at e
      rw [e.2, hs.2] at this
      simp at this
    obtain ⟨c, st1, s, f1, f2, f3, f4, f5, f6, f7, _⟩ := freeSlot_ok hn h
    cases ok with
    | false => exact ⟨none, st1, (by simp only [jamOpenBase, hf, f1]; rfl), f2, by rw [f5]; omega, fun x hx => (by cases hx), fun x hx => absurd hx (hno x), fun hh => (by cases hh)⟩
    | true =>
      have hlt := (List.getElem?_eq_some_iff.1 f3).1
      obtain ⟨r, u1, u2⟩ := used_set { last := st1.lastnum, area := a, hnd := st1.fresh } f3
      rw [if_pos f4] at u1
      have hnz : st1.lastnum ≠ 0 := fun e => by have := f2.pos; rw [e] at this; exact absurd this (by decide)
      rw [if_neg (show ¬({ last := st1.lastnum, area := a, hnd := st1.fresh } : JamSlot).last = 0 from hnz)] at u2
      rw [← f5] at hadd
      have hc : jamOpenBase true a st = .ok (some st1.fresh, { slots := st1.slots.set c { last := st1.lastnum, area := a, hnd := st1.fresh }, lastnum := st1.lastnum + 1, live := (st1.fresh, a) :: st1.live, fresh := st1.fresh + 1 }) := by
        simp only [jamOpenBase, hf, f1]; rfl
      refine ⟨_, _, hc, ⟨by show (st1.slots.set _ _).length = n; rw [List.length_set]; exact f2.len, ((f2.live.trans u1).cons _).trans u2.symm, ?_, ?_, fun y hy => ?_, ?_, fun y hy => ?_⟩,
        by show (st1.lastnum + 1).toNat ≤ _; rw [hadd, f5]; omega, fun x hx => ?_, fun x hx => absurd hx (hno x), fun _ => by simp⟩
      · refine List.nodup_cons.2 ⟨fun hm => ?_, f2.hnds⟩
        obtain ⟨y, hy, e⟩ := List.mem_map.1 hm
        have := f2.fresh y hy
        simp only at e; omega
      · refine List.nodup_cons.2 ⟨fun hm => ?_, f2.areas⟩
        obtain ⟨y, hy, e⟩ := List.mem_map.1 hm
        simp only at e
        exact hno y.1 (by rw [← e]; exact f7 y hy)
      · show y.1 < st1.fresh + 1
        rcases List.mem_cons.1 hy with rfl | hy
        · exact Nat.lt_succ_self _
        · have := f2.fresh y hy; omega
      · show 0 < (st1.lastnum + 1).toNat; omega
      · show y.last.toNat < (st1.lastnum + 1).toNat
        rcases List.mem_or_eq_of_mem_set hy with hy | rfl
        · have := f2.past y hy; omega
        · show st1.lastnum.toNat < _; omega
      · cases hx; exact List.mem_cons_self ..

/-- Asking for bases one after the other. -/
def jamUses : List (Nat × Bool) → JamSlots → Except UB (List (Option Nat) × JamSlots)
  | [], st => .ok ([], st)
  | (a, ok) :: us, st => do
    let (r, st) ← jamOpenBase ok a st
    let (rs, st) ← jamUses us st
    return (r :: rs, st)

theorem slots0_ok (m : Nat) : SlotsOk (if m = 0 then 5 else m) (jamSlots0 m) where
  len := List.length_replicate
  live := by
    show List.Perm [] _
    rw [List.filter_eq_nil_iff.2]
    · exact .refl _
    · intro s hs
      rw [List.eq_of_mem_replicate hs]
      decide
  hnds := List.nodup_nil
  areas := List.nodup_nil
  fresh := fun x hx => by cases hx
  pos := by show 0 < (1 : UInt32).toNat; decide
  past := fun s hs => by
    rw [List.eq_of_mem_replicate hs]
    show (0 : UInt32).toNat < (1 : UInt32).toNat
    decide

theorem uses_ok {n : Nat} (hn : n ≠ 0) : ∀ (us : List (Nat × Bool)) {st : JamSlots}, SlotsOk n st → st.lastnum.toNat + us.length < 2 ^ 32 →
    ∃ rs st', jamUses us st = .ok (rs, st') ∧ SlotsOk n st' ∧ rs.length = us.length ∧ ∀ (k a : Nat), us[k]? = some (a, true) → ∃ h, rs[k]? = some (some h)
  | [], st, h, _ => ⟨[], st, rfl, h, rfl, fun k a hk => by simp at hk⟩
  | (a, ok) :: us, st, h, hl => by
    simp only [List.length_cons] at hl
    obtain ⟨r, st1, e1, h1, l1, _, _, ho⟩ := openbase_ok hn h (by omega) ok a
    obtain ⟨rs, st2, e2, h2, l2, h3⟩ := uses_ok hn us h1 (by omega)
    refine ⟨r :: rs, st2, ?_, h2, by simp [l2], fun k b hk => ?_⟩
    · rw [jamUses, e1]
      show (jamUses us st1 >>= _) = _
      rw [e2]; rfl
    · cases k with
      | zero =>
        simp only [List.getElem?_cons_zero, Option.some.injEq, Prod.mk.injEq] at hk
        match r, ho hk.2 with
        | some x, _ => exact ⟨x, rfl⟩
      | succ k => rw [List.getElem?_cons_succ] at hk ⊢; exact h3 k b hk

theorem uses_last {n : Nat} (hn : n ≠ 0) : ∀ (us : List (Nat × Bool)) {st : JamSlots}, SlotsOk n st → st.lastnum.toNat + us.length < 2 ^ 32 →
    ∃ rs st', jamUses us st = .ok (rs, st') ∧ SlotsOk n st' ∧ rs.length = us.length ∧ st'.lastnum.toNat ≤ st.lastnum.toNat + us.length
  | [], st, h, _ => ⟨[], st, rfl, h, rfl, Nat.le_refl _⟩
  | (a, ok) :: us, st, h, hl => by
    simp only [List.length_cons] at hl
    obtain ⟨r, st1, e1, h1, l1, _⟩ := openbase_ok hn h (by omega) ok a
    obtain ⟨rs, st2, e2, h2, l2, h3⟩ := uses_last hn us h1 (by omega)
    refine ⟨r :: rs, st2, ?_, h2, by simp [l2], by simp only [List.length_cons]; omega⟩
    rw [jamUses, e1]
    show (jamUses us st1 >>= _) = _
    rw [e2]; rfl

theorem closeAll_fold : ∀ (l : List JamSlot) (st : JamSlots), st.live.Perm ((l.filter (fun s => s.last != 0)).map fun s => (s.hnd, s.area)) →
    ∃ st', l.foldlM (fun st s => if s.last != 0 then jamCloseHnd st s else .ok st) st = (.ok st' : Except UB JamSlots) ∧ st'.live = []
  | [], st, h => ⟨st, rfl, h.eq_nil⟩
  | s :: l, st, h => by
    rw [List.foldlM_cons]
    by_cases hu : (s.last != 0) = true
    · rw [if_pos hu]
      rw [List.filter_cons_of_pos (p := fun s : JamSlot => s.last != 0) hu] at h
      have hm : (s.hnd, s.area) ∈ st.live := h.mem_iff.2 (by simp)
      rw [jamCloseHnd, if_pos hm]
      exact closeAll_fold l { st with live := st.live.erase (s.hnd, s.area) } ((List.perm_cons_erase hm).symm.trans h).cons_inv
    · rw [if_neg hu]
      rw [List.filter_cons_of_neg (p := fun s : JamSlot => s.last != 0) hu] at h
      exact closeAll_fold l st h

/-- Whatever areas are used in whatever order, and whichever of them cannot be opened: no base is closed twice, no base that is closed is used (each use gets an
open handle of its own area, `openbase_ok`), no more bases are open at any time than may be, and in the end all are closed. -/
theorem bases_kept_open (maxOpen : Nat) (us : List (Nat × Bool)) (hl : us.length + 1 < 2 ^ 32) :
    ∃ rs st st', jamUses us (jamSlots0 maxOpen) = .ok (rs, st) ∧ rs.length = us.length ∧ (∀ (k a : Nat), us[k]? = some (a, true) → ∃ h, rs[k]? = some (some h)) ∧
      st.live.length ≤ (if maxOpen = 0 then 5 else maxOpen) ∧ jamCloseAll st = .ok st' ∧ st'.live = [] := by
  obtain ⟨rs, st, e, h, l, hr⟩ := uses_ok (by split <;> omega) us (slots0_ok maxOpen) (by show (1 : UInt32).toNat + _ < _; simp; omega)
  obtain ⟨st', e', h'⟩ := closeAll_fold st.slots st h.live
  refine ⟨rs, st, st', e, l, hr, ?_, e', h'⟩
  rw [h.live.length_eq, List.length_map, ← h.len]
  exact List.length_filter_le _ _

/-- Whatever has been used before, the next use gets a handle that is open and belongs to the area asked for. An area that is open keeps its handle, and then nothing is
closed; otherwise at most one base is closed, and only if there is no room: the one not used for the longest time. -/
theorem base_of_area (maxOpen : Nat) (us : List (Nat × Bool)) (hl : us.length + 2 < 2 ^ 32) (a : Nat) (ok : Bool) :
    ∃ rs st r st', jamUses us (jamSlots0 maxOpen) = .ok (rs, st) ∧ jamOpenBase ok a st = .ok (r, st') ∧ (ok = true → r ≠ none) ∧ (∀ x, r = some x → (x, a) ∈ st'.live) ∧
      (∀ x, (x, a) ∈ st.live → r = some x ∧ st'.live = st.live) ∧ st'.live.length ≤ (if maxOpen = 0 then 5 else maxOpen) ∧ (st'.live.map (·.2)).Nodup := by
  obtain ⟨rs, st, e, h, _, hr⟩ := uses_last (by split <;> omega) us (slots0_ok maxOpen) (by show (1 : UInt32).toNat + _ < _; simp; omega)
  have h1 : st.lastnum.toNat + 1 < 2 ^ 32 := by
    have : (jamSlots0 maxOpen).lastnum.toNat = 1 := by show (1 : UInt32).toNat = 1; decide
    omega
  obtain ⟨r, st', e', h', _, a1, a2, a3⟩ := openbase_ok (by split <;> omega) h h1 ok a
  refine ⟨rs, st, r, st', e, e', a3, a1, a2, ?_, h'.areas⟩
  rw [h'.live.length_eq, List.length_map, ← h'.len]
  exact List.length_filter_le _ _

namespace Ex

/-- Two bases may be open. The third area takes the place of the first, the fourth cannot be opened; the second is still open. -/
theorem slots_example : (jamUses [(7, true), (8, true), (8, true), (7, true), (9, true), (4, false), (7, true)] (jamSlots0 2)).toOption.map (fun x => (x.1, x.2.live)) =
    some ([some 0, some 1, some 1, some 0, some 2, none, some 3], [(3, 7), (2, 9)]) := by decide +kernel

end Ex

end CM
