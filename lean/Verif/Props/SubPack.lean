import Verif.Model.SubPack
/-! # C102: a packet of subfields returns what was put into it

Violated when the array cannot be expanded: the next field is written behind it. -/

set_option linter.unusedSimpArgs false

namespace CM

/-- Enough memory for a field. -/
def SubMem.enough (s : JamSub) (m : SubMem) : Bool := m.field && (s.data == [] || m.buffer)

/-- The fields for which there was memory. -/
def keptSubs (reqs : List (JamSub × SubMem)) : List JamSub := (reqs.filter fun r => r.2.enough r.1).map (·.1)

/-- The blocks of the fields. -/
def subBlocks (l : List JamSub) : Int := (l.map fun s => if s.data = [] then (1 : Int) else 2).sum

/-- The packet holds the fields `l`; the array has `20 * 2 ^ k` places. -/
structure SubPack.Holds (p : SubPack) (l : List JamSub) : Prop where
  num : p.numFields.toNat = l.length
  size : p.fields.length = p.numAlloc.toNat
  room : l.length ≤ p.fields.length
  pow : ∃ k, k ≤ 27 ∧ p.fields.length = 20 * 2 ^ k
  there : ∀ i, i < l.length → p.fields[i]? = some l[i]?

theorem pow_cases {k n : Nat} (h : n < 20 * 2 ^ 27) (hn : n = 20 * 2 ^ k) : k ≤ 26 := by
  by_cases hk : k ≤ 26
  · exact hk
  · have : 2 ^ 27 ≤ 2 ^ k := Nat.pow_le_pow_right (by omega) (by omega)
    omega

theorem growSubPack_holds {p : SubPack} {l : List JamSub} (h : p.Holds l) (hl : l.length < 20 * 2 ^ 27) :
    ∃ p', growSubPack true p = (p', true) ∧ p'.Holds l ∧ l.length < p'.fields.length := by
  unfold growSubPack
  by_cases he : p.numFields = p.numAlloc
  · rw [if_pos he]
    have hlen : p.fields.length = l.length := by rw [h.size, ← he, h.num]
    obtain ⟨k, hk, hp⟩ := h.pow
    have hk := pow_cases hl (by rw [← hlen]; exact hp)
    have hn : (p.numAlloc * 2).toNat = 2 * l.length := by
      rw [UInt32.toNat_mul, ← h.size, hlen]
      show l.length * 2 % 2 ^ 32 = _
      have : 2 ^ k ≤ 2 ^ 26 := Nat.pow_le_pow_right (by omega) hk
      omega
    have hlen' : (p.fields.take (p.numAlloc * 2).toNat ++ List.replicate ((p.numAlloc * 2).toNat - p.fields.length) none).length = 2 * l.length := by
      rw [List.length_append, List.length_take, List.length_replicate, hn]; omega
    refine ⟨_, rfl, ⟨h.num, by rw [hlen', hn], by rw [hlen']; omega, ⟨k + 1, by omega, by rw [hlen', Nat.pow_succ]; omega⟩, fun i hi => ?_⟩, ?_⟩
    · show (p.fields.take (p.numAlloc * 2).toNat ++ _)[i]? = _
      rw [List.take_of_length_le (by rw [hn]; omega), List.getElem?_append_left (by omega)]
      exact h.there i hi
    · show l.length < (p.fields.take (p.numAlloc * 2).toNat ++ _).length
      rw [hlen']
      have : 0 < 2 ^ k := Nat.two_pow_pos k
      omega
  · rw [if_neg he]
    refine ⟨p, rfl, h, ?_⟩
    have : p.numFields.toNat ≠ p.numAlloc.toNat := fun hh => he (UInt32.toNat_inj.mp hh)
    have := h.room
    have := h.size
    have := h.num
    omega

theorem putSub_holds {p : SubPack} {l : List JamSub} (h : p.Holds l) (hl : l.length < 20 * 2 ^ 27) (s : JamSub) (mem : SubMem) (hm : mem.array = true) (live : Int) :
    ∃ p', putSub mem p s live = .ok (p', mem.enough s, live + subBlocks (if mem.enough s then [s] else [])) ∧
      p'.Holds (l ++ (if mem.enough s then [s] else [])) := by
  obtain ⟨p', hg, hp, hroom⟩ := growSubPack_holds h hl
  rw [putSub, hm, hg]
  obtain ⟨a, f, b⟩ := mem
  cases f with
  | false => exact ⟨p', by simp [SubMem.enough, subBlocks], by simpa [SubMem.enough] using hp⟩
  | true =>
    have hput : p'.numFields.toNat < p'.fields.length := by rw [hp.num]; exact hroom
    have hnew : ({ p' with fields := p'.fields.set p'.numFields.toNat (some s), numFields := p'.numFields + 1 } : SubPack).Holds (l ++ [s]) := by
      refine ⟨?_, by simpa using hp.size, by simp; omega, by simpa using hp.pow, fun i hi => ?_⟩
      · show (p'.numFields + 1).toNat = _
        rw [UInt32.toNat_add, hp.num, List.length_append]
        simp only [List.length_cons, List.length_nil]
        show (l.length + 1) % 2 ^ 32 = _
        omega
      · show (p'.fields.set p'.numFields.toNat (some s))[i]? = _
        rw [hp.num, List.getElem?_set]
        by_cases hi' : l.length = i
        · subst hi'
          simp [hroom]
        · have : i < l.length := by simp at hi; omega
          rw [if_neg hi', List.getElem?_append_left this]
          exact hp.there i this
    by_cases hd : s.data = []
    · refine ⟨_, ?_, by simpa [SubMem.enough, hd] using hnew⟩
      simp [SubMem.enough, subBlocks, hd, hput]
    · cases b with
      | false =>
        refine ⟨p', ?_, by simpa [SubMem.enough, hd] using hp⟩
        simp [SubMem.enough, subBlocks, hd]
      | true =>
        refine ⟨_, ?_, by simpa [SubMem.enough, hd] using hnew⟩
        simp [SubMem.enough, subBlocks, hd, hput]; omega

theorem subBlocks_append (a b : List JamSub) : subBlocks (a ++ b) = subBlocks a + subBlocks b := by simp [subBlocks]

theorem putSubs_holds : ∀ (reqs : List (JamSub × SubMem)) {p : SubPack} {l : List JamSub}, p.Holds l → l.length + reqs.length < 20 * 2 ^ 27 →
    (∀ r ∈ reqs, r.2.array = true) → ∀ live, ∃ p', putSubs p reqs live = .ok (p', reqs.map (fun r => r.2.enough r.1), live + subBlocks (keptSubs reqs)) ∧
      p'.Holds (l ++ keptSubs reqs)
  | [], p, l, h, _, _, live => ⟨p, by simp [putSubs, keptSubs, subBlocks], by simpa [keptSubs] using h⟩
  | (s, mem) :: reqs, p, l, h, hl, hm, live => by
    simp only [List.length_cons] at hl
    obtain ⟨p1, h1, h2⟩ := putSub_holds h (by omega) s mem (hm _ List.mem_cons_self) live
    obtain ⟨p2, h3, h4⟩ := putSubs_holds reqs h2 (by
      simp only [List.length_append]
      split <;> simp <;> omega) (fun r hr => hm r (List.mem_cons_of_mem _ hr)) (live + subBlocks (if mem.enough s then [s] else []))
    have hk : keptSubs ((s, mem) :: reqs) = (if mem.enough s then [s] else []) ++ keptSubs reqs := by
      simp only [keptSubs, List.filter_cons]
      split <;> simp
    refine ⟨p2, ?_, by rw [hk, ← List.append_assoc]; exact h4⟩
    rw [putSubs, h1]
    simp only [h3, hk, List.map_cons, subBlocks_append, Int.add_assoc]

theorem SubPack.Holds.field {p : SubPack} {l : List JamSub} (h : p.Holds l) (i : UInt32) {s : JamSub} (hs : l[i.toNat]? = some s) : p.field i = .ok (some s) := by
  have hi : i.toNat < l.length := by
    by_cases hh : i.toNat < l.length
    · exact hh
    · rw [List.getElem?_eq_none (by omega)] at hs; cases hs
  rw [SubPack.field, h.there _ hi, hs]

theorem getSub_next {p : SubPack} {l : List JamSub} (h : p.Holds l) (i : UInt32) :
    (∀ s, l[i.toNat]? = some s → getSub ⟨some p, i⟩ none = .ok (some s, ⟨some p, i + 1⟩)) ∧
    (l[i.toNat]? = none → getSub ⟨some p, i⟩ none = .ok (none, ⟨some p, i⟩)) := by
  refine ⟨fun s hs => ?_, fun hs => ?_⟩
  · have hi : i < p.numFields := by
      rw [UInt32.lt_iff_toNat_lt, h.num]
      by_cases hh : i.toNat < l.length
      · exact hh
      · rw [List.getElem?_eq_none (by omega)] at hs; cases hs
    simp only [getSub, if_pos hi, h.field i hs]
  · have hi : ¬ i < p.numFields := by
      rw [UInt32.lt_iff_toNat_lt, h.num]
      simpa using hs
    simp only [getSub, if_neg hi]

theorem readSubs_next {p : SubPack} {l : List JamSub} (h : p.Holds l) (hl : l.length < 2 ^ 32) :
    ∀ (fuel : Nat) (i : UInt32), l.length < fuel + i.toNat → i.toNat ≤ l.length →
      ∃ st, readSubs fuel ⟨some p, i⟩ none = .ok (some (l.drop i.toNat), st)
  | 0, i, hf, hi => by omega
  | fuel + 1, i, hf, hi => by
    by_cases hlt : i.toNat < l.length
    · have hs : l[i.toNat]? = some l[i.toNat] := List.getElem?_eq_getElem hlt
      have hi1 : (i + 1).toNat = i.toNat + 1 := by
        rw [UInt32.toNat_add]
        show (i.toNat + 1) % 2 ^ 32 = _
        by_cases hh : i.toNat + 1 < 2 ^ 32 <;> omega
      obtain ⟨st, ih⟩ := readSubs_next h hl fuel (i + 1) (by omega) (by omega)
      refine ⟨st, ?_⟩
      rw [readSubs, (getSub_next h i).1 _ hs]
      simp only [ih, Option.map_some, hi1]
      rw [List.drop_eq_getElem_cons hlt]
    · refine ⟨⟨some p, i⟩, ?_⟩
      rw [readSubs, (getSub_next h i).2 (List.getElem?_eq_none (by omega))]
      simp only [List.drop_of_length_le (show l.length ≤ i.toNat by omega)]

theorem delSubs_ok {p : SubPack} {l : List JamSub} (h : p.Holds l) (hl : l.length < 2 ^ 32) : ∀ (n : Nat) (i : UInt32) (live : Int),
    n + i.toNat = l.length → delSubs p n i live = .ok (live - subBlocks (l.drop i.toNat))
  | 0, i, live, hn => by
    rw [delSubs, List.drop_of_length_le (by omega)]
    simp [subBlocks]
  | n + 1, i, live, hn => by
    have hlt : i.toNat < l.length := by omega
    have hs : l[i.toNat]? = some l[i.toNat] := List.getElem?_eq_getElem hlt
    have hi1 : n = 0 ∨ (i + 1).toNat = i.toNat + 1 := by
      rw [UInt32.toNat_add]
      show n = 0 ∨ (i.toNat + 1) % 2 ^ 32 = _
      by_cases hh : i.toNat + 1 < 2 ^ 32 <;> omega
    rw [delSubs, h.field i hs, List.drop_eq_getElem_cons hlt]
    simp only
    rcases hi1 with rfl | hi1
    · rw [delSubs, List.drop_of_length_le (by omega)]
      simp only [subBlocks, List.map_cons, List.map_nil, List.sum_cons, List.sum_nil]
      congr 1
      split <;> omega
    · rw [delSubs_ok h hl n (i + 1) _ (by omega), hi1]
      simp only [subBlocks, List.map_cons, List.sum_cons]
      congr 1
      split <;> omega

/-- C102, as long as the array can be expanded and for less than 20 * 2 ^ 27 fields (`NumAlloc` has 32 bits): for every list of fields and whatever other
memory there is, each call succeeds exactly if there is memory for the field; the loop that reads the packet,
whatever was read before it, returns the fields that were accepted, in order, as they were given; and freeing the packet frees all that was allocated.
Missing: the case in which the array cannot be expanded (`subpack_overflow`). -/
theorem subpack_returns_partial (reqs : List (JamSub × SubMem)) (hl : reqs.length < 20 * 2 ^ 27) (hm : ∀ r ∈ reqs, r.2.array = true) (live : Int) :
    ∃ p0 l0 p l, newSubPack true true live = (some p0, l0) ∧ putSubs p0 reqs l0 = .ok (p, reqs.map (fun r => r.2.enough r.1), l) ∧
      (∀ st, ∃ st', readSubs ((keptSubs reqs).length + 1) st (some p) = .ok (some (keptSubs reqs), st')) ∧
      delSubPack p l = .ok live := by
  have h0 : (⟨0, 20, List.replicate 20 none⟩ : SubPack).Holds [] := ⟨rfl, rfl, by simp, ⟨0, by omega, rfl⟩, fun i hi => by cases hi⟩
  obtain ⟨p, hp, hh⟩ := putSubs_holds reqs h0 (by simpa using hl) hm (live + 1 + 1)
  rw [List.nil_append] at hh
  have hk : (keptSubs reqs).length ≤ reqs.length := by
    rw [keptSubs, List.length_map]; exact List.length_filter_le _ _
  refine ⟨_, _, p, _, rfl, hp, fun st => ?_, ?_⟩
  · obtain ⟨st', h⟩ := readSubs_next hh (by omega) ((keptSubs reqs).length + 1) 0 (by show _ < _ + 1 + 0; omega) (Nat.zero_le _)
    exact ⟨st', h⟩
  · rw [delSubPack, delSubs_ok hh (by omega) _ 0 _ (by rw [hh.num]; rfl)]
    show Except.ok _ = _
    congr 1
    show live + 1 + 1 + subBlocks (keptSubs reqs) - subBlocks (keptSubs reqs) - 2 = live
    omega

/-- Reading with a counter of one's own gives the same. -/
theorem getSubR_eq (p : SubPack) (i : UInt32) :
    (getSubR p i).map (·.1) = (getSub ⟨some p, i⟩ none).map (·.1) := by
  simp only [getSubR, getSub]
  by_cases h : i < p.numFields
  · simp only [if_pos h]
    cases p.field i <;> rfl
  · simp only [if_neg h]; rfl

/-- If a packet cannot be made, nothing remains allocated. -/
theorem subpack_none (a b : Bool) (h : (a && b) = false) (live : Int) : newSubPack a b live = (none, live) := by
  cases a <;> cases b <;> simp_all [newSubPack]

/-- C102 violated: the packet is full and its array cannot be expanded. The call reports that there is no memory, but the
size it has noted is twice that of the array. If there is memory for the next field (`jam_addfield` goes on), it is written
behind the array. -/
theorem subpack_overflow {p : SubPack} {l : List JamSub} (h : p.Holds l) (hf : p.numFields = p.numAlloc) (h0 : l ≠ []) (hl : l.length < 2 ^ 31)
    (s s' : JamSub) (mem mem' : SubMem) (hm : mem.array = false) (he : mem'.enough s' = true) (live : Int) :
    ∃ p', putSub mem p s live = .ok (p', false, live) ∧ putSub mem' p' s' live = .error .oobWrite := by
  refine ⟨{ p with numAlloc := p.numAlloc * 2 }, ?_, ?_⟩
  · simp only [putSub, growSubPack, hm, if_pos hf, Bool.false_eq_true, if_false]
  · have hlen : p.numAlloc.toNat = l.length := by rw [← hf, h.num]
    have hpos : 0 < l.length := by cases l with | nil => exact absurd rfl h0 | cons _ _ => simp
    have hne : ¬ p.numFields = p.numAlloc * 2 := fun hh => by
      have := congrArg UInt32.toNat hh
      rw [UInt32.toNat_mul, hlen, h.num] at this
      have : l.length = l.length * 2 % 2 ^ 32 := this
      omega
    have hno : ¬ p.numFields.toNat < p.fields.length := by rw [h.num, h.size, hlen]; omega
    simp only [SubMem.enough, Bool.and_eq_true, Bool.or_eq_true, beq_iff_eq] at he
    obtain ⟨h1, h2⟩ := he
    have h3 : ¬ (s'.data ≠ [] ∧ mem'.buffer = false) := fun ⟨x, y⟩ => by rcases h2 with h2 | h2 <;> simp_all
    simp only [putSub, growSubPack, hne, if_false, h1, h3, hno, Bool.not_true, Bool.false_eq_true]

namespace Ex

def ample : SubMem := {}

/-- A message with 22 fields (a long PATH and some kludges) when memory is short for a moment. -/
theorem long_message :
    putSubs ⟨0, 20, List.replicate 20 none⟩
      (List.replicate 20 (⟨2, 0, b!"Ann"⟩, ample) ++ [(⟨2, 0, b!"Ann"⟩, { array := false }), (⟨2, 0, b!"Ann"⟩, ample)]) 2 = .error .oobWrite := by
  rfl

/-- 25 fields with enough memory. -/
theorem many_fields : ∃ p, putSubs ⟨0, 20, List.replicate 20 none⟩ (List.replicate 25 (⟨2, 0, b!"Ann"⟩, ample)) 2 = .ok (p, List.replicate 25 true, 52) ∧
    p.numFields = 25 ∧ p.numAlloc = 40 := ⟨_, rfl, by decide +kernel⟩

/-- A field is refused for lack of memory, the next one is not. -/
example : keptSubs [(⟨2, 0, b!"Ann"⟩, ample), (⟨3, 0, b!"Bob"⟩, { buffer := false }), (⟨6, 0, []⟩, { buffer := false })] = [⟨2, 0, b!"Ann"⟩, ⟨6, 0, []⟩] := by decide

end Ex

end CM
