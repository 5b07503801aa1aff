import Verif.Spec.LastRead
import Verif.Lemmas.Bytes
import Verif.Lemmas.Jam
/-! # C127: last-read records -/
set_option linter.unusedSimpArgs false

namespace CM

theorem LrRec.bytes_length (r : LrRec) : r.bytes.length = 16 := rfl

private theorem lrFlat_length (rs : List LrRec) : (rs.flatMap LrRec.bytes).length = 16 * rs.length := by
  induction rs with
  | nil => rfl
  | cons r rs ih => simp only [List.flatMap_cons, List.length_append, LrRec.bytes_length, ih, List.length_cons]; omega

private theorem lrFlat_drop (rs : List LrRec) (k : Nat) :
    (rs.flatMap LrRec.bytes).drop (16 * k) = (rs.drop k).flatMap LrRec.bytes := by
  induction k generalizing rs with
  | zero => simp
  | succ k ih =>
    cases rs with
    | nil => simp
    | cons r rs =>
      rw [List.flatMap_cons, List.drop_append, LrRec.bytes_length, List.drop_of_length_le (by rw [LrRec.bytes_length]; omega),
        show 16 * (k + 1) - 16 = 16 * k by omega, ih]
      simp

private theorem lrFlat_take (rs : List LrRec) (k : Nat) :
    (rs.flatMap LrRec.bytes).take (16 * k) = (rs.take k).flatMap LrRec.bytes := by
  induction k generalizing rs with
  | zero => simp
  | succ k ih =>
    cases rs with
    | nil => simp
    | cons r rs =>
      rw [List.flatMap_cons, List.take_append, LrRec.bytes_length, List.take_of_length_le (by rw [LrRec.bytes_length]; omega),
        show 16 * (k + 1) - 16 = 16 * k by omega, ih]
      simp

private theorem lrGet (r : LrRec) (t : Data) :
    (⟨get32 (r.bytes ++ t) 0, get32 (r.bytes ++ t) 4, get32 (r.bytes ++ t) 8, get32 (r.bytes ++ t) 12⟩ : LrRec) = r := by
  have h0 : get32 (r.bytes ++ t) 0 = r.crc := rd32L_le32 r.crc (le32 r.id ++ (le32 r.last ++ (le32 r.high ++ t)))
  have h1 : get32 (r.bytes ++ t) 4 = r.id := rd32L_le32 r.id (le32 r.last ++ (le32 r.high ++ t))
  have h2 : get32 (r.bytes ++ t) 8 = r.last := rd32L_le32 r.last (le32 r.high ++ t)
  have h3 : get32 (r.bytes ++ t) 12 = r.high := rd32L_le32 r.high t
  rw [h0, h1, h2, h3]

private theorem lrReadAt_flat (rs : List LrRec) (k : Nat) : lrReadAt (rs.flatMap LrRec.bytes) (16 * k) = rs[k]? := by
  unfold lrReadAt
  rw [lrFlat_length]
  by_cases hk : k < rs.length
  · rw [if_pos (by omega), List.getElem?_eq_getElem hk]
    have hd := lrFlat_drop rs k
    rw [List.drop_eq_getElem_cons hk, List.flatMap_cons] at hd
    have e : ∀ o, get32 (rs.flatMap LrRec.bytes) (16 * k + o) = get32 (rs[k].bytes ++ (rs.drop (k + 1)).flatMap LrRec.bytes) o := by
      intro o
      unfold get32
      rw [← hd, List.drop_drop]
    have e0 := e 0
    rw [Nat.add_zero] at e0
    rw [e0, e 4, e 8, e 12, lrGet]
  · rw [if_neg (by omega), List.getElem?_eq_none (by omega)]

private theorem lrOverlay_set (rs : List LrRec) (k : Nat) (r : LrRec) (hk : k < rs.length) :
    overlay (rs.flatMap LrRec.bytes) (16 * k) r.bytes = (rs.set k r).flatMap LrRec.bytes := by
  unfold overlay
  rw [lrFlat_take, LrRec.bytes_length, show 16 * k + 16 = 16 * (k + 1) by omega, lrFlat_drop,
    List.set_eq_take_append_cons_drop, if_pos hk]
  simp

private theorem lrOverlay_end (rs : List LrRec) (r : LrRec) :
    overlay (rs.flatMap LrRec.bytes) (rs.flatMap LrRec.bytes).length r.bytes = (rs ++ [r]).flatMap LrRec.bytes := by
  unfold overlay
  rw [List.take_length, List.drop_of_length_le (by omega), List.flatMap_append]
  simp only [List.flatMap_cons, List.flatMap_nil, List.append_nil]

private theorem lrScan_some (u : UInt32) (rs : List LrRec) : ∀ n k j r,
    lrScan u (rs.flatMap LrRec.bytes) n k = some (j, r) → rs[j]? = some r ∧ r.id = u := by
  intro n
  induction n with
  | zero => intro k j r h; simp [lrScan] at h
  | succ n ih =>
    intro k j r h
    rw [lrScan, lrReadAt_flat] at h
    cases hk : rs[k]? with
    | none => rw [hk] at h; simp at h
    | some a =>
      rw [hk] at h
      by_cases ha : a.id = u
      · simp only [ha, if_true, Option.some.injEq, Prod.mk.injEq] at h
        obtain ⟨rfl, rfl⟩ := h
        exact ⟨hk, ha⟩
      · simp only [ha, if_false] at h
        exact ih _ _ _ h

private theorem lrScan_none (u : UInt32) (rs : List LrRec) : ∀ n k, rs.length < n + k →
    lrScan u (rs.flatMap LrRec.bytes) n k = none → ∀ j r, k ≤ j → rs[j]? = some r → r.id ≠ u := by
  intro n
  induction n with
  | zero =>
    intro k hn _ j r hj hr
    rw [List.getElem?_eq_none (by omega)] at hr
    simp at hr
  | succ n ih =>
    intro k hn h j r hj hr
    rw [lrScan, lrReadAt_flat] at h
    cases hk : rs[k]? with
    | none =>
      have := List.getElem?_eq_none_iff.1 hk
      rw [List.getElem?_eq_none (by omega)] at hr
      simp at hr
    | some a =>
      rw [hk] at h
      by_cases ha : a.id = u
      · simp [ha] at h
      · simp only [ha, if_false] at h
        by_cases e : j = k
        · subst e
          rw [hk] at hr
          cases hr
          exact ha
        · exact ih _ (by omega) h _ _ (by omega) hr

/-- The records, the notes they stand for. -/
private def LrIs (rs : List LrRec) (m : LrNotes) : Prop :=
  (∀ (i j : Nat) (a b : LrRec), rs[i]? = some a → rs[j]? = some b → a.id = b.id → i = j) ∧
    ∀ u r, m u = some r ↔ r.id = u ∧ ∃ i : Nat, rs[i]? = some r

private theorem lrIs_set {rs m} (h : LrIs rs m) {k : Nat} {a r : LrRec} (hk : rs[k]? = some a) (ha : a.id = r.id) :
    LrIs (rs.set k r) (fun x => if x = r.id then some r else m x) := by
  obtain ⟨h1, h2⟩ := h
  have hl : k < rs.length := (List.getElem?_eq_some_iff.1 hk).1
  have key : ∀ (i : Nat) (b : LrRec), (rs.set k r)[i]? = some b → ∃ b', rs[i]? = some b' ∧ b'.id = b.id ∧ (i ≠ k → b' = b) ∧ (i = k → b = r) := by
    intro i b hb
    rw [List.getElem?_set] at hb
    by_cases e : k = i
    · subst e
      simp only [if_true, hl] at hb
      cases hb
      exact ⟨a, hk, ha, fun h => absurd rfl h, fun _ => rfl⟩
    · rw [if_neg e] at hb
      exact ⟨b, hb, rfl, fun _ => rfl, fun h => absurd h.symm e⟩
  refine ⟨?_, ?_⟩
  · intro i j b c hb hc hbc
    obtain ⟨b', hb', eb, -, -⟩ := key i b hb
    obtain ⟨c', hc', ec, -, -⟩ := key j c hc
    exact h1 i j b' c' hb' hc' (by rw [eb, ec, hbc])
  · intro u q
    by_cases e : u = r.id
    · simp only [e, if_true, Option.some.injEq]
      constructor
      · rintro rfl
        exact ⟨rfl, k, by rw [List.getElem?_set]; simp [hl]⟩
      · rintro ⟨hq, i, hi⟩
        obtain ⟨b', hb', eb, -, er⟩ := key i q hi
        exact (er (h1 i k b' a hb' hk (by rw [eb, hq, ha]))).symm
    · simp only [e, if_false]
      rw [h2]
      constructor
      · rintro ⟨hq, i, hi⟩
        refine ⟨hq, i, ?_⟩
        have : k ≠ i := by
          rintro rfl
          rw [hk] at hi
          cases hi
          exact e (by rw [← hq, ha])
        rw [List.getElem?_set, if_neg this, hi]
      · rintro ⟨hq, i, hi⟩
        obtain ⟨b', hb', eb, ne, er⟩ := key i q hi
        by_cases e' : i = k
        · exact absurd (by rw [← hq, er e']) e
        · exact ⟨hq, i, by rw [hb', ne e']⟩

private theorem lrIs_append {rs m} (h : LrIs rs m) {r : LrRec} (hn : ∀ (j : Nat) q, rs[j]? = some q → q.id ≠ r.id) :
    LrIs (rs ++ [r]) (fun x => if x = r.id then some r else m x) := by
  obtain ⟨h1, h2⟩ := h
  have key : ∀ (i : Nat) (b : LrRec), (rs ++ [r])[i]? = some b ↔ rs[i]? = some b ∨ (i = rs.length ∧ b = r) := by
    intro i b
    rw [List.getElem?_append]
    by_cases hi : i < rs.length
    · rw [if_pos hi]
      constructor
      · exact Or.inl
      · rintro (h | ⟨h, -⟩)
        · exact h
        · omega
    · rw [if_neg hi, List.getElem?_eq_none (l := rs) (by omega)]
      by_cases e : i = rs.length
      · subst e
        simp [eq_comm]
      · rw [List.getElem?_eq_none (by simp; omega)]
        simp [e]
  refine ⟨?_, ?_⟩
  · intro i j b c hb hc hbc
    rcases (key i b).1 hb with hb' | ⟨hi, eb⟩ <;> rcases (key j c).1 hc with hc' | ⟨hj, ec⟩
    · exact h1 i j b c hb' hc' hbc
    · exact absurd (by rw [hbc, ec]) (hn i b hb')
    · exact absurd (by rw [← hbc, eb]) (hn j c hc')
    · omega
  · intro u q
    by_cases e : u = r.id
    · simp only [e, if_true, Option.some.injEq]
      constructor
      · rintro rfl
        exact ⟨rfl, rs.length, (key _ _).2 (Or.inr ⟨rfl, rfl⟩)⟩
      · rintro ⟨hq, i, hi⟩
        rcases (key i q).1 hi with h | ⟨-, h⟩
        · exact absurd hq (hn i q h)
        · exact h.symm
    · simp only [e, if_false]
      rw [h2]
      constructor
      · rintro ⟨hq, i, hi⟩
        exact ⟨hq, i, (key _ _).2 (Or.inl hi)⟩
      · rintro ⟨hq, i, hi⟩
        rcases (key i q).1 hi with h | ⟨-, rfl⟩
        · exact ⟨hq, i, h⟩
        · exact absurd hq.symm e

private theorem lrSlow {rs m} (h : LrIs rs m) (r : LrRec) :
    ∃ rs', lrWriteSlow (rs.flatMap LrRec.bytes) r.id r = (.done, rs'.flatMap LrRec.bytes) ∧
      LrIs rs' (fun x => if x = r.id then some r else m x) ∧ rs.length ≤ rs'.length ∧ rs' ≠ [] := by
  unfold lrWriteSlow
  cases hs : lrScan r.id (rs.flatMap LrRec.bytes) ((rs.flatMap LrRec.bytes).length + 1) 0 with
  | none =>
    refine ⟨rs ++ [r], by simp only [lrOverlay_end], lrIs_append h ?_, by simp, by simp⟩
    intro j q hq
    exact lrScan_none _ rs _ _ (by rw [lrFlat_length]; omega) hs j q (Nat.zero_le _) hq
  | some p =>
    obtain ⟨k, a⟩ := p
    obtain ⟨hk, ha⟩ := lrScan_some _ _ _ _ _ _ hs
    have hl : k < rs.length := (List.getElem?_eq_some_iff.1 hk).1
    refine ⟨rs.set k r, by simp only [lrOverlay_set rs k r hl], lrIs_set h hk ha, by simp, ?_⟩
    intro e
    have := congrArg List.length e
    simp at this
    rw [this] at hl
    simp at hl

private theorem lrWrite_ok {rs m} (h : LrIs rs m) (c : LrCache) (r : LrRec)
    (hc : c.pos < rs.length ∨ c = lrFresh) (h0 : rs ≠ [] ∨ r.id ≠ 0) :
    ∃ rs', lrWrite c (rs.flatMap LrRec.bytes) r.id r = (.done, rs'.flatMap LrRec.bytes) ∧
      LrIs rs' (fun x => if x = r.id then some r else m x) ∧ rs.length ≤ rs'.length ∧ rs' ≠ [] := by
  unfold lrWrite
  by_cases e : r.id = c.id
  · have hl : c.pos < rs.length := by
      rcases hc with hc | rfl
      · exact hc
      · rcases h0 with h0 | h0
        · exact List.length_pos_iff.2 h0
        · exact absurd e h0
    rw [if_pos e, lrReadAt_flat, List.getElem?_eq_getElem hl]
    by_cases e' : r.id = rs[c.pos].id
    · simp only [← e', if_true]
      refine ⟨rs.set c.pos r, by simp only [lrOverlay_set rs _ r hl], lrIs_set h (List.getElem?_eq_getElem hl) e'.symm, by simp, ?_⟩
      intro e
      have := congrArg List.length e
      simp at this
      rw [this] at hl
      simp at hl
    · simp only [e', if_false]
      exact lrSlow h r
  · rw [if_neg e]
    exact lrSlow h r

private theorem lrRead_ok {rs m} (h : LrIs rs m) (c : LrCache) (u : UInt32) (hc : c.pos < rs.length ∨ c = lrFresh) :
    (lrRead c (rs.flatMap LrRec.bytes) u).1 = lrSays (m u) ∧
      ((lrRead c (rs.flatMap LrRec.bytes) u).2.pos < rs.length ∨ (lrRead c (rs.flatMap LrRec.bytes) u).2 = lrFresh) := by
  unfold lrRead
  cases hs : lrScan u (rs.flatMap LrRec.bytes) ((rs.flatMap LrRec.bytes).length + 1) 0 with
  | none =>
    have hn := lrScan_none _ rs _ _ (by rw [lrFlat_length]; omega) hs
    have : m u = none := by
      cases hm : m u with
      | none => rfl
      | some r =>
        obtain ⟨hr, i, hi⟩ := (h.2 u r).1 hm
        exact absurd hr (hn i r (Nat.zero_le _) hi)
    simp only [this, lrSays]
    exact ⟨trivial, hc⟩
  | some p =>
    obtain ⟨k, a⟩ := p
    obtain ⟨hk, ha⟩ := lrScan_some _ _ _ _ _ _ hs
    have : m u = some a := (h.2 u a).2 ⟨ha, k, hk⟩
    simp only [this, lrSays]
    exact ⟨trivial, Or.inl (List.getElem?_eq_some_iff.1 hk).1⟩

/-- **C127.** Programs that open a base, and read and write the notes of users in any order, get the
answers of a book with one note for each user, and the file holds that book afterwards. Each note carries
its user's number. The file is not empty or nobody writes for user 0. -/
theorem lastread_partial (f : Data) (m : LrNotes) (hf : LrHolds f m) (os : List LrOp)
    (hid : ∀ w u r, LrOp.writes w u r ∈ os → r.id = u) (h0 : f ≠ [] ∨ ∀ w u r, LrOp.writes w u r ∈ os → u ≠ 0) :
    (lrRun ⟨f, fun _ => lrFresh⟩ os).1 = lrAnswers m os ∧ LrHolds (lrRun ⟨f, fun _ => lrFresh⟩ os).2.file (lrAfter m os) := by
  obtain ⟨rs, rfl, hu, hm⟩ := hf
  have h : LrIs rs m := ⟨hu, hm⟩
  have h0' : rs ≠ [] ∨ ∀ w u r, LrOp.writes w u r ∈ os → u ≠ 0 :=
    h0.imp (fun hne e => hne (by rw [e]; rfl)) id
  clear h0 hu hm
  have hc : ∀ x, ((fun _ => lrFresh : Nat → LrCache) x).pos < rs.length ∨ (fun _ => lrFresh : Nat → LrCache) x = lrFresh :=
    fun _ => Or.inr rfl
  generalize (fun _ => lrFresh : Nat → LrCache) = g at hc
  induction os generalizing rs m g with
  | nil => exact ⟨rfl, rs, rfl, h⟩
  | cons o os ih =>
    have hid' : ∀ w u r, LrOp.writes w u r ∈ os → r.id = u := fun w u r hw => hid w u r (List.mem_cons_of_mem _ hw)
    have ht : rs ≠ [] ∨ ∀ w u r, LrOp.writes w u r ∈ os → u ≠ 0 :=
      h0'.imp id (fun hh w u r hw => hh w u r (List.mem_cons_of_mem _ hw))
    cases o with
    | opens w =>
      obtain ⟨a, b⟩ := ih m hid' rs h ht (fun x => if x = w then lrFresh else g x) (by
        intro x
        by_cases e : x = w
        · simp [e]
        · simp only [e, if_false]; exact hc x)
      exact ⟨by simp only [lrRun, lrStep, lrAnswers, a], by simpa only [lrRun, lrStep, lrAfter] using b⟩
    | reads w u =>
      obtain ⟨r1, r2⟩ := lrRead_ok h (g w) u (hc w)
      obtain ⟨a, b⟩ := ih m hid' rs h ht (fun x => if x = w then (lrRead (g w) (rs.flatMap LrRec.bytes) u).2 else g x) (by
        intro x
        by_cases e : x = w
        · simp only [e, if_true]; exact r2
        · simp only [e, if_false]; exact hc x)
      exact ⟨by simp only [lrRun, lrStep, lrAnswers, a, r1], by simpa only [lrRun, lrStep, lrAfter] using b⟩
    | writes w u r =>
      have hr := hid w u r List.mem_cons_self
      subst hr
      obtain ⟨rs', e1, e2, e3, e4⟩ := lrWrite_ok h (g w) r (hc w) (h0'.imp id (fun hh => hh w _ r List.mem_cons_self))
      obtain ⟨a, b⟩ := ih _ hid' rs' e2 (Or.inl e4) g (fun x => (hc x).imp (fun q => Nat.lt_of_lt_of_le q e3) id)
      exact ⟨by simp only [lrRun, lrStep, lrAnswers, e1, a], by simpa only [lrRun, lrStep, lrAfter, e1] using b⟩

private theorem lrReadAt_iff (f : Data) (k : Nat) (r : LrRec) : lrReadAt f (16 * k) = some r ↔ LrAt f k r := by
  unfold lrReadAt LrAt
  constructor
  · intro h
    by_cases hl : 16 * k + 16 ≤ f.length
    · rw [if_pos hl] at h
      have h := Option.some.inj h
      subst h
      simp only [LrRec.bytes]
      rw [le32_get32 (by omega), le32_get32 (by omega), le32_get32 (by omega), le32_get32 (by omega)]
      rw [← List.drop_drop, ← List.drop_drop, ← List.drop_drop]
      generalize f.drop (16 * k) = d
      rw [show 16 = 4 + 12 from rfl, List.take_add, show 12 = 4 + 8 from rfl, List.take_add, show 8 = 4 + 4 from rfl, List.take_add]
      simp [List.drop_drop]
    · rw [if_neg hl] at h
      simp at h
  · intro h
    have hlen := congrArg List.length h
    rw [LrRec.bytes_length, List.length_take, List.length_drop] at hlen
    rw [if_pos (by omega)]
    have hd : f.drop (16 * k) = r.bytes ++ (f.drop (16 * k)).drop 16 := by rw [← h, List.take_append_drop]
    have e : ∀ o, get32 f (16 * k + o) = get32 (r.bytes ++ (f.drop (16 * k)).drop 16) o := by
      intro o
      rw [← hd]
      unfold get32
      rw [List.drop_drop]
    have e0 := e 0
    rw [Nat.add_zero] at e0
    rw [e0, e 4, e 8, e 12, lrGet]

private theorem lrScan_any (u : UInt32) (f : Data) : ∀ n k, f.length < n + 16 * k →
    (∀ j r, lrScan u f n k = some (j, r) → LrAt f j r ∧ r.id = u ∧ ∀ i q, k ≤ i → i < j → LrAt f i q → q.id ≠ u) ∧
    (lrScan u f n k = none → ∀ i q, k ≤ i → LrAt f i q → q.id ≠ u) := by
  have short : ∀ i q, LrAt f i q → 16 * i + 16 ≤ f.length := by
    intro i q hq
    have hlen := congrArg List.length hq
    rw [LrRec.bytes_length, List.length_take, List.length_drop] at hlen
    omega
  intro n
  induction n with
  | zero =>
    intro k hn
    refine ⟨by intro j r h; simp [lrScan] at h, ?_⟩
    intro _ i q hi hq
    have := short i q hq
    omega
  | succ n ih =>
    intro k hn
    rw [lrScan]
    cases hk : lrReadAt f (16 * k) with
    | none =>
      refine ⟨by intro j r h; simp at h, ?_⟩
      intro _ i q hi hq
      have := short i q hq
      unfold lrReadAt at hk
      rw [if_pos (by omega)] at hk
      simp at hk
    | some a =>
      have hA := (lrReadAt_iff f k a).1 hk
      have uniq : ∀ q, LrAt f k q → q = a := by
        intro q hq
        have := (lrReadAt_iff f k q).2 hq
        rw [hk] at this
        exact (Option.some.inj this).symm
      by_cases ha : a.id = u
      · simp only [ha, if_true, Option.some.injEq, Prod.mk.injEq]
        refine ⟨?_, by simp⟩
        rintro j r ⟨rfl, rfl⟩
        exact ⟨hA, ha, fun i q h1 h2 => by omega⟩
      · simp only [ha, if_false]
        obtain ⟨i1, i2⟩ := ih (k + 1) (by omega)
        have ext : ∀ i q, LrAt f i q → i = k → q.id ≠ u := by
          rintro i q hq rfl
          rw [uniq q hq]
          exact ha
        refine ⟨?_, ?_⟩
        · intro j r h
          obtain ⟨a1, a2, a3⟩ := i1 j r h
          refine ⟨a1, a2, fun i q h1 h2 hq => ?_⟩
          by_cases e : i = k
          · exact ext i q hq e
          · exact a3 i q (by omega) h2 hq
        · intro h i q h1 hq
          by_cases e : i = k
          · exact ext i q hq e
          · exact i2 h i q (by omega) hq

/-- **C127, for any file.** Whatever the file holds and whatever was looked up before, the record read is
the first one of that user in the file, and "no such user" means no whole record is that user's. -/
theorem lastread_first (c : LrCache) (f : Data) (u : UInt32) :
    (∃ k r, (lrRead c f u).1 = .found r ∧ LrAt f k r ∧ r.id = u ∧ ∀ i q, i < k → LrAt f i q → q.id ≠ u) ∨
    ((lrRead c f u).1 = .noUser ∧ ∀ i q, LrAt f i q → q.id ≠ u) := by
  obtain ⟨h1, h2⟩ := lrScan_any u f (f.length + 1) 0 (by omega)
  unfold lrRead
  cases hs : lrScan u f (f.length + 1) 0 with
  | none => exact Or.inr ⟨rfl, fun i q hq => h2 hs i q (Nat.zero_le _) hq⟩
  | some p =>
    obtain ⟨k, r⟩ := p
    obtain ⟨a, b, d⟩ := h1 k r hs
    exact Or.inl ⟨k, r, rfl, a, b, fun i q hi hq => d i q (Nat.zero_le _) hi hq⟩

/-- **C127, where it fails.** Nothing can be noted for user 0 in an empty file: a base just opened takes
user 0 for the one it has looked up before, finds no record there and gives up. Every try fails, and
the file stays empty. -/
theorem user_zero (rs : List LrRec) : lrRun ⟨[], fun _ => lrFresh⟩ (rs.map (LrOp.writes 0 0)) =
    (rs.map fun _ => LrOut.ioError, ⟨[], fun _ => lrFresh⟩) := by
  induction rs with
  | nil => rfl
  | cons r rs ih =>
    have e : lrStep ⟨[], fun _ => lrFresh⟩ (LrOp.writes 0 0 r) = (LrOut.ioError, ⟨[], fun _ => lrFresh⟩) := rfl
    simp only [List.map_cons, lrRun, e, ih]

/-- So the whole claim, with nothing asked about user 0, is false. -/
theorem lastread_false : ¬ ∀ (f : Data) (m : LrNotes), LrHolds f m → ∀ os : List LrOp,
    (∀ w u r, LrOp.writes w u r ∈ os → r.id = u) → (lrRun ⟨f, fun _ => lrFresh⟩ os).1 = lrAnswers m os := by
  intro h
  have := h [] (fun _ => none) ⟨[], rfl, by simp, by simp⟩ [.writes 0 0 ⟨7, 0, 1, 1⟩] (by
    intro w u r hw
    simp only [List.mem_singleton, LrOp.writes.injEq] at hw
    obtain ⟨-, rfl, rfl⟩ := hw
    rfl)
  revert this
  decide

namespace Ex

/-- Two programs, two users. -/
def lrOps : List LrOp := [.opens 1, .writes 1 5 ⟨9, 5, 10, 10⟩, .reads 2 5, .writes 1 6 ⟨8, 6, 3, 3⟩,
  .writes 2 5 ⟨9, 5, 12, 12⟩, .reads 1 5, .reads 1 6, .reads 1 7]

example : LrHolds [] (fun _ => none) ∧ (∀ w u r, LrOp.writes w u r ∈ lrOps → r.id = u ∧ u ≠ 0) := by
  refine ⟨⟨[], rfl, by simp, by simp⟩, ?_⟩
  intro w u r h
  simp only [lrOps, List.mem_cons, LrOp.writes.injEq, List.not_mem_nil, or_false, reduceCtorEq, false_or] at h
  rcases h with ⟨-, rfl, rfl⟩ | ⟨-, rfl, rfl⟩ | ⟨-, rfl, rfl⟩ <;> decide

/-- What they get. -/
theorem lr_ops : (lrRun ⟨[], fun _ => lrFresh⟩ lrOps).1 = [.done, .done, .found ⟨9, 5, 10, 10⟩, .done, .done,
    .found ⟨9, 5, 12, 12⟩, .found ⟨8, 6, 3, 3⟩, .noUser] := by decide +kernel

/-- A program that has read a note replaces it; another one, just opened, notes something for user 0. -/
theorem lr_remembered : (lrRun ⟨[], fun _ => lrFresh⟩ [.writes 1 5 ⟨9, 5, 10, 20⟩, .reads 1 5, .writes 1 5 ⟨9, 5, 11, 21⟩,
    .writes 2 0 ⟨7, 0, 1, 2⟩, .reads 3 5, .reads 3 0, .writes 2 5 ⟨9, 5, 12, 22⟩, .reads 3 5, .reads 3 0]).1 =
    [.done, .found ⟨9, 5, 10, 20⟩, .done, .done, .found ⟨9, 5, 11, 21⟩, .found ⟨7, 0, 1, 2⟩, .done, .found ⟨9, 5, 12, 22⟩,
      .found ⟨7, 0, 1, 2⟩] := by decide +kernel

/-- A note that carries another user's number replaces the note of the user named, who is then unknown. -/
theorem lr_wrong_number : (lrRun ⟨[], fun _ => lrFresh⟩ [.writes 1 5 ⟨9, 5, 10, 10⟩, .writes 1 5 ⟨9, 6, 11, 11⟩, .reads 1 5]).1 =
    [.done, .done, .noUser] := by decide +kernel

/-- After a file that ends in part of a record, a new note is not found again. -/
theorem lr_part_record : (lrRun ⟨[0, 0, 0], fun _ => lrFresh⟩ [.writes 1 5 ⟨9, 5, 10, 10⟩, .reads 1 5]).1 =
    [.done, .noUser] := by decide +kernel

end Ex
end CM
