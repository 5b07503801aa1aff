import Verif.Spec.MsgKeep
import Verif.Props.PktRound
import Verif.Props.MsgExport
import Verif.Lemmas.Nodelist
import Verif.Lemmas.Stats
/-! # Reading a *.msg file again -/

set_option linter.unusedSimpArgs false

namespace CM

/-! ## Lines -/

theorem addLines_split {as bs : List Str} : ∀ {m m' : MemMsg}, addLines m (as ++ bs) = .ok (some m') →
    ∃ m1, addLines m as = .ok (some m1) ∧ addLines m1 bs = .ok (some m') := by
  induction as with
  | nil => intro m m' h; exact ⟨m, rfl, h⟩
  | cons l as ih =>
    intro m m' h
    simp only [List.cons_append, addLines] at h ⊢
    split at h
    · cases h
    · cases h
    · exact ih h

theorem addLines_area {ls : List Str} : ∀ {m m' : MemMsg}, m.area ≠ [] → addLines m ls = .ok (some m') → m'.area = m.area := by
  induction ls with
  | nil => intro m m' _ h; cases h; rfl
  | cons l ls ih =>
    intro m m' hne h
    unfold addLines at h
    split at h
    · cases h
    · cases h
    · next m1 h1 =>
      obtain ⟨-, -, -, a4⟩ := mmAddLine_id hne h1
      exact (ih (by rw [a4]; exact hne) h).trans a4

theorem takeWhile_full {l r : Str} {c : UInt8} (hl : ∀ x ∈ l, x ≠ 0 ∧ x ≠ 10 ∧ x ≠ 13) (hc : c = 10 ∨ c = 13) :
    ((l ++ c :: r).takeWhile fun c => c != 0 && c != 10 && c != 13) = l := by
  rw [List.takeWhile_append_of_pos]
  · rcases hc with rfl | rfl <;> simp
  · intro x hx
    obtain ⟨a, b, d⟩ := hl x hx
    simp [a, b, d]

/-- One line is read. -/
theorem msgRead_piece {t : Str} (x : Data) (hn : NoNul t) (he : EndsCR t) (hne : t ≠ []) :
    ∃ l r, pieces t = l :: pieces r ∧ msgReadCR (t ++ 0 :: x) = (l, r ++ 0 :: x, false) ∧ EndsCR r ∧ NoNul r ∧ r.length < t.length ∧ l ≠ [] := by
  have hend : t.getLast? = some 13 := by
    rcases he with he | he
    · exact absurd he hne
    · exact he
  rcases piecesFrom_step [] t (by simp) with ⟨-, h2, -⟩ | ⟨l, c, r, h1, h2, h3, h4, h5⟩
  · obtain ⟨q, rfl⟩ := List.getLast?_eq_some_iff.1 hend
    exact absurd rfl (h2 13 (by simp)).2
  · simp only [List.length_nil, Nat.zero_add, List.nil_append] at h3 h4 h5
    have hl0 : ∀ y ∈ l, y ≠ 0 := fun y hy e => hn (by rw [h1]; simp [← e, hy])
    have hc0 : c ≠ 0 := fun e => hn (by rw [h1]; simp [← e])
    have hr0 : NoNul r := fun h => hn (by rw [h1]; simp [h])
    have hlf : ∀ y ∈ l, y ≠ 0 ∧ y ≠ 10 ∧ y ≠ 13 := fun y hy => ⟨hl0 y hy, h2 y hy⟩
    refine ⟨l ++ [c], r, h5, ?_, ?_, hr0, by rw [h1]; simp; omega, by simp⟩
    · rw [h1]
      simp only [List.append_assoc, List.cons_append]
      by_cases hc : c = 10 ∨ c = 13
      · unfold msgReadCR
        simp only [takeWhile_full hlf hc]
        rw [List.take_of_length_le (by omega), if_neg (by omega), List.drop_left]
        simp only [hc0, if_false]
      · have hlen : l.length = 197 := by
          rcases h4 with h | h | h
          · exact absurd (Or.inl h) hc
          · exact absurd (Or.inr h) hc
          · exact h
        have htw : ((l ++ c :: (r ++ 0 :: x)).takeWhile fun c => c != 0 && c != 10 && c != 13).take 198 = l ++ [c] := by
          rw [show l ++ c :: (r ++ 0 :: x) = (l ++ [c]) ++ (r ++ 0 :: x) by simp, List.takeWhile_append_of_pos]
          · rw [List.take_append_of_le_length (by simp; omega), List.take_of_length_le (by simp; omega)]
          · intro y hy
            have : y ≠ 0 ∧ y ≠ 10 ∧ y ≠ 13 := by
              simp only [List.mem_append, List.mem_singleton] at hy
              rcases hy with hy | rfl
              · exact hlf y hy
              · exact ⟨hc0, fun e => hc (Or.inl e), fun e => hc (Or.inr e)⟩
            simp [this.1, this.2.1, this.2.2]
        unfold msgReadCR
        simp only [htw]
        rw [if_pos (by simp; omega)]
        rw [show l ++ c :: (r ++ 0 :: x) = (l ++ [c]) ++ (r ++ 0 :: x) by simp, show 198 = (l ++ [c]).length by simp; omega, List.drop_left]
    · cases r with
      | nil => exact Or.inl rfl
      | cons d r =>
        right
        rw [h1] at hend
        rw [← hend]
        simp only [List.getLast?_append, List.getLast?_cons_cons]
        cases hx : (d :: r).getLast? with
        | none => simp at hx
        | some y => rfl

theorem msgRead_end (x : Data) : msgReadCR (0 :: x) = ([], x, true) := by simp [msgReadCR]

/-! ## The loop -/

theorem addIf_line {m m' : MemMsg} {l : Str} (h : mmAddLine m l = .ok (some m')) (hl : l ≠ []) :
    addIf (decide (l ≠ [])) m l = .ret m' := by
  unfold addIf addLineP
  simp only [hl, ne_eq, not_false_eq_true, decide_true, if_true, h]

theorem addLines_cons {m m' : MemMsg} {l : Str} {ls : List Str} (h : addLines m (l :: ls) = .ok (some m')) :
    ∃ m1, mmAddLine m l = .ok (some m1) ∧ addLines m1 ls = .ok (some m') := by
  unfold addLines at h
  split at h
  · cases h
  · cases h
  · next m1 h1 => exact ⟨m1, h1, h⟩

/-- The rest of a text is read, when the lines were added. -/
theorem read_rest {o : MsgOpt} {aka : Node4D} {rescan : Bool} {d x : Data} : ∀ (fuel : Nat) (r : MsgReading) (t : Str) (m' : MemMsg),
    r.kludges = true → NoNul t → EndsCR t → t.length < fuel → addLines r.mm (pieces t) = .ok (some m') →
    msgReadLoop o aka rescan d fuel r (t ++ 0 :: x) = .ret { r with mm := m' } := by
  intro fuel
  induction fuel with
  | zero => intro r t m' _ _ _ h; omega
  | succ fuel ih =>
    intro r t m' hk hn he hf ha
    have hkt : ∀ l, kludgeTurn o aka rescan d l r = .ret r := by
      intro l; unfold kludgeTurn; rw [if_neg]; rintro ⟨-, -, h⟩; rw [hk] at h; cases h
    unfold msgReadLoop
    simp only [Prog.bind_eq, hkt, Prog.bind]
    by_cases hne : t = []
    · subst hne
      rw [List.nil_append, msgRead_end]
      simp only [pieces, piecesFrom, if_true, addLines, Except.ok.injEq, Option.some.injEq] at ha
      subst ha
      simp [addIf, Prog.bind]
    · obtain ⟨l, s, h1, h2, h3, h4, h5, h6⟩ := msgRead_piece x hn he hne
      rw [h1] at ha
      obtain ⟨m1, a1, a2⟩ := addLines_cons ha
      rw [h2]
      dsimp only
      rw [addIf_line a1 h6]
      simp only [Prog.bind, Bool.false_eq_true, if_false]
      exact ih { r with mm := m1 } s m' hk h4 h3 (by omega) a2

/-- A text is read: the lines are added behind the control lines at its beginning. -/
theorem read_text {o : MsgOpt} {aka : Node4D} {rescan z : Bool} {d x : Data} {m2 : MemMsg} : ∀ (fuel : Nat) (m0 : MemMsg) (t : Str) (m1 m' : MemMsg),
    NoNul t → EndsCR t → t.length < fuel → addLines m0 ((pieces t).takeWhile leadLine) = .ok (some m1) →
    addKludges o aka rescan d m1 = .ret (m2, z) → addLines m2 ((pieces t).dropWhile leadLine) = .ok (some m') →
    msgReadLoop o aka rescan d fuel { mm := m0 } (t ++ 0 :: x) = .ret { mm := m', kludges := true, zones := z } := by
  intro fuel
  induction fuel with
  | zero => intro m0 t m1 m' _ _ h; omega
  | succ fuel ih =>
    intro m0 t m1 m' hn he hf ha hk hb
    unfold msgReadLoop
    by_cases hne : t = []
    · subst hne
      rw [List.nil_append, msgRead_end]
      simp only [pieces, piecesFrom, if_true, List.takeWhile_nil, List.dropWhile_nil, addLines, Except.ok.injEq, Option.some.injEq] at ha hb
      subst ha; subst hb
      simp [kludgeTurn, hk, addIf, Prog.bind]
    · obtain ⟨l, s, h1, h2, h3, h4, h5, h6⟩ := msgRead_piece x hn he hne
      rw [h2]
      rw [h1] at ha hb
      by_cases hl : leadLine l = true
      · rw [List.takeWhile_cons_of_pos hl] at ha
        rw [List.dropWhile_cons_of_pos hl] at hb
        obtain ⟨n1, a1, a2⟩ := addLines_cons ha
        have hkt : kludgeTurn o aka rescan d l { mm := m0 } = .ret { mm := m0 } := by
          unfold kludgeTurn
          rw [if_neg]
          rintro ⟨q1, q2, -⟩
          unfold leadLine at hl
          simp [q1, q2] at hl
        simp only [Prog.bind_eq, hkt, Prog.bind]
        rw [addIf_line a1 h6]
        simp only [Prog.bind, Bool.false_eq_true, if_false]
        exact ih n1 s m1 m' h4 h3 (by omega) a2 hk hb
      · rw [List.takeWhile_cons_of_neg hl] at ha
        rw [List.dropWhile_cons_of_neg hl] at hb
        simp only [addLines, Except.ok.injEq, Option.some.injEq] at ha
        subst ha
        obtain ⟨n1, b1, b2⟩ := addLines_cons hb
        have hkt : kludgeTurn o aka rescan d l { mm := m0 } = .ret { mm := m2, kludges := true, zones := z } := by
          unfold kludgeTurn
          have : l.head? ≠ some 1 ∧ l.head? ≠ some 10 := by
            unfold leadLine at hl
            simpa using hl
          rw [if_pos ⟨this.1, this.2, rfl⟩]
          simp only [Prog.bind_eq, hk, Prog.bind, Prog.pure_eq]
        simp only [Prog.bind_eq, hkt, Prog.bind]
        rw [addIf_line b1 h6]
        simp only [Prog.bind, Bool.false_eq_true, if_false]
        exact read_rest fuel { mm := n1, kludges := true, zones := z } s m' rfl h4 h3 (by omega) b2

theorem newLine_add {m m2 : MemMsg} {b : Bool} {l : Str} (h : addLines m (if b then [l] else []) = .ok (some m2)) : addIf b m l = .ret m2 := by
  unfold addIf
  cases b with
  | false => simp only [Bool.false_eq_true, if_false, addLines, Except.ok.injEq, Option.some.injEq] at h ⊢; rw [h]
  | true =>
    simp only [if_true] at h ⊢
    obtain ⟨m1, a1, a2⟩ := addLines_cons h
    simp only [addLines, Except.ok.injEq, Option.some.injEq] at a2
    unfold addLineP
    rw [a1, a2]

/-- TID or RESCANNED. -/
theorem addKludges_eq {o : MsgOpt} {aka : Node4D} {rescan : Bool} {d : Data} {m m2 : MemMsg}
    (h : addLines m (msgNewLines o rescan aka) = .ok (some m2)) :
    addKludges o aka rescan d m = if m2.area = [] ∧ (m2.dest.zone = 0 ∨ m2.orig.zone = 0) then (addZones o aka d m2).bind fun m => .ret (m, true)
      else .ret (m2, false) := by
  unfold addKludges
  unfold msgNewLines at h
  cases rescan with
  | true =>
    simp only [if_true] at h
    rw [newLine_add (b := o.addTID && !true) (m2 := m) (by simp [addLines])]
    simp only [Prog.bind_eq, Prog.bind]
    rw [newLine_add (b := true) (m2 := m2) h]
    rfl
  | false =>
    simp only [Bool.false_eq_true, if_false] at h
    rw [newLine_add (b := o.addTID && !false) (m2 := m2) (by simpa using h)]
    simp only [Prog.bind_eq, Prog.bind]
    rw [newLine_add (b := false) (m2 := m2) (by simp [addLines])]
    rfl

/-! ## The header -/

theorem cField_eq {junk : Nat → UInt8} {off n : Nat} {s : Str} {d : Data} (h : cField junk off n s = .ok d) :
    s.length < n ∧ ∃ p, d = s ++ 0 :: p := by
  unfold cField at h
  split at h
  · next hs => injection h with h; exact ⟨hs, _, h.symm⟩
  · cases h

theorem field_back {junk : Nat → UInt8} {off n : Nat} {s : Str} {d : Data} (h : cField junk off n s = .ok d) (hs : NoNul s) (r : Data) :
    cstr ((d ++ r).take (n - 1)) = s := by
  have hl := cField_length h
  obtain ⟨hn, p, rfl⟩ := cField_eq h
  rw [List.take_append_of_le_length (by omega)]
  by_cases he : s.length = n - 1
  · rw [← he, List.take_left]
    exact cstr_all s hs
  · rw [List.take_append, show n - 1 - s.length = (n - 1 - s.length - 1) + 1 by omega, List.take_of_length_le (by omega), List.take_succ_cons]
    exact cstr_append s _ hs

/-- What is read from the header. -/
theorem stored_back {junk : Nat → UInt8} {m : StoredMsg} {h : Data} (e : m.bytes junk = .ok h) (hf : NoNul m.frm) (ht : NoNul m.to)
    (hs : NoNul m.subject) (hd : NoNul m.date) :
    h.length = 190 ∧ strField h 0 36 = m.frm ∧ strField h 36 36 = m.to ∧ strField h 72 72 = m.subject ∧ strField h 144 20 = m.date ∧
    wordAt h 166 = m.destNode ∧ wordAt h 168 = m.origNode ∧ wordAt h 170 = m.cost ∧ wordAt h 172 = m.origNet ∧ wordAt h 174 = m.destNet ∧
    wordAt h 186 = m.attr ∧ wordAt h 176 = m.destZone ∧ wordAt h 178 = m.origZone ∧ wordAt h 180 = m.destPoint ∧ wordAt h 182 = m.origPoint ∧
    wordAt h 164 = m.timesRead ∧ wordAt h 184 = m.replyTo ∧ wordAt h 188 = m.nextReply := by
  unfold StoredMsg.bytes at e
  cases h1 : cField junk 0 36 m.frm with
  | error u => simp only [h1, bind, Except.bind] at e; cases e
  | ok a =>
  cases h2 : cField junk 36 36 m.to with
  | error u => simp only [h1, h2, bind, Except.bind] at e; cases e
  | ok b =>
  cases h3 : cField junk 72 72 m.subject with
  | error u => simp only [h1, h2, h3, bind, Except.bind] at e; cases e
  | ok c =>
  cases h4 : cField junk 144 20 m.date with
  | error u => simp only [h1, h2, h3, h4, bind, Except.bind] at e; cases e
  | ok g =>
  simp only [h1, h2, h3, h4, bind, Except.bind, pure, Except.pure] at e
  injection e with e
  have l1 := cField_length h1
  have l2 := cField_length h2
  have l3 := cField_length h3
  have l4 := cField_length h4
  have lp : (a ++ b ++ c ++ g).length = 164 := by simp only [List.length_append]; omega
  have key : ∀ (W : Data) (j : Nat) (x y : UInt8), 164 ≤ j → W[j - 164]? = some x → W[j + 1 - 164]? = some y →
      wordAt (a ++ b ++ c ++ g ++ W) j = rd16 x y := by
    intro W j x y hj h1 h2
    refine wordAt_of ?_ ?_
    · rw [List.getElem?_append_right (by omega), lp]; exact h1
    · rw [List.getElem?_append_right (by omega), lp]; exact h2
  subst e
  refine ⟨by rw [List.length_append, lp]; rfl, ?_, ?_, ?_, ?_, ?_⟩
  · unfold strField
    simp only [List.append_assoc, List.drop_zero]
    exact field_back h1 hf _
  · unfold strField
    simp only [List.append_assoc]
    rw [show 36 = a.length from l1.symm, List.drop_left, l1]
    exact field_back h2 ht _
  · unfold strField
    rw [show a ++ b ++ c ++ g = (a ++ b) ++ (c ++ g) by simp, List.append_assoc (a ++ b)]
    rw [List.drop_left' (by simp; omega), List.append_assoc]
    exact field_back h3 hs _
  · unfold strField
    rw [List.append_assoc (a ++ b ++ c), List.drop_left' (by simp; omega)]
    exact field_back h4 hd _
  · simp only [le16, List.cons_append, List.nil_append]
    refine ⟨?_, ?_, ?_, ?_, ?_, ?_, ?_, ?_, ?_, ?_, ?_, ?_, ?_⟩ <;>
      refine (key _ _ _ _ (by omega) rfl rfl).trans (rd16_le16 _)

/-- The message before its text is read. -/
theorem header_back (a : Area) {junk : Nat → UInt8} {m : MemMsg} {h : Data} (e : (storedOf m).bytes junk = .ok h) (hp : Packable m) :
    h.length = 190 ∧ storedHeader a h =
      { orig := ⟨0, (storedOf m).origNet, (storedOf m).origNode, 0⟩
        dest := ⟨0, (storedOf m).destNet, (storedOf m).destNode, 0⟩
        area := if a.type = .netmail then [] else a.tag
        to := m.to
        frm := m.frm
        subject := m.subject
        date := m.date
        attr := m.attr &&& msgAttrs
        cost := m.cost } ∧
      wordAt h 166 = (storedOf m).destNode ∧ wordAt h 168 = (storedOf m).origNode ∧ wordAt h 172 = (storedOf m).origNet ∧
      wordAt h 174 = (storedOf m).destNet := by
  have hs : (storedOf m).frm = m.frm ∧ (storedOf m).to = m.to ∧ (storedOf m).subject = m.subject ∧ (storedOf m).date = m.date ∧
      (storedOf m).cost = m.cost ∧ (storedOf m).attr = m.attr := by
    unfold storedOf; split <;> exact ⟨rfl, rfl, rfl, rfl, rfl, rfl⟩
  obtain ⟨s1, s2, s3, s4, s5, s6⟩ := hs
  obtain ⟨b0, b1, b2, b3, b4, b5, b6, b7, b8, b9, b10, -⟩ := stored_back e (by rw [s1]; exact hp.frm.1) (by rw [s2]; exact hp.to.1)
    (by rw [s3]; exact hp.subject.1) (by rw [s4]; exact hp.date.1)
  refine ⟨b0, ?_, b5, b6, b8, b9⟩
  unfold storedHeader
  rw [b1, b2, b3, b4, b5, b6, b7, b8, b9, b10, s1, s2, s3, s4, s5, s6]
  rfl

end CM
