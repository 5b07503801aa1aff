import Verif.Spec.MsgMaint
import Verif.Spec.JamMaint
import Verif.Lemmas.MsgBase
import Verif.Lemmas.JamMaint
import Verif.Lemmas.Disk
import Verif.Lemmas.Sort
/-! # Maintenance of message areas in the *.msg format: the loops -/

set_option linter.unusedSimpArgs false

namespace CM

/-- The messages that have not been deleted. -/
def liveMsgs (l : List MMsg) : List MMsg := l.filter (fun m => m.num != 0)

/-- The messages with these numbers have been deleted, as far as deleting works. -/
structure Less (w : World) (dir : Str) (fs : FS) (del : List UInt32) (fs' : FS) : Prop where
  keep : ∀ f, (∀ n ∈ del, f ≠ msgFile dir n.toNat) → fs' f = fs f
  gone : ¬ w.deleteFails → ∀ n ∈ del, fs' (msgFile dir n.toNat) = none

theorem Less.nil {w : World} {dir : Str} {fs : FS} : Less w dir fs [] fs := ⟨fun _ _ => rfl, fun _ _ h => by cases h⟩

theorem Less.trans {w : World} {dir : Str} {fs gs hs : FS} {a b : List UInt32} (h1 : Less w dir fs a gs) (h2 : Less w dir gs b hs) : Less w dir fs (a ++ b) hs := by
  refine ⟨fun f hf => ?_, fun hw n hn => ?_⟩
  · rw [h2.keep f (fun n hn => hf n (List.mem_append_right _ hn)), h1.keep f (fun n hn => hf n (List.mem_append_left _ hn))]
  · by_cases hb : ∃ k ∈ b, msgFile dir n.toNat = msgFile dir k.toNat
    · obtain ⟨k, hk, e⟩ := hb
      rw [e]; exact h2.gone hw k hk
    · rw [h2.keep _ (fun k hk e => hb ⟨k, hk, e⟩)]
      rcases List.mem_append.1 hn with hn | hn
      · exact h1.gone hw n hn
      · exact absurd ⟨n, hn, rfl⟩ hb

/-- The mark after the messages with these numbers have been deleted. -/
def dropAll (hw : UInt32) (del : List UInt32) : UInt32 := if hw ∈ del then 0 else hw

theorem dropAll_cons {hw n : UInt32} {t : List UInt32} (ht : (0 : UInt32) ∉ t) : dropAll (dropMark n hw) t = dropAll hw (n :: t) := by
  unfold dropAll dropMark
  by_cases h : n = hw
  · subst h; simp [ht]
  · rw [if_neg h]; simp [Ne.symm h]

theorem dropAll_append {hw : UInt32} {a b : List UInt32} (hb : (0 : UInt32) ∉ b) : dropAll (dropAll hw a) b = dropAll hw (a ++ b) := by
  unfold dropAll
  by_cases h : hw ∈ a
  · simp [h, hb]
  · simp [h]

/-- Deleting one file. -/
theorem delete_less {w : World} {α : Type} {I : FS → Prop} {Q : α → FS → Prop} {dir : Str} (hd : DirName dir) {fs : FS} {n : UInt32} {k : Bool → Prog α} (h0 : I fs)
    (h : ∀ b fs', Less w dir fs [n] fs' → Through w I Q (k b) fs') : Through w I Q (.delete (msgPath dir n) k) fs := by
  rw [msgPath_eq hd]
  refine .delete h0 (fun x hx => h _ _ ⟨fun f hf => ?_, fun _ m hm => ?_⟩) (fun hh => h _ _ ⟨fun _ _ => rfl, fun hw m hm => ?_⟩)
  · rw [FS.put_ne _ (hf n (by simp))]
  · rw [List.mem_singleton] at hm; rw [hm, FS.put_self]
  · rw [List.mem_singleton] at hm
    rcases hh with hh | hh
    · rw [hm, hh]
    · exact absurd hh hw

theorem delByNum_through (w : World) {I : FS → Prop} {dir : Str} (hd : DirName dir) (keep : UInt32) (l : List MMsg) : ∀ (num hw : UInt32) (fs : FS),
    (∀ m ∈ l, m.num ≠ 0) → num.toNat = l.length →
    (∀ fs', Less w dir fs ((l.take (l.length - keep.toNat)).map (·.num)) fs' ∨ (∀ f, (∀ n ∈ (l.take (l.length - keep.toNat)).map (·.num), f ≠ msgFile dir n.toNat) → fs' f = fs f) → I fs') →
    Through w I (fun r fs' => ∀ x, r = some x → liveMsgs x.1 = l.drop (l.length - keep.toNat) ∧ x.2 = dropAll hw ((l.take (l.length - keep.toNat)).map (·.num)) ∧
      Less w dir fs ((l.take (l.length - keep.toNat)).map (·.num)) fs') (delByNum dir keep l num hw) fs := by
  induction l with
  | nil =>
    intro num hw fs _ hn hI
    rw [delByNum, if_neg (by rw [UInt32.lt_iff_toNat_lt, hn]; simp)]
    refine .ret (hI _ (.inr fun _ _ => rfl)) (fun x hx => ?_)
    cases hx
    refine ⟨by rw [List.drop_nil]; rfl, by simp [dropAll], ?_⟩
    simp only [List.take_nil, List.map_nil]
    exact .nil
  | cons m t ih =>
    intro num hw fs h0 hn hI
    have hm : m.num ≠ 0 := h0 m (by simp)
    have ht : ∀ x ∈ t, x.num ≠ 0 := fun x hx => h0 x (by simp [hx])
    have hi0 : I fs := hI _ (.inr fun _ _ => rfl)
    rw [List.length_cons] at hn
    rw [delByNum, if_neg hm]
    by_cases hk : keep < num
    · rw [if_pos hk]
      rw [UInt32.lt_iff_toNat_lt, hn] at hk
      have e : (m :: t).length - keep.toNat = (t.length - keep.toNat) + 1 := by rw [List.length_cons]; omega
      rw [e] at hI ⊢
      simp only [List.take_succ_cons, List.drop_succ_cons, List.map_cons] at hI ⊢
      simp only [Prog.bind_eq, pollCtrlC, Prog.bind, Prog.pure_eq]
      refine .sleep hi0 (fun b => ?_)
      cases b with
      | true => exact .ret hi0 (fun x hx => by cases hx)
      | false =>
        simp only [Bool.false_eq_true, if_false, osDelete, Prog.bind]
        refine delete_less hd hi0 (fun b f1 h1 => ?_)
        have hnum : (num - 1).toNat = t.length := by
          rw [UInt32.toNat_sub_of_le _ _ (by rw [UInt32.le_iff_toNat_le]; show 1 ≤ _; omega), hn]
          show t.length + 1 - 1 = _; omega
        refine (ih (num - 1) (dropMark m.num hw) f1 ht hnum (fun fs' hfs' => hI fs' (.inr fun f hf => ?_))).bind (fun r gs _ hr => ?_)
        · have k1 : fs' f = f1 f := by
            rcases hfs' with hfs' | hfs'
            · exact hfs'.keep f (fun n hn => hf n (List.mem_cons_of_mem _ hn))
            · exact hfs' f (fun n hn => hf n (List.mem_cons_of_mem _ hn))
          rw [k1, h1.keep f (fun n hn => hf n (by rw [List.mem_singleton] at hn; simp [hn]))]
        · have hl : ∀ x, r = some x → Less w dir fs (m.num :: (t.take (t.length - keep.toNat)).map (·.num)) gs := fun x hx =>
            h1.trans (hr x hx).2.2
          cases r with
          | none => exact .ret ‹I gs› (fun x hx => by cases hx)
          | some x =>
            refine .ret ‹I gs› (fun y hy => ?_)
            cases hy
            obtain ⟨a1, a2, a3⟩ := hr x rfl
            refine ⟨?_, ?_, hl x rfl⟩
            · rw [liveMsgs, List.filter_cons_of_neg (by simp)]; exact a1
            · rw [a2]
              refine dropAll_cons (fun hh => ?_)
              obtain ⟨y, hy, e⟩ := List.mem_map.1 hh
              exact ht y (List.mem_of_mem_take hy) e
    · rw [if_neg hk]
      rw [UInt32.lt_iff_toNat_lt, hn] at hk
      have e : (m :: t).length - keep.toNat = 0 := by rw [List.length_cons]; omega
      rw [e]
      refine .ret hi0 (fun x hx => ?_)
      cases hx
      refine ⟨?_, by simp [dropAll], .nil⟩
      rw [liveMsgs, List.drop_zero, List.filter_eq_self]
      intro x hx
      simpa using h0 x hx

theorem delByDay_through (w : World) {I : FS → Prop} {dir : Str} (hd : DirName dir) (today keep : UInt32) (l : List MMsg) : ∀ (hw : UInt32) (fs : FS),
    (∀ fs', (∀ f, (∀ n ∈ ((liveMsgs l).filter (fun m => decide (today - m.day > keep))).map (·.num), f ≠ msgFile dir n.toNat) → fs' f = fs f) → I fs') →
    Through w I (fun r fs' => ∀ x, r = some x → liveMsgs x.1 = (liveMsgs l).filter (fun m => !decide (today - m.day > keep)) ∧
      x.2 = dropAll hw (((liveMsgs l).filter (fun m => decide (today - m.day > keep))).map (·.num)) ∧
      Less w dir fs (((liveMsgs l).filter (fun m => decide (today - m.day > keep))).map (·.num)) fs') (delByDay dir today keep l hw) fs := by
  induction l with
  | nil =>
    intro hw fs hI
    refine .ret (hI _ fun _ _ => rfl) (fun x hx => ?_)
    cases hx
    exact ⟨rfl, by simp [dropAll, liveMsgs], .nil⟩
  | cons m t ih =>
    intro hw fs hI
    have hi0 : I fs := hI _ (fun _ _ => rfl)
    rw [delByDay]
    simp only [Prog.bind_eq, pollCtrlC, Prog.bind, Prog.pure_eq]
    refine .sleep hi0 (fun b => ?_)
    cases b with
    | true => exact .ret hi0 (fun x hx => by cases hx)
    | false =>
      simp only [Bool.false_eq_true, if_false]
      by_cases hc : today - m.day > keep ∧ m.num ≠ 0
      · rw [if_pos hc]
        have e : liveMsgs (m :: t) = m :: liveMsgs t := by rw [liveMsgs, List.filter_cons_of_pos (by simpa using hc.2)]; rfl
        rw [e] at hI ⊢
        have e1 : (m :: liveMsgs t).filter (fun m => decide (today - m.day > keep)) = m :: (liveMsgs t).filter (fun m => decide (today - m.day > keep)) :=
          List.filter_cons_of_pos (by simpa using hc.1)
        have e2 : (m :: liveMsgs t).filter (fun m => !decide (today - m.day > keep)) = (liveMsgs t).filter (fun m => !decide (today - m.day > keep)) :=
          List.filter_cons_of_neg (by simpa using hc.1)
        rw [e1, List.map_cons] at hI ⊢
        rw [e2]
        simp only [Prog.bind_eq, osDelete, Prog.bind]
        refine delete_less hd hi0 (fun b f1 h1 => ?_)
        refine (ih (dropMark m.num hw) f1 (fun fs' hfs' => hI fs' (fun f hf => ?_))).bind (fun r gs hg hr => ?_)
        · rw [hfs' f (fun n hn => hf n (List.mem_cons_of_mem _ hn)), h1.keep f (fun n hn => hf n (by rw [List.mem_singleton] at hn; simp [hn]))]
        · cases r with
          | none => exact .ret hg (fun x hx => by cases hx)
          | some x =>
            refine .ret hg (fun y hy => ?_)
            cases hy
            obtain ⟨a1, a2, a3⟩ := hr x rfl
            refine ⟨?_, ?_, h1.trans a3⟩
            · rw [liveMsgs, List.filter_cons_of_neg (by simp)]; exact a1
            · rw [a2]
              refine dropAll_cons (fun hh => ?_)
              obtain ⟨y, hy, e⟩ := List.mem_map.1 hh
              have := (List.mem_filter.1 (List.mem_filter.1 hy).1).2
              simp [e] at this
      · rw [if_neg hc]
        have hfilt : (liveMsgs (m :: t)).filter (fun m => decide (today - m.day > keep)) = (liveMsgs t).filter (fun m => decide (today - m.day > keep)) := by
          by_cases h0 : m.num = 0
          · rw [liveMsgs, List.filter_cons_of_neg (by simpa using h0)]; rfl
          · rw [liveMsgs, List.filter_cons_of_pos (by simpa using h0), List.filter_cons_of_neg (by simpa using fun h => hc ⟨h, h0⟩)]; rfl
        rw [hfilt] at hI ⊢
        refine (ih hw fs hI).bind (fun r gs hg hr => ?_)
        cases r with
        | none => exact .ret hg (fun x hx => by cases hx)
        | some x =>
          refine .ret hg (fun y hy => ?_)
          cases hy
          obtain ⟨a1, a2, a3⟩ := hr x rfl
          refine ⟨?_, a2, a3⟩
          by_cases h0 : m.num = 0
          · rw [liveMsgs, List.filter_cons_of_neg (by simpa using h0), liveMsgs, List.filter_cons_of_neg (by simpa using h0)]; exact a1
          · rw [liveMsgs, List.filter_cons_of_pos (by simpa using h0), liveMsgs, List.filter_cons_of_pos (by simpa using h0), List.filter_cons_of_pos (by simpa using fun h => hc ⟨h, h0⟩)]
            exact congrArg (m :: ·) a1

/-- What is known between two renamings: `g` is the disk before, `j` messages have been moved. -/
structure Moving2 (dir : Str) (g f : FS) (ns : List Nat) (j : Nat) : Prop where
  new : ∀ i n, i < j → ns[i]? = some n → f (msgFile dir (2 + i)) = g (msgFile dir n)
  old : ∀ i n, j ≤ i → ns[i]? = some n → f (msgFile dir n) = g (msgFile dir n)
  gone : ∀ i n, i < j → ns[i]? = some n → 2 + j ≤ n → f (msgFile dir n) = none
  rest : ∀ x, (∀ i, i < j → x ≠ msgFile dir (2 + i)) → (∀ i n, i < j → ns[i]? = some n → x ≠ msgFile dir n) → f x = g x

theorem Moving2.zero {dir : Str} {g : FS} {ns : List Nat} : Moving2 dir g g ns 0 :=
  ⟨fun _ _ h => by omega, fun _ _ _ _ => rfl, fun _ _ h => by omega, fun _ _ _ => rfl⟩

theorem sorted_lt {ns : List Nat} (hs : ns.Pairwise (· < ·)) {i j a b : Nat} (h : i < j) (hi : ns[i]? = some a) (hj : ns[j]? = some b) : a < b := by
  obtain ⟨h1, e1⟩ := List.getElem?_eq_some_iff.1 hi
  obtain ⟨h2, e2⟩ := List.getElem?_eq_some_iff.1 hj
  rw [← e1, ← e2]
  exact List.pairwise_iff_getElem.1 hs i j h1 h2 h

theorem sorted_ge {ns : List Nat} (hs : ns.Pairwise (· < ·)) (h2 : ∀ n ∈ ns, 2 ≤ n) {i n : Nat} (hi : ns[i]? = some n) : 2 + i ≤ n := by
  induction i generalizing n with
  | zero => exact h2 n (List.mem_of_getElem? hi)
  | succ i ih =>
    obtain ⟨h1, e1⟩ := List.getElem?_eq_some_iff.1 hi
    have := ih (List.getElem?_eq_getElem (by omega : i < ns.length))
    have := sorted_lt hs (Nat.lt_succ_self i) (List.getElem?_eq_getElem (by omega : i < ns.length)) hi
    omega

theorem Moving2.stay {dir : Str} {g f : FS} {ns : List Nat} {j n : Nat} (h : Moving2 dir g f ns j) (hj : ns[j]? = some n) (e : n = 2 + j) : Moving2 dir g f ns (j + 1) := by
  refine ⟨fun i m hi hm => ?_, fun i m hi hm => h.old i m (by omega) hm, fun i m hi hm hge => ?_, fun x h1 h2 => h.rest x (fun i hi => h1 i (by omega)) (fun i m hi => h2 i m (by omega))⟩
  · rcases Nat.lt_succ_iff_lt_or_eq.1 hi with hi | rfl
    · exact h.new i m hi hm
    · rw [hj] at hm; cases hm
      rw [e, h.old i _ (Nat.le_refl _) (by rw [hj, e])]
  · rcases Nat.lt_succ_iff_lt_or_eq.1 hi with hi | rfl
    · exact h.gone i m hi hm (by omega)
    · rw [hj] at hm; cases hm; omega

theorem Moving2.move {dir : Str} {g f : FS} {ns : List Nat} {j n : Nat} {d : Data} (hs : ns.Pairwise (· < ·)) (h2 : ∀ n ∈ ns, 2 ≤ n) (h : Moving2 dir g f ns j) (hj : ns[j]? = some n) (hne : n ≠ 2 + j)
    (hd : f (msgFile dir n) = some d) : Moving2 dir g ((f.put (msgFile dir n) none).put (msgFile dir (2 + j)) (some d)) ns (j + 1) := by
  have hge := sorted_ge hs h2 hj
  have inj : ∀ {a b : Nat}, a ≠ b → msgFile dir a ≠ msgFile dir b := fun hab e => hab (msgFile_inj e)
  have hgd : g (msgFile dir n) = some d := by rw [← h.old j n (Nat.le_refl _) hj]; exact hd
  refine ⟨fun i m hi hm => ?_, fun i m hi hm => ?_, fun i m hi hm hge => ?_, fun x h1 h2 => ?_⟩
  · rcases Nat.lt_succ_iff_lt_or_eq.1 hi with hi | rfl
    · rw [FS.put_ne _ (inj (by omega)), FS.put_ne _ (inj (by omega))]
      exact h.new i m hi hm
    · rw [hj] at hm; cases hm
      rw [FS.put_self, hgd]
  · have := sorted_lt hs (by omega : j < i) hj hm
    rw [FS.put_ne _ (inj (by omega)), FS.put_ne _ (inj (by omega))]
    exact h.old i m (by omega) hm
  · rw [FS.put_ne _ (inj (by omega))]
    rcases Nat.lt_succ_iff_lt_or_eq.1 hi with hi | rfl
    · have := sorted_lt hs hi hm hj
      rw [FS.put_ne _ (inj (by omega))]
      exact h.gone i m hi hm (by omega)
    · rw [hj] at hm; cases hm
      rw [FS.put_self]
  · rw [FS.put_ne _ (h1 j (by omega)), FS.put_ne _ (h2 j n (by omega) hj)]
    exact h.rest x (fun i hi => h1 i (by omega)) (fun i m hi => h2 i m (by omega))

/-- The mark after `j` messages have been moved. -/
def MarkAt (ns : List UInt32) (hw : UInt32) (j : Nat) (hw' : UInt32) : Prop :=
  (∀ i, i < j → ns[i]? = some hw → hw'.toNat = 2 + i) ∧ ((∀ i, i < j → ns[i]? ≠ some hw) → hw' = hw)

theorem renumber_through (w : World) (hr : ¬ w.renameFails) {I : FS → Prop} {dir : Str} (hd : DirName dir) {ns : List UInt32} {g : FS} {hw0 : UInt32}
    (hs : (ns.map (·.toNat)).Pairwise (· < ·)) (h2 : ∀ n ∈ ns.map (·.toNat), 2 ≤ n) (hex : ∀ n ∈ ns, g (msgFile dir n.toNat) ≠ none)
    (hI : ∀ j f, j ≤ ns.length → Moving2 dir g f (ns.map (·.toNat)) j → I f) (l : List MMsg) : ∀ (j : Nat) (nn hw : UInt32) (fs : FS), (liveMsgs l).map (·.num) = ns.drop j →
    j ≤ ns.length → (j < ns.length → nn.toNat = 2 + j) → Moving2 dir g fs (ns.map (·.toNat)) j → MarkAt ns hw0 j hw →
    Through w I (fun r fs' => ∀ x, r = some x → Moving2 dir g fs' (ns.map (·.toNat)) ns.length ∧ MarkAt ns hw0 ns.length x) (renumber dir (newNums l nn) hw) fs := by
  induction l with
  | nil =>
    intro j nn hw fs hl hj hnn hM hk
    have : j = ns.length := by
      have := congrArg List.length hl
      simp only [liveMsgs, List.filter_nil, List.map_nil, List.length_nil, List.length_drop] at this
      omega
    subst this
    refine .ret (hI _ _ hj hM) (fun x hx => ?_)
    cases hx
    exact ⟨hM, hk⟩
  | cons m t ih =>
    intro j nn hw fs hl hj hnn hM hk
    have hi0 := hI _ _ hj hM
    rw [newNums]
    by_cases h0 : m.num = 0
    · rw [if_pos h0, renumber]
      simp only [Prog.bind_eq, pollCtrlC, Prog.bind, Prog.pure_eq]
      refine .sleep hi0 (fun b => ?_)
      cases b with
      | true => exact .ret hi0 (fun x hx => by cases hx)
      | false =>
        simp only [Bool.false_eq_true, if_false]
        rw [if_neg (fun h => h.1 h0)]
        rw [liveMsgs, List.filter_cons_of_neg (by simpa using h0)] at hl
        exact ih j nn hw fs hl hj hnn hM hk
    · rw [if_neg h0, renumber]
      rw [liveMsgs, List.filter_cons_of_pos (by simpa using h0), List.map_cons] at hl
      have hlt : j < ns.length := by
        have := congrArg List.length hl
        simp only [List.length_cons, List.length_drop] at this
        omega
      have hnj : ns[j]? = some m.num := by
        have := congrArg (fun x => x[0]?) hl
        simp only [List.getElem?_cons_zero, List.getElem?_drop, Nat.add_zero] at this
        exact this.symm
      have hnj' : (ns.map (·.toNat))[j]? = some m.num.toNat := by rw [List.getElem?_map, hnj]; rfl
      have htl : (liveMsgs t).map (·.num) = ns.drop (j + 1) := by
        have := congrArg List.tail hl
        rw [List.tail_cons, List.tail_drop] at this
        exact this
      have hge := sorted_ge hs h2 hnj'
      have en := hnn hlt
      have hnext : j + 1 < ns.length → (nn + 1).toNat = 2 + (j + 1) := fun h => by
        have := sorted_ge hs h2 (List.getElem?_eq_getElem (by simpa using h : j + 1 < (ns.map (·.toNat)).length))
        simp only [List.getElem_map] at this
        have := (ns[j + 1]).toNat_lt
        rw [UInt32.toNat_add, en, show (1 : UInt32).toNat = 1 from rfl, Nat.mod_eq_of_lt (by omega)]
        omega
      have heq : m.num = nn ↔ m.num.toNat = 2 + j := by rw [← UInt32.toNat_inj, en]
      -- the mark
      have hmark : MarkAt ns hw0 (j + 1) (if hw = m.num then nn else hw) := by
        refine ⟨fun i hi hh => ?_, fun hh => ?_⟩
        · rcases Nat.lt_succ_iff_lt_or_eq.1 hi with hi | rfl
          · have a := hk.1 i hi hh
            rw [if_neg (fun e => by rw [e] at a; omega)]
            exact a
          · rw [hnj] at hh
            injection hh with hh
            have : hw = hw0 := hk.2 (fun i' hi' e' => by
              have := sorted_lt hs hi' (by rw [List.getElem?_map, e']; rfl) hnj'
              rw [hh] at this; exact Nat.lt_irrefl _ this)
            rw [if_pos (by rw [this, hh])]; exact en
        · have e := hk.2 (fun i hi => hh i (by omega))
          rw [if_neg (fun e' => hh j (by omega) (by rw [hnj, ← e', e]))]
          exact e
      simp only [Prog.bind_eq, pollCtrlC, Prog.bind, Prog.pure_eq]
      refine .sleep hi0 (fun b => ?_)
      cases b with
      | true => exact .ret hi0 (fun x hx => by cases hx)
      | false =>
        simp only [Bool.false_eq_true, if_false]
        by_cases hc : m.num ≠ 0 ∧ m.num ≠ nn
        · rw [if_pos hc]
          simp only [Prog.bind_eq, osRename, Prog.bind]
          rw [msgPath_eq hd, msgPath_eq hd, en]
          have hne : m.num.toNat ≠ 2 + j := fun e => hc.2 (heq.2 e)
          refine .rename hi0 (fun d hdd => ?_) (fun hh => ?_)
          · exact ih (j + 1) (nn + 1) _ _ htl hlt hnext (hM.move hs h2 hnj' hne hdd) hmark
          · rcases hh with hh | hh
            · rw [hM.old j _ (Nat.le_refl _) hnj'] at hh
              exact absurd hh (hex m.num (List.mem_of_getElem? hnj))
            · exact absurd hh hr
        · rw [if_neg hc]
          have e : m.num = nn := Classical.byContradiction fun h => hc ⟨h0, h⟩
          refine ih (j + 1) (nn + 1) hw fs htl hlt hnext (hM.stay hnj' (heq.1 e)) ?_
          have : (if hw = m.num then nn else hw) = hw := by
            split
            · next h => rw [h, e]
            · rfl
          rw [this] at hmark
          exact hmark

end CM
