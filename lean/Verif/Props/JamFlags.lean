import Verif.Spec.Says
import Verif.Spec.Attach
import Verif.Lemmas.Says
import Verif.Lemmas.JamKeep

/-! # FLAGS lines in JAM areas (C78) -/

set_option linter.unusedSimpArgs false

namespace CM

/-- The attributes of JAM messages (JAM specification, revision 1) by their names in FLAGS lines. -/
def flagBits : List (Str × UInt32) :=
  [(b!"pvt", 0x4), (b!"rcv", 0x8), (b!"snt", 0x10), (b!"k/s", 0x20), (b!"a/s", 0x40), (b!"hld", 0x80), (b!"cra", 0x100), (b!"imm", 0x200),
   (b!"dir", 0x400), (b!"frq", 0x1000), (b!"fil", 0x2000), (b!"tfs", 0x4000), (b!"kfs", 0x8000), (b!"rrq", 0x10000), (b!"cfm", 0x20000),
   (b!"lok", 0x1), (b!"fpu", 0x400000)]

/-- The attribute a word stands for. -/
def flagBit (w : Str) : Option UInt32 := (flagBits.find? fun x => x.1 == w.map lower).map (·.2)

/-- All attributes named. -/
def flagsNamed : List Str → UInt32
  | [] => 0
  | w :: ws => (flagBit w).getD 0 ||| flagsNamed ws

/-- A flag: at most nine printable characters. -/
def FlagWord (w : Str) : Prop := w ≠ [] ∧ w.length < 10 ∧ ∀ c ∈ w, 32 < c ∧ c < 128

/-- The words that are no attributes. -/
def otherFlags (ws : List Str) : List Str := ws.filter fun w => (flagBit w).isNone

theorem jamFindFlag_eq (w : Str) (h : w ≠ []) : jamFindFlag w = (flagBit w).getD 0 ∧ (jamFindFlag w ≠ 0 ↔ (flagBit w).isSome = true) := by
  have hn : ∀ f ∈ jamFlagTable, f.1 = [] → eqi f.1 w = false := by
    intro f _ hf
    cases w with
    | nil => exact absurd rfl h
    | cons c r => rw [hf]; rfl
  by_cases hk : ∃ x ∈ flagBits, w.map lower = x.1
  · have hall : ∀ x ∈ flagBits, ((jamFlagTable.find? fun f => f.1.map lower == x.1).map (·.2.1)).getD 0 = x.2 ∧ x.2 ≠ 0 ∧
        (flagBits.find? fun y => y.1 == x.1).map (·.2) = some x.2 := by decide +kernel
    obtain ⟨x, hx, hw⟩ := hk
    have h1 := hall x hx
    unfold jamFindFlag flagBit eqi
    rw [hw, h1.1, h1.2.2]
    exact ⟨rfl, fun _ => rfl, fun _ => h1.2.1⟩
  · have hno : flagBit w = none := by
      unfold flagBit
      rw [Option.map_eq_none_iff, List.find?_eq_none]
      intro x hx e
      exact hk ⟨x, hx, (by simpa using e : x.1 = w.map lower).symm⟩
    have hall : ∀ f ∈ jamFlagTable, f.1 = [] ∨ ∃ x ∈ flagBits, x.1 = f.1.map lower := by decide +kernel
    have hz : jamFindFlag w = 0 := by
      unfold jamFindFlag
      have : (jamFlagTable.find? fun f => eqi f.1 w) = none := by
        rw [List.find?_eq_none]
        intro f hf
        rcases hall f hf with h0 | ⟨x, hx, he⟩
        · rw [hn f hf h0]; decide
        · intro e
          apply hk
          refine ⟨x, hx, ?_⟩
          rw [he]
          unfold eqi at e
          exact (by simpa using e : f.1.map lower = w.map lower).symm
      rw [this]
      rfl
    rw [hz, hno]
    exact ⟨rfl, fun h => absurd rfl h, fun h => by cases h⟩

theorem flag_written {w t : Str} (h : Written w t) : w.length ≤ t.length := by
  cases h with
  | bare => exact Nat.le_refl _
  | quoted _ =>
    have : ∀ x : Str, x.length ≤ (x.flatMap fun c => if c = 34 ∨ c = 92 then [92, c] else [c]).length := by
      intro x
      induction x with
      | nil => exact Nat.le_refl _
      | cons c r ih =>
        rw [List.flatMap_cons, List.length_append, List.length_cons]
        split <;> simp only [List.length_cons, List.length_nil] <;> omega
    have h := this w
    unfold Quoted
    simp only [List.length_append, List.length_cons, List.length_nil] at h ⊢
    omega

/-- The words of a line, each with a blank behind it, are not longer than the line and a blank. -/
theorem words_room {ws : List Str} {v : Str} (h : WrittenLine ws v) : (ws.map fun w => w.length + 1).sum ≤ v.length + 1 := by
  induction h with
  | nil b _ => simp
  | last b w t _ hw =>
    have := flag_written hw
    simp only [List.map_cons, List.map_nil, List.sum_cons, List.sum_nil, List.length_append]
    omega
  | cons b w t c ws r _ hw _ _ ih =>
    have := flag_written hw
    simp only [List.map_cons, List.sum_cons, List.length_append, List.length_cons]
    omega

theorem flagWords_eq : ∀ (fuel : Nat) (ws : List Str) (x : Str), Rest ws x → (∀ w ∈ ws, FlagWord w) → ws.length < fuel → flagWords fuel x = ws := by
  intro fuel
  induction fuel with
  | zero => intro ws x _ _ h; omega
  | succ fuel ih =>
    intro ws x hr hf hl
    cases ws with
    | nil =>
      obtain ⟨e, h1, -⟩ := hr.none 10
      rw [flagWords, h1]
      rfl
    | cons w ws =>
      obtain ⟨r, h1, h2⟩ := hr.word (n := 10) (hf w (by simp)).2.1
      rw [flagWords, h1]
      simp only [List.length_cons] at hl
      rw [if_pos rfl, ih ws r h2 (fun w hw => hf w (by simp [hw])) (by omega)]

theorem flagFold : ∀ (ws : List Str) (a : UInt32) (t : Str), (∀ w ∈ ws, FlagWord w) → t.length + (ws.map fun w => w.length + 1).sum < 100 →
    ws.foldlM jamFlagWord (a, t) = .ok (a ||| flagsNamed ws, t ++ (otherFlags ws).flatMap fun w => w ++ [32]) := by
  intro ws
  induction ws with
  | nil => intro a t _ _; simp [otherFlags, flagsNamed]; rfl
  | cons w ws ih =>
    intro a t hf hl
    obtain ⟨h1, h2⟩ := jamFindFlag_eq w (hf w (by simp)).1
    simp only [List.map_cons, List.sum_cons] at hl
    have hf' : ∀ x ∈ ws, FlagWord x := fun x hx => hf x (by simp [hx])
    rw [List.foldlM_cons]
    cases hb : flagBit w with
    | some n =>
      have e : jamFlagWord (a, t) w = .ok (a ||| n, t) := by
        unfold jamFlagWord
        rw [if_pos (h2.2 (by rw [hb]; rfl)), h1, hb]
        rfl
      rw [e]
      show ws.foldlM jamFlagWord (a ||| n, t) = _
      rw [ih _ _ hf' (by omega), flagsNamed, hb, Option.getD_some, UInt32.or_assoc]
      simp [otherFlags, hb]
    | none =>
      have e : jamFlagWord (a, t) w = .ok (a, t ++ w ++ [32]) := by
        unfold jamFlagWord
        rw [if_neg (fun h => by have := h2.1 h; rw [hb] at this; cases this), if_pos (by show t.length + w.length + 1 < 100; omega)]
      rw [e]
      show ws.foldlM jamFlagWord (a, t ++ w ++ [32]) = _
      rw [ih _ _ hf' (by simp only [List.length_append, List.length_cons, List.length_nil]; omega), flagsNamed, hb, Option.getD_none, UInt32.zero_or]
      simp [otherFlags, hb]

theorem blankJoin_end : ∀ (ws : List Str), ws ≠ [] → (ws.flatMap fun w => w ++ [32]) = blankJoin ws ++ [32] := by
  intro ws
  induction ws with
  | nil => intro h; exact absurd rfl h
  | cons w ws ih =>
    intro _
    cases ws with
    | nil => simp [blankJoin]
    | cons a r =>
      rw [List.flatMap_cons, ih (by simp), blankJoin]
      simp

theorem blankJoin_last : ∀ (ws : List Str), ws ≠ [] → (∀ w ∈ ws, FlagWord w) → ∃ c, (blankJoin ws).getLast? = some c ∧ 32 < c ∧ c < 128 := by
  intro ws
  induction ws with
  | nil => intro h; exact absurd rfl h
  | cons w ws ih =>
    intro _ hf
    cases ws with
    | nil =>
      obtain ⟨h1, -, h2⟩ := hf w (by simp)
      refine ⟨w.getLast h1, List.getLast?_eq_some_getLast h1, h2 _ (List.getLast_mem h1)⟩
    | cons a r =>
      obtain ⟨c, h1, h2⟩ := ih (by simp) (fun x hx => hf x (by simp [hx]))
      refine ⟨c, ?_, h2⟩
      rw [blankJoin, List.getLast?_append, List.getLast?_cons, h1]
      rfl

theorem blankJoin_head (w : Str) (ws : List Str) (h : FlagWord w) : (blankJoin (w :: ws)).head? ≠ some 32 := by
  obtain ⟨h1, -, h2⟩ := h
  cases w with
  | nil => exact absurd rfl h1
  | cons c r =>
    have hc := (h2 c (by simp)).1
    have : (blankJoin ((c :: r) :: ws)).head? = some c := by cases ws <;> rfl
    rw [this]
    intro e
    cases e
    exact absurd hc (by decide)

theorem strip_flags (ws : List Str) (hn : ws ≠ []) (hf : ∀ w ∈ ws, FlagWord w) : stripleadtrail (ws.flatMap fun w => w ++ [32]) = .ok (blankJoin ws) := by
  rw [blankJoin_end ws hn]
  have hl : striplead (blankJoin ws ++ [32]) = blankJoin ws ++ [32] := by
    cases ws with
    | nil => exact absurd rfl hn
    | cons w r =>
      have h1 := blankJoin_head w r (hf w (by simp))
      cases hb : blankJoin (w :: r) with
      | nil =>
        obtain ⟨c, h, -⟩ := blankJoin_last _ hn hf
        rw [hb] at h
        cases h
      | cons c t =>
        rw [hb] at h1
        unfold striplead
        rw [List.cons_append, List.dropWhile_cons_of_neg]
        simp only [beq_iff_eq]
        intro e; apply h1; simp [e]
  unfold stripleadtrail
  rw [hl, striptrail_iff]
  obtain ⟨c, h1, h2, h3⟩ := blankJoin_last ws hn hf
  exact ⟨[32], rfl, by decide, c, h1, below33_of h2 h3⟩

/-- C78. A FLAGS line sets the attributes it names; its other words are stored, with one blank between
them. If it has no other words, the program looks at the memory in front of an empty string. -/
theorem jam_flags_line (x : JamIn) (ws : List Str) (v : Str) (ha : ArgOk 98 v) (hv : NoNul v) (hw : WrittenLine ws v) (hf : ∀ w ∈ ws, FlagWord w) :
    jamLine x (1 :: b!"FLAGS: " ++ v ++ [13]) =
      if otherFlags ws = [] then .error .oobRead
      else .ok { attr := x.attr ||| flagsNamed ws, subs := x.subs ++ [⟨2003, 0, blankJoin (otherFlags ws)⟩], body := x.body } := by
  have e1 : jamLine x (1 :: b!"FLAGS: " ++ v ++ [13]) = jamFlagsLine x (1 :: b!"FLAGS: " ++ v ++ [13]) := rfl
  have hroom := words_room hw
  have hl98 := ha.2.2
  have hlen : ws.length ≤ v.length + 1 := by
    have : ∀ l : List Str, l.length ≤ (l.map fun w => w.length + 1).sum := by
      intro l
      induction l with
      | nil => exact Nat.le_refl _
      | cons a r ih => simp only [List.length_cons, List.map_cons, List.sum_cons]; omega
    have := this ws
    omega
  have hlen' : ws.length < v.length + 1 := by
    by_cases h : ws = []
    · subst h; simp
    · have : ∀ l : List Str, (∀ w ∈ l, FlagWord w) → l.length + l.length ≤ (l.map fun w => w.length + 1).sum := by
        intro l
        induction l with
        | nil => intro _; exact Nat.le_refl _
        | cons a r ih =>
          intro hf
          have h1 : 0 < a.length := List.length_pos_iff.2 (hf a (by simp)).1
          have := ih (fun w hw => hf w (by simp [hw]))
          simp only [List.length_cons, List.map_cons, List.sum_cons]
          omega
      have := this ws hf
      have h0 := List.length_pos_iff.2 h
      omega
  have hk : kludgeArg (1 :: b!"FLAGS: " ++ v ++ [13]) 7 = .ok v := by
    have e : (1 :: b!"FLAGS: " ++ v ++ [13]) = (1 :: b!"FLAGS:") ++ (32 :: v) ++ [13] := rfl
    rw [e]
    have := kludgeArg_of (p := 1 :: b!"FLAGS:") (v := 32 :: v) (by
      intro hc
      rcases List.mem_cons.1 hc with h | h
      · exact absurd h (by decide)
      · exact hv h) (by rw [List.length_cons]; omega)
    rw [show (1 :: b!"FLAGS:").length = 7 from rfl] at this
    rw [this, stripleadtrail_blank ha]
  rw [e1]
  unfold jamFlagsLine
  rw [hk]
  show (do
    let r ← (flagWords (v.length + 1) v).foldlM jamFlagWord (x.attr, [])
    let new ← stripleadtrail r.2
    return if new ≠ [] then { x with attr := r.1 }.add 2003 new else { x with attr := r.1 } : Except UB JamIn) = _
  rw [flagWords_eq _ ws v ⟨v, [], by simp, .inl rfl, hw⟩ hf hlen', flagFold ws _ [] hf (by simp only [List.length_nil]; omega)]
  show (do
    let new ← stripleadtrail ([] ++ (otherFlags ws).flatMap fun w => w ++ [32])
    return if new ≠ [] then { x with attr := x.attr ||| flagsNamed ws }.add 2003 new else { x with attr := x.attr ||| flagsNamed ws } : Except UB JamIn) = _
  by_cases ho : otherFlags ws = []
  · rw [ho, if_pos rfl]; rfl
  · rw [if_neg ho, List.nil_append]
    have hfo : ∀ w ∈ otherFlags ws, FlagWord w := fun w hw => hf w (List.mem_filter.1 hw).1
    rw [strip_flags _ ho hfo]
    obtain ⟨c, hc, -⟩ := blankJoin_last _ ho hfo
    have hne : blankJoin (otherFlags ws) ≠ [] := by intro e; rw [e] at hc; cases hc
    show Except.ok (if blankJoin (otherFlags ws) ≠ [] then _ else _) = _
    rw [if_pos hne]
    rfl

namespace Ex

/-- A line with two attributes and two other words. -/
theorem flags_example : jamLine ⟨4, [], b!"Hi\r"⟩ (1 :: b!"FLAGS: dir  XYZ Fil A1" ++ [13]) = .ok ⟨0x2404, [⟨2003, 0, b!"XYZ A1"⟩], b!"Hi\r"⟩ := by
  have h : WrittenLine [b!"dir", b!"XYZ", b!"Fil", b!"A1"] b!"dir  XYZ Fil A1" :=
    .cons [] b!"dir" b!"dir" 32 _ b!" XYZ Fil A1" (by intro c h; cases h) (.bare _ (by decide) (by decide) (by decide)) (.inl rfl)
      (.cons b!" " b!"XYZ" b!"XYZ" 32 _ b!"Fil A1" (by intro c h; left; simpa using h) (.bare _ (by decide) (by decide) (by decide)) (.inl rfl)
        (.cons [] b!"Fil" b!"Fil" 32 _ b!"A1" (by intro c h; cases h) (.bare _ (by decide) (by decide) (by decide)) (.inl rfl)
          (.last [] b!"A1" b!"A1" (by intro c h; cases h) (.bare _ (by decide) (by decide) (by decide)))))
  exact (jam_flags_line ⟨4, [], b!"Hi\r"⟩ _ b!"dir  XYZ Fil A1" ⟨by decide, ⟨49, by decide, by decide, by decide⟩, by decide⟩ (by decide) h
    (by unfold FlagWord; decide)).trans rfl

end Ex

end CM
