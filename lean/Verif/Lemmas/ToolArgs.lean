import Verif.Spec.ToolArgs
import Verif.Model.ToolArgs

/-! # `parseargs` with names and places -/

set_option linter.unusedSimpArgs false

namespace CM

/-- The value of an argument in the table. -/
def valData : Option (Option Str) → ArgData
  | none => .none
  | some none => .flag
  | some (some s) => .str s

/-- An entry of the table. -/
def ToolArg.entry (a : ToolArg) (v : Option (Option Str)) : Arg := ⟨a.kind, some a.name, a.byPlace, a.needed, valData v⟩

/-- The table with the values that are meant. -/
def fillTable (nm : Str → Option (Option Str)) : List ToolArg → List Str → List Arg
  | [], _ => []
  | a :: T, ws =>
    match nm a.name with
    | some v => a.entry (some v) :: fillTable nm T ws
    | none =>
      if a.byPlace then
        match ws with
        | [] => a.entry none :: fillTable nm T []
        | w :: ws => a.entry (some (some w)) :: fillTable nm T ws
      else a.entry none :: fillTable nm T ws

theorem fillTable_cons (nm : Str → Option (Option Str)) (a : ToolArg) (T : List ToolArg) (ws : List Str) : fillTable nm (a :: T) ws =
    match nm a.name with
    | some v => a.entry (some v) :: fillTable nm T ws
    | none =>
      if a.byPlace then
        match ws with
        | [] => a.entry none :: fillTable nm T []
        | w :: ws => a.entry (some (some w)) :: fillTable nm T ws
      else a.entry none :: fillTable nm T ws := by
  rw [fillTable.eq_def]

/-- One more argument by name. -/
def setNamed (nm : Str → Option (Option Str)) (n : Str) (v : Option Str) : Str → Option (Option Str) := fun m => if m = n then some v else nm m

theorem valData_none (v : Option (Option Str)) : (valData v == ArgData.none) = v.isNone := by
  match v with
  | none => rfl
  | some none => rfl
  | some (some s) => rfl

theorem entry_keyword (a : ToolArg) (v : Option (Option Str)) (w : Str) : (a.entry v).isKeyword w = decide (w.map lower = a.name.map lower) := by
  unfold ToolArg.entry Arg.isKeyword eqi
  by_cases h : w.map lower = a.name.map lower <;> simp [h]

theorem entry_free (a : ToolArg) (v : Option (Option Str)) : (a.entry v).isFree = (a.byPlace && v.isNone) := by
  unfold ToolArg.entry Arg.isFree
  rw [valData_none]
  rfl

theorem fill_word (nm : Str → Option (Option Str)) (w : Str) : ∀ (T : List ToolArg) (ws : List Str),
    setFirst Arg.isFree (.str w) (fillTable nm T ws) = if ws.length < places nm T then some (fillTable nm T (ws ++ [w])) else none := by
  intro T
  induction T with
  | nil => intro ws; simp [fillTable, setFirst, places]
  | cons a T ih =>
    intro ws
    cases hn : nm a.name with
    | some v =>
      have hp : places nm (a :: T) = places nm T := by simp [places, List.filter_cons, hn]
      rw [hp]
      simp only [fillTable, hn, setFirst, entry_free, Option.isNone_some, Bool.and_false, Bool.false_eq_true, if_false, ih]
      split <;> rfl
    | none =>
      cases hb : a.byPlace with
      | false =>
        have hp : places nm (a :: T) = places nm T := by simp [places, List.filter_cons, hn, hb]
        rw [hp]
        simp only [fillTable, hn, hb, setFirst, entry_free, Bool.false_and, Bool.false_eq_true, if_false, ih]
        split <;> rfl
      | true =>
        have hp : places nm (a :: T) = places nm T + 1 := by simp [places, List.filter_cons, hn, hb]
        rw [hp]
        cases ws with
        | nil =>
          simp only [fillTable, hn, hb, setFirst, entry_free, Option.isNone_none, Bool.and_self, if_true, List.length_nil, List.nil_append,
            Nat.zero_lt_succ]
          rfl
        | cons x ws =>
          simp only [fillTable, hn, hb, setFirst, entry_free, Option.isNone_some, Bool.and_false, Bool.false_eq_true, if_false, if_true,
            ih, List.length_cons, List.cons_append, Nat.add_lt_add_iff_right]
          split <;> rfl

theorem fill_other (nm : Str → Option (Option Str)) (n : Str) (v : Option Str) : ∀ (T : List ToolArg) (ws : List Str),
    (∀ a ∈ T, a.name ≠ n) → fillTable (setNamed nm n v) T ws = fillTable nm T ws := by
  intro T
  induction T with
  | nil => intro ws _; rfl
  | cons a T ih =>
    intro ws h
    have ha : setNamed nm n v a.name = nm a.name := by simp [setNamed, h a (by simp)]
    have iht := fun ws => ih ws fun b hb => h b (by simp [hb])
    simp only [fillTable, ha, iht]

theorem fill_named (nm : Str → Option (Option Str)) (w : Str) (v : Option Str) (x : ToolArg) (hw : w.map lower = x.name.map lower) :
    ∀ (T : List ToolArg) (ws : List Str), DistinctNames T → x ∈ T → (x.byPlace = true → ws = []) →
      (∃ d, (fillTable nm T ws).find? (·.isKeyword w) = some (x.entry d)) ∧
      setFirst (·.isKeyword w) (valData (some v)) (fillTable nm T ws) = some (fillTable (setNamed nm x.name v) T ws) := by
  intro T
  induction T with
  | nil => intro ws _ hx; cases hx
  | cons a T ih =>
    intro ws hd hx hp
    unfold DistinctNames at hd
    rw [List.pairwise_cons] at hd
    by_cases hk : w.map lower = a.name.map lower
    · have hxa : x = a := by
        rcases List.mem_cons.1 hx with h | h
        · exact h
        · exact absurd (hk.symm.trans hw) (hd.1 x h)
      subst hxa
      have ho : ∀ ws, fillTable (setNamed nm x.name v) T ws = fillTable nm T ws :=
        fun ws => fill_other nm x.name v T ws fun b hb e => hd.1 b hb (by rw [e])
      have hs : setNamed nm x.name v x.name = some v := by simp [setNamed]
      have hc : ∀ (d : Option (Option Str)) (r : List Arg), (x.entry d :: r).find? (·.isKeyword w) = some (x.entry d) ∧
          setFirst (·.isKeyword w) (valData (some v)) (x.entry d :: r) = some (x.entry (some v) :: r) := by
        intro d r
        rw [List.find?_cons, setFirst, entry_keyword, decide_eq_true hk]
        exact ⟨rfl, rfl⟩
      have hr : fillTable (setNamed nm x.name v) (x :: T) ws = x.entry (some v) :: fillTable nm T ws := by
        rw [fillTable_cons, hs]
        dsimp only
        rw [ho]
      rw [hr]
      have hf : ∃ d, fillTable nm (x :: T) ws = x.entry d :: fillTable nm T ws := by
        rw [fillTable_cons]
        cases nm x.name with
        | some u => exact ⟨_, rfl⟩
        | none =>
          cases hb : x.byPlace with
          | false => exact ⟨none, rfl⟩
          | true => rw [hp hb]; exact ⟨none, rfl⟩
      obtain ⟨d, hf⟩ := hf
      rw [hf]
      exact ⟨⟨d, (hc d _).1⟩, (hc d _).2⟩
    · have hxT : x ∈ T := by
        rcases List.mem_cons.1 hx with h | h
        · subst h; exact absurd hw hk
        · exact h
      have hne : a.name ≠ x.name := fun e => hd.1 x hxT (by rw [e])
      have hs : setNamed nm x.name v a.name = nm a.name := by simp [setNamed, hne]
      have hc : ∀ (d : Option (Option Str)) (r r' : List Arg),
          ((∃ d, r.find? (·.isKeyword w) = some (x.entry d)) ∧ setFirst (·.isKeyword w) (valData (some v)) r = some r') →
          (∃ e, (a.entry d :: r).find? (·.isKeyword w) = some (x.entry e)) ∧
          setFirst (·.isKeyword w) (valData (some v)) (a.entry d :: r) = some (a.entry d :: r') := by
        intro d r r' ⟨h1, h2⟩
        rw [List.find?_cons, setFirst, entry_keyword, decide_eq_false hk]
        refine ⟨h1, ?_⟩
        rw [if_neg (by decide), h2]
        rfl
      rw [fillTable_cons, fillTable_cons, hs]
      cases nm a.name with
      | some u => exact hc _ _ _ (ih ws hd.2 hxT hp)
      | none =>
        cases hb : a.byPlace with
        | false => exact hc _ _ _ (ih ws hd.2 hxT hp)
        | true =>
          cases ws with
          | nil => exact hc _ _ _ (ih [] hd.2 hxT fun _ => rfl)
          | cons y ws => exact hc _ _ _ (ih ws hd.2 hxT fun h => by cases hp h)

theorem fill_unknown (nm : Str → Option (Option Str)) (w : Str) : ∀ (T : List ToolArg) (ws : List Str),
    (∀ a ∈ T, w.map lower ≠ a.name.map lower) → (fillTable nm T ws).find? (·.isKeyword w) = none := by
  intro T
  induction T with
  | nil => intro ws _; rfl
  | cons a T ih =>
    intro ws h
    have iht := fun ws => ih ws fun b hb => h b (by simp [hb])
    have hc : ∀ (d : Option (Option Str)) (r : List Arg), r.find? (·.isKeyword w) = none → (a.entry d :: r).find? (·.isKeyword w) = none := by
      intro d r hr
      rw [List.find?_cons, entry_keyword, decide_eq_false (h a (by simp))]
      exact hr
    rw [fillTable_cons]
    cases nm a.name with
    | some u => exact hc _ _ (iht ws)
    | none =>
      cases hb : a.byPlace with
      | false => exact hc _ _ (iht ws)
      | true =>
        cases ws with
        | nil => exact hc _ _ (iht [])
        | cons y ws => exact hc _ _ (iht ws)

/-- The values by name after further parts. -/
def addNamed (nm : Str → Option (Option Str)) : List CmdPart → Str → Option (Option Str)
  | [] => nm
  | .named n v :: p => addNamed (setNamed nm n v) p
  | .word _ :: p => addNamed nm p

theorem addNamed_places (T : List ToolArg) : ∀ (p : List CmdPart) (nm : Str → Option (Option Str)),
    (∀ a ∈ T, a.byPlace = true → ∀ v, CmdPart.named a.name v ∉ p) → places (addNamed nm p) T = places nm T := by
  have key : ∀ (p : List CmdPart) (nm : Str → Option (Option Str)) (n : Str), (∀ v, CmdPart.named n v ∉ p) → addNamed nm p n = nm n := by
    intro p
    induction p with
    | nil => intro nm n _; rfl
    | cons x p ih =>
      intro nm n h
      have h' : ∀ v, CmdPart.named n v ∉ p := fun v hm => h v (by simp [hm])
      cases x with
      | word w => exact ih nm n h'
      | named m v =>
        rw [addNamed, ih _ n h']
        have : n ≠ m := fun e => h v (by simp [e])
        simp [setNamed, this]
  intro p nm h
  unfold places
  congr 1
  apply List.filter_congr
  intro a ha
  cases hb : a.byPlace with
  | false => rfl
  | true => rw [key p nm a.name (h a ha hb)]

theorem parse_parts {T : List ToolArg} (hT : DistinctNames T) {argv : List Str} {p : List CmdPart} (h : PartsOf T argv p) :
    ∀ (nm : Str → Option (Option Str)) (ws : List Str), NamesFirst T p → (ws ≠ [] → ∀ a ∈ T, a.byPlace = true → ∀ v, CmdPart.named a.name v ∉ p) →
      ws.length ≤ places nm T →
      parseLoop (fillTable nm T ws) argv =
        if (ws ++ bareWords p).length ≤ places (addNamed nm p) T then some (fillTable (addNamed nm p) T (ws ++ bareWords p)) else none := by
  induction h with
  | nil =>
    intro nm ws _ _ hl
    rw [parseLoop.eq_def]
    simp [bareWords, addNamed, hl]
  | @switch w a r p ha hk hw _ ih =>
    intro nm ws hn hws hl
    have hpl : a.byPlace = true → ws = [] := by
      intro hb
      cases ws with
      | nil => rfl
      | cons y ws => exact absurd (List.mem_cons_self) (hws (by simp) a ha hb none)
    obtain ⟨⟨d, h1⟩, h2⟩ := fill_named nm w none a hw T ws hT ha hpl
    rw [parseLoop.eq_def]
    dsimp only
    rw [h1]
    dsimp only [ToolArg.entry]
    rw [hk]
    dsimp only
    have h2' : setFirst (·.isKeyword w) .flag (fillTable nm T ws) = some (fillTable (setNamed nm a.name none) T ws) := h2
    rw [h2']
    dsimp only
    refine ih _ _ hn (fun hne b hb hbp v hm => hws hne b hb hbp v (by simp [hm])) ?_
    cases ws with
    | nil => simp
    | cons y ws =>
      have hba : a.byPlace = false := by
        cases hb : a.byPlace with
        | false => rfl
        | true => cases hpl hb
      have : places (setNamed nm a.name none) T = places nm T := by
        have := addNamed_places T [.named a.name none] nm (fun b hb hbp v hm => hws (by simp) b hb hbp v (by simp only [List.mem_singleton] at hm; rw [hm]; simp))
        exact this
      rw [this]
      exact hl
  | @value w a v r p ha hk hw _ ih =>
    intro nm ws hn hws hl
    have hpl : a.byPlace = true → ws = [] := by
      intro hb
      cases ws with
      | nil => rfl
      | cons y ws => exact absurd (List.mem_cons_self) (hws (by simp) a ha hb (some v))
    obtain ⟨⟨d, h1⟩, h2⟩ := fill_named nm w (some v) a hw T ws hT ha hpl
    rw [parseLoop.eq_def]
    dsimp only
    rw [h1]
    dsimp only [ToolArg.entry]
    rw [hk]
    dsimp only
    have h2' : setFirst (·.isKeyword w) (.str v) (fillTable nm T ws) = some (fillTable (setNamed nm a.name (some v)) T ws) := h2
    rw [h2']
    dsimp only
    refine ih _ _ hn (fun hne b hb hbp u hm => hws hne b hb hbp u (by simp [hm])) ?_
    cases ws with
    | nil => simp
    | cons y ws =>
      have : places (setNamed nm a.name (some v)) T = places nm T :=
        addNamed_places T [.named a.name (some v)] nm (fun b hb hbp u hm => hws (by simp) b hb hbp u (by simp only [List.mem_singleton] at hm; rw [hm]; simp))
      rw [this]
      exact hl
  | @word w r p hw _ ih =>
    intro nm ws hn hws hl
    rw [parseLoop.eq_def]
    dsimp only
    rw [fill_unknown nm w T ws hw, fill_word]
    dsimp only
    have hb : bareWords (.word w :: p) = w :: bareWords p := rfl
    have ha : addNamed nm (.word w :: p) = addNamed nm p := rfl
    rw [hb, ha, show ws ++ w :: bareWords p = (ws ++ [w]) ++ bareWords p by simp]
    by_cases hlt : ws.length < places nm T
    · rw [if_pos hlt]
      exact ih nm (ws ++ [w]) hn.2 (fun _ => hn.1) (by simp only [List.length_append, List.length_cons, List.length_nil]; omega)
    · rw [if_neg hlt, addNamed_places T p nm hn.1, if_neg (by simp only [List.length_append, List.length_cons, List.length_nil]; omega)]

theorem parse_noParts {T : List ToolArg} : ∀ (k : Nat) (argv : List Str), argv.length ≤ k →
    (¬ ∃ p, PartsOf T argv p) → ∃ pre w a, argv = pre ++ [w] ∧ a ∈ T ∧ a.kind = .string ∧ w.map lower = a.name.map lower ∧ ∃ p, PartsOf T pre p := by
  intro k
  induction k with
  | zero =>
    intro argv h hn
    have : argv = [] := List.length_eq_zero_iff.1 (by omega)
    subst this
    exact absurd ⟨[], .nil⟩ hn
  | succ k ih =>
    intro argv h hn
    cases argv with
    | nil => exact absurd ⟨[], .nil⟩ hn
    | cons w r =>
      simp only [List.length_cons] at h
      by_cases hw : ∃ a ∈ T, w.map lower = a.name.map lower
      · obtain ⟨a, ha, he⟩ := hw
        cases hk : a.kind with
        | bool =>
          obtain ⟨pre, x, b, e, hb, hbk, hx, p, hp⟩ := ih r (by omega) fun ⟨p, hp⟩ => hn ⟨_, .switch ha hk he hp⟩
          exact ⟨w :: pre, x, b, by rw [e]; rfl, hb, hbk, hx, _, .switch ha hk he hp⟩
        | string =>
          cases r with
          | nil => exact ⟨[], w, a, rfl, ha, hk, he, [], .nil⟩
          | cons v r =>
            simp only [List.length_cons] at h
            obtain ⟨pre, x, b, e, hb, hbk, hx, p, hp⟩ := ih r (by omega) fun ⟨p, hp⟩ => hn ⟨_, .value ha hk he hp⟩
            exact ⟨w :: v :: pre, x, b, by rw [e]; rfl, hb, hbk, hx, _, .value ha hk he hp⟩
      · have hw' : ∀ a ∈ T, w.map lower ≠ a.name.map lower := fun a ha he => hw ⟨a, ha, he⟩
        obtain ⟨pre, x, b, e, hb, hbk, hx, p, hp⟩ := ih r (by omega) fun ⟨p, hp⟩ => hn ⟨_, .word hw' hp⟩
        exact ⟨w :: pre, x, b, by rw [e]; rfl, hb, hbk, hx, _, .word hw' hp⟩

end CM
