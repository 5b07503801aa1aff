import Verif.Spec.Main
import Verif.Model.CrashWrite
import Verif.Model.CrashExport
import Verif.Lemmas.Main

/-! # Arguments with names: CrashWrite and CrashExport (C89, C90) -/

set_option linter.unusedSimpArgs false

namespace CM

/-- A table of named arguments: name, kind, whether it must be given. -/
abbrev ArgNames := List (Str × ArgType × Bool)

/-- The names differ, in whatever case they are written. -/
def ArgNames.Distinct (T : ArgNames) : Prop := T.Pairwise fun a b => a.1.map lower ≠ b.1.map lower

/-- The arguments of a command line, in any order, with names in upper or lower case. -/
inductive GivenArgs (T : ArgNames) : List Str → List (Str × Option Str) → Prop where
  | nil : GivenArgs T [] []
  | switch {w n m r o} : (n, ArgType.bool, m) ∈ T → w.map lower = n.map lower → GivenArgs T r o → GivenArgs T (w :: r) ((n, none) :: o)
  | value {w n m v r o} : (n, ArgType.string, m) ∈ T → w.map lower = n.map lower → GivenArgs T r o → GivenArgs T (w :: v :: r) ((n, some v) :: o)

/-- The table with values. -/
def ArgNames.filled (T : ArgNames) (D : Str → ArgData) : List Arg := T.map fun x => ⟨x.2.1, some x.1, false, x.2.2, D x.1⟩

theorem filled_set (D : Str → ArgData) (w : Str) (d : ArgData) : ∀ (T : ArgNames), T.Distinct → ∀ x ∈ T, w.map lower = x.1.map lower →
    (T.filled D).find? (·.isKeyword w) = some ⟨x.2.1, some x.1, false, x.2.2, D x.1⟩ ∧
    setFirst (·.isKeyword w) d (T.filled D) = some (T.filled (upd D x.1 d)) := by
  intro T
  unfold ArgNames.Distinct ArgNames.filled
  induction T with
  | nil => intro _ x hx; cases hx
  | cons a r ih =>
    intro hp x hx hw
    rw [List.pairwise_cons] at hp
    rw [List.map_cons, List.find?_cons, setFirst]
    by_cases hk : w.map lower = a.1.map lower
    · have hxa : x = a := by
        rcases List.mem_cons.1 hx with h | h
        · exact h
        · exact absurd (hk.symm.trans hw) (hp.1 x h)
      subst hxa
      have e : Arg.isKeyword ⟨x.2.1, some x.1, false, x.2.2, D x.1⟩ w = true := by simp [Arg.isKeyword, eqi, hk]
      rw [e]
      refine ⟨rfl, ?_⟩
      rw [if_pos rfl, List.map_cons]
      congr 1
      congr 1
      · simp [upd]
      · apply List.map_congr_left
        intro y hy
        have : y.1 ≠ x.1 := fun e => hp.1 y hy (by rw [e])
        simp [upd, this]
    · have e : Arg.isKeyword ⟨a.2.1, some a.1, false, a.2.2, D a.1⟩ w = false := by simp [Arg.isKeyword, eqi, hk]
      have hxr : x ∈ r := by
        rcases List.mem_cons.1 hx with h | h
        · subst h; exact absurd hw hk
        · exact h
      obtain ⟨h1, h2⟩ := ih hp.2 x hxr hw
      rw [e]
      refine ⟨h1, ?_⟩
      rw [if_neg (by decide), h2, Option.map_some, List.map_cons]
      congr 2
      have : a.1 ≠ x.1 := fun e => hp.1 x hxr (by rw [e])
      simp [upd, this]

theorem filled_unknown (T : ArgNames) (D : Str → ArgData) (w : Str) (h : ∀ x ∈ T, w.map lower ≠ x.1.map lower) :
    (T.filled D).find? (·.isKeyword w) = none ∧ setFirst Arg.isFree (.str w) (T.filled D) = none := by
  constructor
  · rw [List.find?_eq_none]
    intro a ha
    obtain ⟨x, hx, rfl⟩ := List.mem_map.1 ha
    simp [Arg.isKeyword, eqi, h x hx]
  · clear h
    unfold ArgNames.filled
    induction T with
    | nil => rfl
    | cons a r ih =>
      rw [List.map_cons, setFirst, if_neg (by simp [Arg.isFree]), ih]
      rfl

theorem parseLoop_given {T : ArgNames} (hT : T.Distinct) {argv : List Str} {o : List (Str × Option Str)} (h : GivenArgs T argv o) :
    ∀ D, parseLoop (T.filled D) argv = some (T.filled (optData D o)) := by
  induction h with
  | nil => intro D; rw [parseLoop.eq_def]; rfl
  | @switch w n m r o hn hw _ ih =>
    intro D
    obtain ⟨h1, h2⟩ := filled_set D w .flag T hT _ hn hw
    rw [parseLoop.eq_def]
    dsimp only
    rw [h1]
    dsimp only
    rw [h2]
    exact ih _
  | @value w n m v r o hn hw _ ih =>
    intro D
    obtain ⟨h1, h2⟩ := filled_set D w (.str v) T hT _ hn hw
    rw [parseLoop.eq_def]
    dsimp only
    rw [h1]
    dsimp only
    rw [h2]
    exact ih _

theorem parseLoop_notGiven {T : ArgNames} (hT : T.Distinct) : ∀ (k : Nat) (argv : List Str) (D : Str → ArgData) (res : List Arg), argv.length ≤ k →
    parseLoop (T.filled D) argv = some res → ∃ o, GivenArgs T argv o := by
  intro k
  induction k with
  | zero =>
    intro argv D res h _
    have : argv = [] := List.length_eq_zero_iff.1 (by omega)
    subst this
    exact ⟨[], .nil⟩
  | succ k ih =>
    intro argv D res h he
    cases argv with
    | nil => exact ⟨[], .nil⟩
    | cons w r =>
      simp only [List.length_cons] at h
      by_cases hk : ∃ x ∈ T, w.map lower = x.1.map lower
      · obtain ⟨⟨n, t, m⟩, hx, hw⟩ := hk
        rw [parseLoop.eq_def] at he
        dsimp only at he
        cases t with
        | bool =>
          obtain ⟨h1, h2⟩ := filled_set D w .flag T hT _ hx hw
          rw [h1] at he
          dsimp only at he
          rw [h2] at he
          obtain ⟨o, ho⟩ := ih _ _ _ (by omega) he
          exact ⟨_, .switch hx hw ho⟩
        | string =>
          cases r with
          | nil => rw [(filled_set D w .flag T hT _ hx hw).1] at he; cases he
          | cons v r =>
            obtain ⟨h1, h2⟩ := filled_set D w (.str v) T hT _ hx hw
            rw [h1] at he
            dsimp only at he
            rw [h2] at he
            simp only [List.length_cons] at h
            obtain ⟨o, ho⟩ := ih _ _ _ (by omega) he
            exact ⟨_, .value hx hw ho⟩
      · obtain ⟨h1, h2⟩ := filled_unknown T D w (fun x hx e => hk ⟨x, hx, e⟩)
        rw [parseLoop.eq_def] at he
        dsimp only at he
        rw [h1] at he
        dsimp only at he
        rw [h2] at he
        cases he

/-- What an argument holds after the options. -/
theorem optData_eq (o : List (Str × Option Str)) : ∀ (D : Str → ArgData) (n : Str),
    optData D o n = match o.reverse.find? (fun x => x.1 == n) with
      | none => D n
      | some (_, none) => .flag
      | some (_, some v) => .str v := by
  induction o with
  | nil => intro D n; rfl
  | cons x r ih =>
    intro D n
    obtain ⟨m, v⟩ := x
    show optData (upd D m (match v with | none => .flag | some s => .str s)) r n = _
    rw [ih, List.reverse_cons, List.find?_append]
    cases hf : r.reverse.find? (fun x => x.1 == n) with
    | some y => obtain ⟨k, z⟩ := y; cases z <;> rfl
    | none =>
      rw [Option.none_or]
      by_cases hm : m = n
      · subst hm
        cases v <;> simp [upd]
      · have hm' : ¬ n = m := fun e => hm e.symm
        simp [upd, hm, hm']

theorem given_kind {T : ArgNames} {argv : List Str} {o : List (Str × Option Str)} (h : GivenArgs T argv o) :
    ∀ x ∈ o, (x.2 = none ∧ ∃ m, (x.1, ArgType.bool, m) ∈ T) ∨ ((∃ v, x.2 = some v) ∧ ∃ m, (x.1, ArgType.string, m) ∈ T) := by
  induction h with
  | nil => intro x hx; cases hx
  | switch hn _ _ ih =>
    intro x hx
    rcases List.mem_cons.1 hx with rfl | hx
    · exact .inl ⟨rfl, _, hn⟩
    · exact ih x hx
  | value hn _ _ ih =>
    intro x hx
    rcases List.mem_cons.1 hx with rfl | hx
    · exact .inr ⟨⟨_, rfl⟩, _, hn⟩
    · exact ih x hx

theorem distinct_same {T : ArgNames} (hT : T.Distinct) {n : Str} {a b : ArgType × Bool} (ha : (n, a) ∈ T) (hb : (n, b) ∈ T) : a = b := by
  unfold ArgNames.Distinct at hT
  induction T with
  | nil => cases ha
  | cons x r ih =>
    rw [List.pairwise_cons] at hT
    rcases List.mem_cons.1 ha with h1 | h1 <;> rcases List.mem_cons.1 hb with h2 | h2
    · rw [← h1] at h2; cases h2; rfl
    · exact absurd (by rw [← h1]) (hT.1 _ h2)
    · exact absurd (by rw [← h2]) (hT.1 _ h1)
    · exact ih hT.2 h1 h2

/-- A string argument has the value given last; a switch is set when it is named. -/
theorem optData_value {T : ArgNames} (hT : T.Distinct) {argv : List Str} {o : List (Str × Option Str)} (h : GivenArgs T argv o) {n : Str} {m : Bool}
    (hn : (n, ArgType.string, m) ∈ T) : optData (fun _ => .none) o n = match optionValue o n with | none => .none | some v => .str v := by
  rw [optData_eq]
  unfold optionValue
  cases hf : o.reverse.find? (fun x => x.1 == n) with
  | none => rfl
  | some y =>
    obtain ⟨k, v⟩ := y
    have hk : k = n := by have := List.find?_some hf; simpa using this
    subst hk
    have hm := List.mem_reverse.1 (List.mem_of_find?_eq_some hf)
    rcases given_kind h _ hm with ⟨-, m', h2⟩ | ⟨⟨w, h1⟩, -⟩
    · have := distinct_same hT hn h2; simp at this
    · simp only at h1; subst h1; rfl

theorem optData_switch {T : ArgNames} (hT : T.Distinct) {argv : List Str} {o : List (Str × Option Str)} (h : GivenArgs T argv o) {n : Str} {m : Bool}
    (hn : (n, ArgType.bool, m) ∈ T) : optData (fun _ => .none) o n = if hasOption o n then .flag else .none := by
  rw [optData_eq]
  unfold hasOption
  cases hf : o.reverse.find? (fun x => x.1 == n) with
  | none =>
    rw [List.find?_eq_none] at hf
    rw [if_neg]
    intro e
    obtain ⟨x, hx, he⟩ := List.any_eq_true.1 e
    exact hf x (List.mem_reverse.2 hx) he
  | some y =>
    obtain ⟨k, v⟩ := y
    have hk : k = n := by have := List.find?_some hf; simpa using this
    subst hk
    have hm := List.mem_reverse.1 (List.mem_of_find?_eq_some hf)
    rw [if_pos (List.any_eq_true.2 ⟨_, hm, by simp⟩)]
    rcases given_kind h _ hm with ⟨h1, -⟩ | ⟨-, m', h2⟩
    · simp only at h1; subst h1; rfl
    · have := distinct_same hT hn h2; simp at this

/-! ## CrashWrite -/

/-- The arguments of CrashWrite; only the directory has to be given. -/
def writeNames : ArgNames :=
  [(b!"FROMNAME", .string, false), (b!"FROMADDR", .string, false), (b!"TONAME", .string, false), (b!"TOADDR", .string, false),
   (b!"SUBJECT", .string, false), (b!"AREA", .string, false), (b!"ORIGIN", .string, false), (b!"DIR", .string, true), (b!"TEXT", .string, false),
   (b!"NOMSGID", .bool, false), (b!"FILEATTACH", .bool, false), (b!"PKTFROMADDR", .string, false), (b!"PKTTOADDR", .string, false),
   (b!"PASSWORD", .string, false)]

/-- What the arguments ask for. -/
def argsAsked (o : List (Str × Option Str)) : WriteArgs where
  fromName := optionValue o b!"FROMNAME"
  fromAddr := optionValue o b!"FROMADDR"
  toName := optionValue o b!"TONAME"
  toAddr := optionValue o b!"TOADDR"
  subject := optionValue o b!"SUBJECT"
  area := optionValue o b!"AREA"
  origin := optionValue o b!"ORIGIN"
  dir := (optionValue o b!"DIR").getD []
  text := optionValue o b!"TEXT"
  noMsgid := hasOption o b!"NOMSGID"
  fileAttach := hasOption o b!"FILEATTACH"
  pktFrom := optionValue o b!"PKTFROMADDR"
  pktTo := optionValue o b!"PKTTOADDR"
  password := optionValue o b!"PASSWORD"

theorem writeNames_distinct : writeNames.Distinct := by unfold ArgNames.Distinct; decide +kernel

theorem cwTable_filled : cwTable = writeNames.filled fun _ => .none := by decide +kernel

theorem str_of (x : Option Str) (t : ArgType) (n : Option Str) (a m : Bool) (l : List Arg) (i : Nat)
    (h : l[i]? = some ⟨t, n, a, m, match x with | none => .none | some v => .str v⟩) : argStr l i = x := by
  unfold argStr
  rw [h]
  cases x <;> rfl

theorem set_of (b : Bool) (t : ArgType) (n : Option Str) (a m : Bool) (l : List Arg) (i : Nat)
    (h : l[i]? = some ⟨t, n, a, m, if b then .flag else .none⟩) : argSet l i = b := by
  unfold argSet
  rw [h]
  cases b <;> rfl

theorem filled_get {T : ArgNames} {D : Str → ArgData} {i : Nat} {n : Str} {t : ArgType} {m : Bool} (h : T[i]? = some (n, t, m)) :
    (T.filled D)[i]? = some ⟨t, some n, false, m, D n⟩ := by
  unfold ArgNames.filled
  rw [List.getElem?_map, h]
  rfl

/-- C89. The arguments of CrashWrite may come in any order and case; the last one of a name counts. A
command line is taken exactly when it consists of these arguments and names a directory. -/
theorem write_arguments (argv : List Str) (o : List (Str × Option Str)) (h : GivenArgs writeNames argv o) :
    (parseArgs cwTable argv).map writeArgs = if hasOption o b!"DIR" = true then some (argsAsked o) else none := by
  have hT := writeNames_distinct
  have hs : ∀ i n m, writeNames[i]? = some (n, ArgType.string, m) → argStr (writeNames.filled (optData (fun _ => .none) o)) i = optionValue o n := by
    intro i n m hi
    have hm : (n, ArgType.string, m) ∈ writeNames := List.mem_of_getElem? hi
    exact str_of _ _ _ _ _ _ _ (by rw [filled_get hi, optData_value hT h hm])
  have hb : ∀ i n m, writeNames[i]? = some (n, ArgType.bool, m) → argSet (writeNames.filled (optData (fun _ => .none) o)) i = hasOption o n := by
    intro i n m hi
    have hm : (n, ArgType.bool, m) ∈ writeNames := List.mem_of_getElem? hi
    exact set_of _ _ _ _ _ _ _ (by rw [filled_get hi, optData_switch hT h hm])
  unfold parseArgs
  rw [cwTable_filled, parseLoop_given hT h]
  dsimp only
  have hdir : (writeNames.filled (optData (fun _ => .none) o)).any (fun a => a.mandatory && a.data == .none) = !hasOption o b!"DIR" := by
    have e := optData_value hT h (n := b!"DIR") (m := true) (by decide +kernel)
    have hv : (optionValue o b!"DIR").isSome = hasOption o b!"DIR" := by
      unfold optionValue hasOption
      cases hf : o.reverse.find? (fun x => x.1 == b!"DIR") with
      | none =>
        rw [List.find?_eq_none] at hf
        symm
        rw [Option.bind_none, Option.isSome_none, List.any_eq_false]
        intro x hx
        exact hf x (List.mem_reverse.2 hx)
      | some y =>
        have hm := List.mem_reverse.1 (List.mem_of_find?_eq_some hf)
        have hy := List.find?_some hf
        rw [List.any_eq_true.2 ⟨_, hm, hy⟩]
        rcases given_kind h _ hm with ⟨-, m', h2⟩ | ⟨⟨w, h1⟩, -⟩
        · have hy' : y.1 = b!"DIR" := by simpa using hy
          rw [hy'] at h2
          have := distinct_same hT (n := b!"DIR") (a := (.string, true)) (by decide +kernel) h2
          simp at this
        · rw [Option.bind_some, h1]; rfl
    rw [← hv]
    unfold ArgNames.filled writeNames
    simp only [List.map_cons, List.map_nil, List.any_cons, List.any_nil, Bool.false_and, Bool.false_or, Bool.true_and, Bool.or_false]
    rw [e]
    cases optionValue o b!"DIR" <;> rfl
  rw [hdir]
  cases hd : hasOption o b!"DIR" with
  | false => rfl
  | true =>
    simp only [Bool.not_true, Bool.false_eq_true, if_false, if_true, Option.map_some, Option.some.injEq]
    unfold writeArgs argsAsked
    rw [hs 0 _ _ rfl, hs 1 _ _ rfl, hs 2 _ _ rfl, hs 3 _ _ rfl, hs 4 _ _ rfl, hs 5 _ _ rfl, hs 6 _ _ rfl, hs 7 _ _ rfl, hs 8 _ _ rfl,
      hb 9 _ _ rfl, hb 10 _ _ rfl, hs 11 _ _ rfl, hs 12 _ _ rfl, hs 13 _ _ rfl]

theorem write_refuses (argv : List Str) (h : ¬ ∃ o, GivenArgs writeNames argv o) : parseArgs cwTable argv = none := by
  unfold parseArgs
  cases hp : parseLoop cwTable argv with
  | none => rfl
  | some res =>
    rw [cwTable_filled] at hp
    exact absurd (parseLoop_notGiven writeNames_distinct _ _ _ _ (Nat.le_refl _) hp) h

/-! ## CrashExport -/

/-- The names of the formats. -/
def XFormat.name : XFormat → Str
  | .areasBbs => b!"AREASBBS"
  | .forward => b!"FORWARD"
  | .forwardNoDesc => b!"FORWARDNODESC"
  | .golded => b!"GOLDED"
  | .timed => b!"TIMED"

/-- C90. The format is the one named, in upper or lower case; other words are refused. -/
theorem export_format (w : Str) (f : XFormat) : cxFormat w = some f ↔ w.map lower = f.name.map lower := by
  have hd : ∀ f g : XFormat, f.name.map lower = g.name.map lower → f = g := by
    intro f g; cases f <;> cases g <;> decide
  have he : ∀ (f : XFormat) (k : Str), k.map lower = f.name.map lower → (eqi w k = true ↔ w.map lower = f.name.map lower) := by
    intro f k hk
    unfold eqi
    rw [beq_iff_eq, hk]
  have h1 := he .areasBbs b!"areasbbs" (by decide)
  have h2 := he .forward b!"forward" (by decide)
  have h3 := he .forwardNoDesc b!"forwardnodesc" (by decide)
  have h4 := he .golded b!"golded" (by decide)
  have h5 := he .timed b!"timed" (by decide)
  unfold cxFormat
  have key : ∀ g : XFormat, w.map lower = g.name.map lower → (some g = some f ↔ w.map lower = f.name.map lower) := by
    intro g hg
    rw [Option.some.injEq]
    exact ⟨fun e => e ▸ hg, fun e => hd g f (hg.symm.trans e)⟩
  split
  · next h => exact key _ (h1.1 h)
  split
  · next h => exact key _ (h2.1 h)
  split
  · next h => exact key _ (h3.1 h)
  split
  · next h => exact key _ (h4.1 h)
  split
  · next h => exact key _ (h5.1 h)
  · next n1 n2 n3 n4 n5 =>
    constructor
    · intro h; cases h
    · intro h
      cases f
      · exact absurd (h1.2 h) n1
      · exact absurd (h2.2 h) n2
      · exact absurd (h3.2 h) n3
      · exact absurd (h4.2 h) n4
      · exact absurd (h5.2 h) n5

namespace Ex

/-- A command line with names in any case and one given twice. -/
theorem write_args_example : ∃ o, GivenArgs writeNames [b!"dir", b!"/in", b!"Subject", b!"one", b!"NoMsgId", b!"SUBJECT", b!"two"] o ∧
    (argsAsked o).subject = some b!"two" ∧ (argsAsked o).dir = b!"/in" ∧ (argsAsked o).noMsgid = true ∧ (argsAsked o).fileAttach = false :=
  ⟨[(b!"DIR", some b!"/in"), (b!"SUBJECT", some b!"one"), (b!"NOMSGID", none), (b!"SUBJECT", some b!"two")],
    .value (m := true) (by decide +kernel) (by decide) (.value (m := false) (by decide +kernel) (by decide)
      (.switch (m := false) (by decide +kernel) (by decide) (.value (m := false) (by decide +kernel) (by decide) .nil))),
    by decide +kernel, by decide +kernel, by decide +kernel, by decide +kernel⟩

end Ex

end CM
