import Verif.Spec.Main
import Verif.Lemmas.Disk
import Verif.Props.Search
/-! # The main program of CrashMail -/

set_option linter.unusedSimpArgs false

namespace CM

/-! ## The command line -/

/-- The arguments with their values. -/
def argsWith (D : Str → ArgData) : List Arg := cmArgNames.map fun x => ⟨x.2, some x.1, false, false, D x.1⟩

def upd (D : Str → ArgData) (n : Str) (d : ArgData) : Str → ArgData := fun m => if m = n then d else D m

theorem cmNames_distinct : cmArgNames.Pairwise fun a b => a.1.map lower ≠ b.1.map lower := by decide +kernel

theorem setFirst_names (D : Str → ArgData) (w : Str) (d : ArgData) : ∀ (l : List (Str × ArgType)),
    l.Pairwise (fun a b => a.1.map lower ≠ b.1.map lower) → ∀ x ∈ l, w.map lower = x.1.map lower →
    (l.map fun x => (⟨x.2, some x.1, false, false, D x.1⟩ : Arg)).find? (·.isKeyword w) = some ⟨x.2, some x.1, false, false, D x.1⟩ ∧
    setFirst (·.isKeyword w) d (l.map fun x => (⟨x.2, some x.1, false, false, D x.1⟩ : Arg)) =
      some (l.map fun y => (⟨y.2, some y.1, false, false, upd D x.1 d y.1⟩ : Arg)) := by
  intro l
  induction l with
  | nil => intro _ x hx; cases hx
  | cons a r ih =>
    intro hp x hx hw
    rw [List.pairwise_cons] at hp
    rw [List.map_cons, List.find?_cons, setFirst]
    by_cases hk : w.map lower = a.1.map lower
    · have hxa : x = a := by
        rcases List.mem_cons.1 hx with h | h
        · exact h
        · exact absurd (hk.symm.trans hw) (hp.1 x h)
      subst hxa
      have e : Arg.isKeyword ⟨x.2, some x.1, false, false, D x.1⟩ w = true := by simp [Arg.isKeyword, eqi, hk]
      rw [e]
      refine ⟨rfl, ?_⟩
      rw [if_pos rfl, List.map_cons]
      congr 1
      congr 1
      · simp [upd]
      · apply List.map_congr_left
        intro y hy
        have : y.1 ≠ x.1 := fun e => hp.1 y hy (by rw [e])
        simp [upd, this]
    · have e : Arg.isKeyword ⟨a.2, some a.1, false, false, D a.1⟩ w = false := by simp [Arg.isKeyword, eqi, hk]
      have hxr : x ∈ r := by
        rcases List.mem_cons.1 hx with h | h
        · subst h; exact absurd hw hk
        · exact h
      obtain ⟨h1, h2⟩ := ih hp.2 x hxr hw
      rw [e]
      refine ⟨h1, ?_⟩
      rw [if_neg (by decide), h2, Option.map_some, List.map_cons]
      congr 2
      have : a.1 ≠ x.1 := fun e => hp.1 x hxr (by rw [e])
      simp [upd, this]

theorem find_none (D : Str → ArgData) (w : Str) (h : ∀ x ∈ cmArgNames, w.map lower ≠ x.1.map lower) :
    (argsWith D).find? (·.isKeyword w) = none ∧ setFirst Arg.isFree (.str w) (argsWith D) = none := by
  constructor
  · rw [List.find?_eq_none]
    intro a ha
    obtain ⟨x, hx, rfl⟩ := List.mem_map.1 ha
    simp [Arg.isKeyword, eqi, h x hx]
  · have : ∀ l : List (Str × ArgType), setFirst Arg.isFree (.str w) (l.map fun x => (⟨x.2, some x.1, false, false, D x.1⟩ : Arg)) = none := by
      intro l
      induction l with
      | nil => rfl
      | cons a r ih =>
        rw [List.map_cons, setFirst, if_neg (by simp [Arg.isFree]), ih]
        rfl
    exact this _

/-- The values after the options `o`. -/
def optData (D : Str → ArgData) : List (Str × Option Str) → Str → ArgData
  | [] => D
  | (n, v) :: r => optData (upd D n (match v with | none => .flag | some s => .str s)) r

theorem names_split (x : Str × ArgType) : x ∈ cmArgNames ↔ (x.1 ∈ switchNames ∧ x.2 = .bool) ∨ (x.1 ∈ valueNames ∧ x.2 = .string) := by
  obtain ⟨n, t⟩ := x
  constructor
  · intro h
    have : ∀ x ∈ cmArgNames, (x.1 ∈ switchNames ∧ x.2 = .bool) ∨ (x.1 ∈ valueNames ∧ x.2 = .string) := by decide +kernel
    exact this _ h
  · rintro (⟨h, h'⟩ | ⟨h, h'⟩)
    · have : ∀ n ∈ switchNames, (n, ArgType.bool) ∈ cmArgNames := by decide +kernel
      have := this n h
      simp only at h'; subst h'; exact this
    · have : ∀ n ∈ valueNames, (n, ArgType.string) ∈ cmArgNames := by decide +kernel
      have := this n h
      simp only at h'; subst h'; exact this

/-- The parser reads exactly the command lines that consist of options. -/
theorem parseLoop_options (D : Str → ArgData) (k : Nat) : ∀ (argv : List Str) (D : Str → ArgData), argv.length ≤ k →
    (∀ o, Options argv o → parseLoop (argsWith D) argv = some (argsWith (optData D o))) ∧
    ((¬ ∃ o, Options argv o) → parseLoop (argsWith D) argv = none) := by
  clear D
  induction k with
  | zero =>
    intro argv D h
    have : argv = [] := List.length_eq_zero_iff.1 (by omega)
    subst this
    exact ⟨fun o ho => by cases ho; simp [parseLoop, optData], fun h => absurd ⟨[], .nil⟩ h⟩
  | succ k ih =>
    intro argv D h
    cases argv with
    | nil => exact ⟨fun o ho => by cases ho; simp [parseLoop, optData], fun h => absurd ⟨[], .nil⟩ h⟩
    | cons w r =>
      simp only [List.length_cons] at h
      by_cases hk : ∃ x ∈ cmArgNames, w.map lower = x.1.map lower
      · obtain ⟨x, hx, hw⟩ := hk
        have uniq : ∀ n t, (n, t) ∈ cmArgNames → w.map lower = n.map lower → (n, t) = x := by
          intro n t hn hnw
          have := cmNames_distinct
          have key : ∀ a ∈ cmArgNames, ∀ b ∈ cmArgNames, a.1.map lower = b.1.map lower → a = b := by decide +kernel
          exact key _ hn _ hx (hnw.symm.trans hw)
        rcases (names_split x).1 hx with ⟨hs, ht⟩ | ⟨hs, ht⟩
        · obtain ⟨h1, h2⟩ := setFirst_names D w .flag cmArgNames cmNames_distinct x hx hw
          have step : parseLoop (argsWith D) (w :: r) = parseLoop (argsWith (upd D x.1 .flag)) r := by
            rw [parseLoop.eq_def]
            dsimp only
            rw [show (argsWith D).find? (·.isKeyword w) = _ from h1]
            dsimp only
            rw [ht]
            dsimp only
            rw [show setFirst (·.isKeyword w) .flag (argsWith D) = _ from h2]
            rfl
          have sub := ih r (upd D x.1 .flag) (by omega)
          constructor
          · intro o ho
            cases ho with
            | switch hn hnw ho' =>
              have := uniq _ _ ((names_split (_, .bool)).2 (.inl ⟨hn, rfl⟩)) hnw
              rw [step, sub.1 _ ho', ← this]
              rfl
            | value hn hnw ho' =>
              have := uniq _ _ ((names_split (_, .string)).2 (.inr ⟨hn, rfl⟩)) hnw
              rw [← this] at ht
              cases ht
          · intro hno
            rw [step]
            exact sub.2 fun ⟨o, ho⟩ => hno ⟨_, .switch hs hw ho⟩
        · cases r with
          | nil =>
            obtain ⟨h1, h2⟩ := setFirst_names D w .flag cmArgNames cmNames_distinct x hx hw
            constructor
            · intro o ho
              cases ho with
              | switch hn hnw ho' =>
                have := uniq _ _ ((names_split (_, .bool)).2 (.inl ⟨hn, rfl⟩)) hnw
                rw [← this] at ht
                cases ht
            · intro _
              rw [parseLoop.eq_def]
              dsimp only
              rw [show (argsWith D).find? (·.isKeyword w) = _ from h1]
              dsimp only
              rw [ht]
          | cons v r =>
            obtain ⟨h1, h2⟩ := setFirst_names D w (.str v) cmArgNames cmNames_distinct x hx hw
            have step : parseLoop (argsWith D) (w :: v :: r) = parseLoop (argsWith (upd D x.1 (.str v))) r := by
              rw [parseLoop.eq_def]
              dsimp only
              rw [show (argsWith D).find? (·.isKeyword w) = _ from h1]
              dsimp only
              rw [ht]
              dsimp only
              rw [show setFirst (·.isKeyword w) (.str v) (argsWith D) = _ from h2]
              rfl
            have sub := ih r (upd D x.1 (.str v)) (by simp only [List.length_cons] at h; omega)
            constructor
            · intro o ho
              cases ho with
              | switch hn hnw ho' =>
                have := uniq _ _ ((names_split (_, .bool)).2 (.inl ⟨hn, rfl⟩)) hnw
                rw [← this] at ht
                cases ht
              | value hn hnw ho' =>
                have := uniq _ _ ((names_split (_, .string)).2 (.inr ⟨hn, rfl⟩)) hnw
                rw [step, sub.1 _ ho', ← this]
                rfl
            · intro hno
              rw [step]
              exact sub.2 fun ⟨o, ho⟩ => hno ⟨_, .value hs hw ho⟩
      · have hk' : ∀ x ∈ cmArgNames, w.map lower ≠ x.1.map lower := fun x hx e => hk ⟨x, hx, e⟩
        obtain ⟨h1, h2⟩ := find_none D w hk'
        constructor
        · intro o ho
          cases ho with
          | switch hn hnw _ => exact absurd hnw (hk' _ ((names_split (_, .bool)).2 (.inl ⟨hn, rfl⟩)))
          | value hn hnw _ => exact absurd hnw (hk' _ ((names_split (_, .string)).2 (.inr ⟨hn, rfl⟩)))
        · intro _
          rw [parseLoop.eq_def]
          dsimp only
          rw [h1]
          dsimp only
          rw [h2]


/-- The kinds of the options. -/
theorem Options.kinds {argv o} (h : Options argv o) : ∀ x ∈ o, (x.1 ∈ switchNames ∧ x.2 = none) ∨ (x.1 ∈ valueNames ∧ ∃ v, x.2 = some v) := by
  induction h with
  | nil => intro x hx; cases hx
  | switch hn _ _ ih =>
    intro x hx
    rcases List.mem_cons.1 hx with rfl | hx
    · exact .inl ⟨hn, rfl⟩
    · exact ih x hx
  | value hn _ _ ih =>
    intro x hx
    rcases List.mem_cons.1 hx with rfl | hx
    · exact .inr ⟨hn, _, rfl⟩
    · exact ih x hx

theorem optData_find (n : Str) : ∀ (o : List (Str × Option Str)) (D : Str → ArgData), optData D o n =
    match o.reverse.find? (fun x => x.1 == n) with
    | none => D n
    | some (_, none) => .flag
    | some (_, some s) => .str s := by
  intro o
  induction o with
  | nil => intro D; rfl
  | cons x r ih =>
    intro D
    obtain ⟨m, v⟩ := x
    show optData (upd D m (match v with | none => .flag | some s => .str s)) r n = _
    rw [ih, List.reverse_cons, List.find?_append]
    cases hf : r.reverse.find? (fun x => x.1 == n) with
    | some y => obtain ⟨a, _ | b⟩ := y <;> rfl
    | none =>
      by_cases e : n = m
      · subst e
        cases v <;> simp [upd]
      · have : (m == n) = false := by simp [Ne.symm e]
        simp [upd, e, this]

theorem option_switch (o : List (Str × Option Str)) (n : Str) :
    (optData (fun _ => .none) o n ≠ .none) ↔ hasOption o n = true := by
  rw [optData_find]
  cases hf : o.reverse.find? (fun x => x.1 == n) with
  | none =>
    simp only [ne_eq, not_true, false_iff, hasOption, List.any_eq_true]
    rintro ⟨x, hx, e⟩
    have := List.find?_eq_none.1 hf x (by simp [hx])
    exact this e
  | some y =>
    have hy := List.mem_of_find?_eq_some hf
    have e := List.find?_some hf
    have : hasOption o n = true := List.any_eq_true.2 ⟨y, by simpa using hy, e⟩
    obtain ⟨m, v⟩ := y
    cases v <;> simp [this]

theorem option_value {argv o} (h : Options argv o) (n : Str) (hn : n ∈ valueNames) :
    (optData (fun _ => .none) o n).text = optionValue o n ∧ hasOption o n = (optionValue o n).isSome := by
  rw [optData_find]
  cases hf : o.reverse.find? (fun x => x.1 == n) with
  | none =>
    refine ⟨by simp [optionValue, hf, ArgData.text], ?_⟩
    simp only [optionValue, hf, Option.bind_none, Option.isSome_none, hasOption, List.any_eq_false]
    intro x hx e
    exact List.find?_eq_none.1 hf x (by simp [hx]) e
  | some y =>
    have hy := List.mem_of_find?_eq_some hf
    have e := List.find?_some hf
    have hh : hasOption o n = true := List.any_eq_true.2 ⟨y, by simpa using hy, e⟩
    obtain ⟨m, v⟩ := y
    have em : m = n := by simpa using e
    subst em
    rcases h.kinds (m, v) (by simpa using hy) with ⟨hs, _⟩ | ⟨_, s, hs⟩
    · have : ∀ n ∈ switchNames, n ∉ valueNames := by decide +kernel
      exact absurd hn (this m hs)
    · simp only at hs
      subst hs
      exact ⟨by simp [optionValue, hf, ArgData.text], by simp [optionValue, hf, hh]⟩

theorem argData_with (D : Str → ArgData) (i : Nat) (x : Str × ArgType) (h : cmArgNames[i]? = some x) : argData (argsWith D) i = D x.1 := by
  simp [argData, argsWith, List.getElem?_map, h]

theorem cmArgs_with : cmArgs = argsWith fun _ => .none := rfl

theorem noMandatory (D : Str → ArgData) : ∀ a ∈ argsWith D, a.mandatory = false := by
  intro a ha
  obtain ⟨x, _, rfl⟩ := List.mem_map.1 ha
  rfl

theorem firstOption_cons (o : List (Str × Option Str)) (n : Str) (r : List Str) :
    firstOption o (n :: r) = if hasOption o n = true then some (n, (optionValue o n).getD []) else firstOption o r := by
  unfold firstOption
  rw [List.find?_cons]
  cases hasOption o n <;> simp

theorem firstOption_nil (o : List (Str × Option Str)) : firstOption o [] = none := rfl

theorem commands_eq {argv o} (h : Options argv o) : mainCommands (argsWith (optData (fun _ => .none) o)) = commandsAsked o := by
  have sw := option_switch o
  have va := option_value h
  let D := optData (fun _ => ArgData.none) o
  have g : ∀ i x, cmArgNames[i]? = some x → argData (argsWith D) i = D x.1 := argData_with D
  have v : ∀ n ∈ valueNames, (D n).text = optionValue o n := fun n hn => (va n hn).1
  have e : ∀ n ∈ valueNames, hasOption o n = (optionValue o n).isSome := fun n hn => (va n hn).2
  show mainCommands (argsWith D) = _
  unfold mainCommands commandsAsked
  rw [g 0 _ rfl, g 1 _ rfl, g 2 _ rfl, g 3 _ rfl, g 4 _ rfl, g 5 _ rfl, g 6 _ rfl, g 7 _ rfl, g 8 _ rfl, g 9 _ rfl, g 10 _ rfl,
    g 11 _ rfl, g 12 _ rfl, g 13 _ rfl, g 14 _ rfl, g 15 _ rfl]
  simp only [sw b!"SCAN", sw b!"TOSS", D]
  rw [v b!"TOSSFILE" (by decide), v b!"TOSSDIR" (by decide), v b!"SCANAREA" (by decide), v b!"SCANLIST" (by decide),
    v b!"SCANDOTJAM" (by decide), v b!"RESCAN" (by decide), v b!"RESCANNODE" (by decide), v b!"RESCANMAX" (by decide),
    v b!"SENDQUERY" (by decide), v b!"SENDLIST" (by decide), v b!"SENDUNLINKED" (by decide), v b!"SENDHELP" (by decide),
    v b!"SENDINFO" (by decide), v b!"REMOVE" (by decide)]
  congr 1
  · rw [firstOption_cons, firstOption_cons, firstOption_nil, e b!"TOSSFILE" (by decide)]
    cases hasOption o b!"TOSS" with
    | true => rfl
    | false =>
      cases optionValue o b!"TOSSFILE" with
      | none => rfl
      | some x => simp [commandOf]
  · simp only [firstOption_cons, firstOption_nil, e b!"TOSSDIR" (by decide), e b!"SCANAREA" (by decide), e b!"SCANLIST" (by decide),
      e b!"SCANDOTJAM" (by decide), e b!"RESCAN" (by decide), e b!"SENDQUERY" (by decide), e b!"SENDLIST" (by decide),
      e b!"SENDUNLINKED" (by decide), e b!"SENDHELP" (by decide), e b!"SENDINFO" (by decide), e b!"REMOVE" (by decide)]
    cases optionValue o b!"TOSSDIR" with
    | some x => simp [commandOf]
    | none =>
    cases hasOption o b!"SCAN" with
    | true => simp [commandOf]
    | false =>
    cases optionValue o b!"SCANAREA" with
    | some x => simp [commandOf]
    | none =>
    cases optionValue o b!"SCANLIST" with
    | some x => simp [commandOf]
    | none =>
    cases optionValue o b!"SCANDOTJAM" with
    | some x => simp [commandOf]
    | none =>
    cases optionValue o b!"RESCAN" with
    | some x =>
      cases hn : optionValue o b!"RESCANNODE" with
      | none => simp [commandOf, hn]
      | some y =>
        cases hm : optionValue o b!"RESCANMAX" with
        | none => simp [commandOf, hn, hm]; decide +kernel
        | some z => simp [commandOf, hn, hm]
    | none =>
    cases optionValue o b!"SENDLIST" with
    | some x => simp [commandOf]
    | none =>
    cases optionValue o b!"SENDQUERY" with
    | some x => simp [commandOf]
    | none =>
    cases optionValue o b!"SENDUNLINKED" with
    | some x => simp [commandOf]
    | none =>
    cases optionValue o b!"SENDHELP" with
    | some x => simp [commandOf]
    | none =>
    cases optionValue o b!"SENDINFO" with
    | some x => simp [commandOf]
    | none =>
    cases optionValue o b!"REMOVE" with
    | some x => simp [commandOf]
    | none => simp

/-- What the program does for a command line of options. -/
theorem mainProg_options {κ : Type} (P : MainParts κ) (fuel : Nat) (env : Option Str) {argv o} (h : Options argv o)
    (hh : ∀ w, argv.head? = some w → w ∉ helpWords) :
    mainProg P fuel env argv =
      if hasOption o b!"VERSION" = true then .ret 0
      else if hasOption o b!"LOCK" = true then (lockConfig fuel (configAsked env o)).bind fun ok => .ret (if ok then 0 else 10)
      else if hasOption o b!"UNLOCK" = true then (unlockConfig (configAsked env o)).bind fun _ => .ret 0
      else mainSession P fuel (configAsked env o) (hasOption o b!"NOSECURITY") (commandsAsked o) := by
  have hc : argv.head?.any helpWords.contains = false := by
    cases hv : argv.head? with
    | none => rfl
    | some w => simpa using hh w hv
  have hp : parseArgs cmArgs argv = some (argsWith (optData (fun _ => .none) o)) := by
    unfold parseArgs
    rw [cmArgs_with, (parseLoop_options (fun _ => .none) argv.length argv _ (Nat.le_refl _)).1 o h]
    dsimp only
    rw [if_neg]
    rw [Bool.not_eq_true, List.any_eq_false]
    intro a ha
    simp [noMandatory _ a ha]
  unfold mainProg
  rw [hc, hp]
  dsimp only
  rw [commands_eq h]
  have g : ∀ i x, cmArgNames[i]? = some x → argData (argsWith (optData (fun _ => .none) o)) i = optData (fun _ => .none) o x.1 := argData_with _
  have hcfg : configName env (argsWith (optData (fun _ => .none) o)) = configAsked env o := by
    unfold configName configAsked
    rw [g 16 _ rfl, (option_value h b!"SETTINGS" (by decide)).1]
    cases optionValue o b!"SETTINGS" <;> rfl
  rw [hcfg, g 17 _ rfl, g 18 _ rfl, g 19 _ rfl, g 20 _ rfl]
  simp only [option_switch o, Bool.false_eq_true, if_false, Bool.decide_eq_true]

theorem mainProg_bad {κ : Type} (P : MainParts κ) (fuel : Nat) (env : Option Str) {argv : List Str} (h : ¬ ∃ o, Options argv o)
    (hh : ∀ w, argv.head? = some w → w ∉ helpWords) : mainProg P fuel env argv = .ret 10 := by
  have hc : argv.head?.any helpWords.contains = false := by
    cases hv : argv.head? with
    | none => rfl
    | some w => simpa using hh w hv
  have hp : parseArgs cmArgs argv = none := by
    unfold parseArgs
    rw [cmArgs_with, (parseLoop_options (fun _ => .none) argv.length argv _ (Nat.le_refl _)).2 h]
  unfold mainProg
  rw [hc, hp]
  rfl


/-! ## Steps -/

/-- Every step that the program can take is a `G`. -/
def Moves (w : World) {α : Type} (G : FS → FS → Prop) (p : Prog α) (fs : FS) : Prop :=
  ∀ p1 fs1 p2 fs2, Reach w p fs p1 fs1 → Step w p1 fs1 p2 fs2 → G fs1 fs2

theorem Moves.bind {w : World} {G : FS → FS → Prop} {p : Prog α} {h : α → Prog β} {fs : FS} (hp : Moves w G p fs)
    (hh : ∀ a gs, Reach w p fs (.ret a) gs → Moves w G (h a) gs) : Moves w G (p.bind h) fs := by
  intro p1 fs1 p2 fs2 hr hs
  rcases hr.bind_inv with ⟨p', h1, rfl, h3⟩ | ⟨a, gs, h1, h2⟩
  · obtain ⟨q, h4, _⟩ := hs.bind_inv h3
    exact hp _ _ _ _ h1 h4
  · exact hh a gs h1 _ _ _ _ h2 hs

theorem Moves.ret {w : World} {G : FS → FS → Prop} {a : α} {fs : FS} : Moves w G (.ret a) fs := by
  intro p1 fs1 p2 fs2 hr hs
  cases hr with
  | here => nomatch hs
  | step s _ => nomatch s

theorem Moves.mono {w : World} {G H : FS → FS → Prop} {p : Prog α} {fs : FS} (hp : Moves w G p fs) (h : ∀ a b, G a b → H a b) :
    Moves w H p fs := fun _ _ _ _ hr hs => h _ _ (hp _ _ _ _ hr hs)

theorem NeverTouches.moves {w : World} {f : Str} {p : Prog α} (h : NeverTouches w f p) (fs : FS) : Moves w (fun a b => b f = a f) p fs := by
  intro p1 fs1 p2 fs2 hr hs
  rw [h _ _ _ hr, h _ _ _ (hr.trans (.step hs (.here _ _)))]

/-- A program that leaves the lock file alone runs with the lock if it was there. -/
theorem NeverTouches.locked {w : World} {lock : Str} {p : Prog α} (h : NeverTouches w lock p) {fs : FS} (hl : fs lock ≠ none) :
    Moves w (fun a _ => a lock ≠ none) p fs := by
  intro p1 fs1 p2 fs2 hr _
  rw [h _ _ _ hr]
  exact hl

theorem NeverTouches.bind {w : World} {f : Str} {p : Prog α} {h : α → Prog β} (hp : NeverTouches w f p) (hh : ∀ a, NeverTouches w f (h a)) :
    NeverTouches w f (p.bind h) := by
  intro fs q fs' hr
  rcases hr.bind_inv with ⟨p', h1, _, _⟩ | ⟨a, gs, h1, h2⟩
  · exact hp _ _ _ h1
  · rw [hh a _ _ _ h2, hp _ _ _ h1]

theorem NeverTouches.ret {w : World} {f : Str} {a : α} : NeverTouches w f (.ret a) := by
  intro fs q fs' hr
  cases hr with
  | here => rfl
  | step s _ => nomatch s

theorem mainRun_leaves {w : World} {κ : Type} {P : MainParts κ} {lock : Str} (h : LeavesLock w P lock) (s : Bool) :
    ∀ (cmds : List MainCommand) (k : κ), NeverTouches w lock (mainRun P s k cmds) := by
  intro cmds
  induction cmds with
  | nil => intro k; exact .ret
  | cons c r ih => intro k; exact (h.run s k c).bind fun k => ih k

/-! ## The lock -/

theorem lockLoop_step (file : Str) (n : Nat) : lockConfigLoop file (n + 1) = .exist (busyName file) fun b => if b = true then
    .sleep fun c => if c = true then .ret false else lockConfigLoop file n
    else .write (busyName file) .new [] fun r => match r with | none => .ret false | some _ => .ret true := by
  rw [lockConfigLoop]
  simp only [osExists, Prog.bind_eq, Prog.bind]
  congr 1

/-- Taking the lock: nothing else is changed; the lock file is there afterwards, and it was not there before. -/
theorem lockLoop_through (w : World) (file : Str) : ∀ (n : Nat) (fs : FS),
    Through w (fun gs => (∀ f, f ≠ busyName file → gs f = fs f) ∧ (fs (busyName file) ≠ none → gs (busyName file) = fs (busyName file)))
      (fun a gs => (a = true → gs (busyName file) ≠ none ∧ fs (busyName file) = none) ∧ (a = false → gs = fs))
      (lockConfigLoop file n) fs := by
  intro n
  induction n with
  | zero => intro fs; exact .stuck ⟨fun _ _ => rfl, fun _ => rfl⟩
  | succ n ih =>
    intro fs
    rw [lockLoop_step]
    have now : (∀ f, f ≠ busyName file → fs f = fs f) ∧ (fs (busyName file) ≠ none → fs (busyName file) = fs (busyName file)) :=
      ⟨fun _ _ => rfl, fun _ => rfl⟩
    refine .exist now ?_
    cases hb : fs (busyName file) with
    | some d =>
      rw [if_pos (show (some d).isSome = true from rfl)]
      refine .sleep (by rw [hb]; exact ⟨fun _ _ => rfl, fun _ => rfl⟩) fun b => ?_
      cases b with
      | true => exact .ret (by rw [hb]; exact ⟨fun _ _ => rfl, fun _ => rfl⟩) ⟨fun h => (by cases h), fun _ => rfl⟩
      | false =>
        have := ih fs
        rw [hb] at this
        exact this
    | none =>
      rw [if_neg (by simp)]
      have put : ∀ v, (∀ f, f ≠ busyName file → (fs.put (busyName file) v) f = fs f) ∧
          ((none : Option Data) ≠ none → (fs.put (busyName file) v) (busyName file) = none) :=
        fun v => ⟨fun f hf => FS.put_ne _ hf _, fun h => absurd rfl h⟩
      refine .write ⟨fun _ _ => rfl, fun h => absurd rfl h⟩ (fun _ _ _ => put _) (.ret (put _) ⟨fun _ => ?_, fun h => by cases h⟩)
        (fun _ junk => .ret (put _) ⟨fun _ => ?_, fun h => by cases h⟩)
        (fun _ => .ret ⟨fun _ _ => rfl, fun h => absurd rfl h⟩ ⟨fun h => (by cases h), fun _ => rfl⟩)
      · rw [FS.put_self]; simp
      · rw [FS.put_self]; simp

theorem lockConfig_through (w : World) (file : Str) (hl : file.length < 195) (n : Nat) (fs : FS) :
    Through w (fun gs => (∀ f, f ≠ busyName file → gs f = fs f) ∧ (fs (busyName file) ≠ none → gs (busyName file) = fs (busyName file)))
      (fun a gs => (a = true → gs (busyName file) ≠ none ∧ fs (busyName file) = none) ∧ (a = false → gs = fs))
      (lockConfig n file) fs := by
  unfold lockConfig
  rw [if_neg (by simp [busyName]; omega)]
  exact lockLoop_through w file n fs

theorem lockConfig_other (w : World) (file : Str) (hl : file.length < 195) (n : Nat) (f : Str) (hf : f ≠ busyName file) :
    NeverTouches w f (lockConfig n file) := fun fs _ _ hr => ((lockConfig_through w file hl n fs) _ _ hr).1.1 f hf

theorem unlockConfig_through (w : World) (file : Str) (fs : FS) :
    Through w (fun gs => ∀ f, f ≠ busyName file → gs f = fs f) (fun _ gs => ¬ w.deleteFails → gs (busyName file) = none) (unlockConfig file) fs := by
  unfold unlockConfig
  simp only [osDelete, Prog.bind_eq, Prog.bind, Prog.pure_eq]
  refine .delete (fun _ _ => rfl) (fun d _ => .ret (fun f hf => FS.put_ne _ hf _) fun _ => FS.put_self _ _ _) fun h => .ret (fun _ _ => rfl) fun hd => ?_
  rcases h with h | h
  · exact h
  · exact absurd h hd

theorem unlockConfig_other (w : World) (file : Str) (f : Str) (hf : f ≠ busyName file) : NeverTouches w f (unlockConfig file) :=
  fun fs _ _ hr => ((unlockConfig_through w file fs) _ _ hr).1 f hf


theorem Reach.bind_ret {w : World} {p : Prog α} {h : α → Prog β} {fs : FS} {b : β} {fs' : FS} (hr : Reach w (p.bind h) fs (.ret b) fs') :
    ∃ a gs, Reach w p fs (.ret a) gs ∧ Reach w (h a) gs (.ret b) fs' := by
  rcases hr.bind_inv with ⟨p', _, e, h3⟩ | h
  · obtain ⟨a, ha⟩ := Prog.bind_ret e.symm
    exact absurd ha (h3 a)
  · exact h

theorem Reach.of_ret {w : World} {a : α} {p : Prog α} {fs fs' : FS} (hr : Reach w (.ret a) fs p fs') : p = .ret a ∧ fs' = fs := by
  cases hr with
  | here => exact ⟨rfl, rfl⟩
  | step s _ => nomatch s

theorem Step.bind_of {w : World} {p p' : Prog α} {fs fs' : FS} (hs : Step w p fs p' fs') (h : α → Prog β) : Step w (p.bind h) fs (p'.bind h) fs' := by
  cases hs with
  | exist => exact .exist _ _ _
  | renameOk _ _ _ _ d e => exact .renameOk _ _ _ _ d e
  | renameFail _ _ _ _ e => exact .renameFail _ _ _ _ e
  | deleteOk _ _ _ d e => exact .deleteOk _ _ _ d e
  | deleteFail _ _ _ e => exact .deleteFail _ _ _ e
  | readOk _ _ _ d e => exact .readOk _ _ _ d e
  | readFail _ _ _ e => exact .readFail _ _ _ e
  | openOk => exact .openOk _ _ _ _ _
  | openFail _ _ _ _ _ e => exact .openFail _ _ _ _ _ e
  | byte => exact .byte _ _ _ _ _ _ _ _
  | writeDone => exact .writeDone _ _ _ _ _ _
  | writeFail _ _ _ _ _ _ _ j e => exact .writeFail _ _ _ _ _ _ _ j e
  | execStart => exact .execStart _ _ _
  | execDuring _ _ _ _ _ e => exact .execDuring _ _ _ _ _ e
  | execEnd _ _ _ _ _ _ e => exact .execEnd _ _ _ _ _ _ e
  | listOk _ _ _ _ es e => exact .listOk _ _ _ _ es e
  | listFail _ _ _ _ e => exact .listFail _ _ _ _ e
  | time => exact .time _ _ _
  | sleep => exact .sleep _ _ _

theorem Reach.bind_of {w : World} {p : Prog α} {q : Prog α} {fs gs : FS} (hr : Reach w p fs q gs) (h : α → Prog β) :
    Reach w (p.bind h) fs (q.bind h) gs := by
  induction hr with
  | here => exact .here _ _
  | step s _ ih => exact .step (s.bind_of h) ih

theorem Reach.bind_then {w : World} {p : Prog α} {h : α → Prog β} {a : α} {q : Prog β} {fs gs hs : FS} (h1 : Reach w p fs (.ret a) gs)
    (h2 : Reach w (h a) gs q hs) : Reach w (p.bind h) fs q hs := (h1.bind_of h).trans h2

theorem busyName_inj {a b : Str} (h : busyName a = busyName b) : a = b := List.append_cancel_right h

/-- The end of a session. -/
theorem cleanUp_done {w : World} {κ : Type} {P : MainParts κ} {cfg : Str} {k : Option κ} {code n : Nat} {gs fs' : FS}
    (hfree : ∀ k, NeverTouches w (busyName cfg) (P.free k)) (hr : Reach w (cleanUp P cfg k code) gs (.ret n) fs') :
    n = code ∧ (cfg.length ≤ 99 → ¬ w.deleteFails → fs' (busyName cfg) = none) ∧ (100 ≤ cfg.length → fs' (busyName cfg) = gs (busyName cfg)) := by
  unfold cleanUp at hr
  obtain ⟨_, g1, h1, h2⟩ := hr.bind_ret
  have e : n = code ∧ fs' (busyName cfg) = g1 (busyName cfg) := by
    cases k with
    | none =>
      obtain ⟨e1, e2⟩ := h2.of_ret
      cases e1
      exact ⟨rfl, by rw [e2]⟩
    | some k =>
      obtain ⟨_, g2, h3, h4⟩ := h2.bind_ret
      obtain ⟨e1, e2⟩ := h4.of_ret
      cases e1
      exact ⟨rfl, by rw [e2, hfree k _ _ _ h3]⟩
  refine ⟨e.1, fun hl hd => ?_, fun hl => ?_⟩
  · rw [e.2]
    rw [List.take_of_length_le hl] at h1
    exact ((unlockConfig_through w cfg gs) _ _ h1).2.1 _ rfl hd
  · rw [e.2]
    refine unlockConfig_other w _ _ (fun h => ?_) _ _ _ h1
    have := congrArg List.length (busyName_inj h)
    rw [List.length_take] at this
    omega

/-- A session that has ended. -/
theorem session_done {w : World} {κ : Type} {P : MainParts κ} {fuel : Nat} {cfg : Str} {s : Bool} {cmds : List MainCommand} {fs fs' : FS} {n : Nat}
    (hl : cfg.length < 195) (hP : LeavesLock w P (busyName cfg)) (hr : Reach w (mainSession P fuel cfg s cmds) fs (.ret n) fs') :
    (n = 10 ∧ fs' = fs) ∨
    (fs (busyName cfg) = none ∧ (n = 0 ∨ n = 10) ∧ (cfg.length ≤ 99 → ¬ w.deleteFails → fs' (busyName cfg) = none) ∧
      (100 ≤ cfg.length → fs' (busyName cfg) ≠ none)) := by
  unfold mainSession at hr
  obtain ⟨ok, g1, h1, h2⟩ := hr.bind_ret
  have lock := ((lockConfig_through w cfg hl fuel fs) _ _ h1).2.1 ok rfl
  cases ok with
  | false =>
    obtain ⟨e1, e2⟩ := h2.of_ret
    cases e1
    exact .inl ⟨rfl, by rw [e2]; exact lock.2 rfl⟩
  | true =>
    right
    refine ⟨(lock.1 rfl).2, ?_⟩
    rw [if_neg (by decide)] at h2
    have fin : ∀ {k code g}, g (busyName cfg) ≠ none → (code = 0 ∨ code = 10) → Reach w (cleanUp P cfg k code) g (.ret n) fs' →
        (n = 0 ∨ n = 10) ∧ (cfg.length ≤ 99 → ¬ w.deleteFails → fs' (busyName cfg) = none) ∧ (100 ≤ cfg.length → fs' (busyName cfg) ≠ none) := by
      intro k code g hg hc h
      obtain ⟨e, a, b⟩ := cleanUp_done hP.free h
      exact ⟨by rw [e]; exact hc, a, fun hl => by rw [b hl]; exact hg⟩
    have hlock1 := (lock.1 rfl).1
    obtain ⟨k, g2, h3, h4⟩ := h2.bind_ret
    have hlock2 : g2 (busyName cfg) ≠ none := by rw [hP.read cfg _ _ _ h3]; exact hlock1
    cases k with
    | none => exact fin hlock2 (.inr rfl) h4
    | some k =>
      obtain ⟨k', g3, h5, h6⟩ := h4.bind_ret
      have hlock3 : g3 (busyName cfg) ≠ none := by rw [hP.init k _ _ _ h5]; exact hlock2
      cases k' with
      | none => exact fin hlock3 (.inr rfl) h6
      | some k =>
        obtain ⟨k2, g4, h7, h8⟩ := h6.bind_ret
        exact fin (by rw [mainRun_leaves hP s cmds k _ _ _ h7]; exact hlock3) (.inl rfl) h8

/-! ## A way through programs -/

/-- One step in which nothing fails (none at the end, and where a program is run). -/
def Prog.next {α : Type} : Prog α → FS → Prog α × FS
  | .exist f k, fs => (k (fs f).isSome, fs)
  | .rename f g k, fs => match fs f with | some d => (k true, (fs.put f none).put g (some d)) | none => (k false, fs)
  | .delete f k, fs => match fs f with | some _ => (k true, fs.put f none) | none => (k false, fs)
  | .read f k, fs => match fs f with | some d => (k (some d), fs) | none => (k none, fs)
  | .write f m d k, fs => (.writing f (opened fs f m).1 (opened fs f m).2 [] d fun r => k (some r), fs.put f (some (opened fs f m).1))
  | .writing f o p d (c :: t) k, fs => (.writing f o p (d ++ [c]) t k, fs.put f (some (overlay o p (d ++ [c]))))
  | .writing _ _ _ _ [] k, fs => (k true, fs)
  | p, fs => (p, fs)

theorem Prog.next_step (w : World) (p : Prog α) (fs : FS) : p.next fs = (p, fs) ∨ Step w p fs (p.next fs).1 (p.next fs).2 := by
  cases p with
  | ret a => exact .inl rfl
  | ub u => exact .inl rfl
  | stuck => exact .inl rfl
  | exist f k => exact .inr (.exist _ _ _)
  | rename f g k =>
    right
    simp only [Prog.next]
    cases h : fs f with
    | none => exact .renameFail _ _ _ _ (.inl h)
    | some d => exact .renameOk _ _ _ _ _ h
  | delete f k =>
    right
    simp only [Prog.next]
    cases h : fs f with
    | none => exact .deleteFail _ _ _ (.inl h)
    | some d => exact .deleteOk _ _ _ _ h
  | read f k =>
    right
    simp only [Prog.next]
    cases h : fs f with
    | none => exact .readFail _ _ _ (.inl h)
    | some d => exact .readOk _ _ _ _ h
  | write f m d k => exact .inr (.openOk _ _ _ _ _)
  | writing f o p d t k =>
    right
    cases t with
    | nil => exact .writeDone _ _ _ _ _ _
    | cons c t => exact .byte _ _ _ _ _ _ _ _
  | exec c k => exact .inl rfl
  | running c s k => exact .inl rfl
  | list d a k => exact .inl rfl
  | time k => exact .inl rfl
  | sleep k => exact .inl rfl

/-- Two programs: the first takes `n` steps, then they change places, and so on. -/
def taking {α : Type} : List (Bool × Nat) → Prog α × Prog α → FS → (Prog α × Prog α) × FS
  | [], pq, fs => (pq, fs)
  | (_, 0) :: r, pq, fs => taking r pq fs
  | (true, n + 1) :: r, (p, q), fs => taking ((true, n) :: r) ((p.next fs).1, q) (p.next fs).2
  | (false, n + 1) :: r, (p, q), fs => taking ((false, n) :: r) (p, (q.next fs).1) (q.next fs).2
termination_by l _ _ => (l.map fun x => x.2 + 1).sum
decreasing_by all_goals simp only [List.map_cons, List.sum_cons]; omega

theorem taking_reach (w : World) (l : List (Bool × Nat)) (p q : Prog α) (fs : FS) :
    MReach w [p, q] fs [(taking l (p, q) fs).1.1, (taking l (p, q) fs).1.2] (taking l (p, q) fs).2 := by
  generalize hpq : (p, q) = pq
  have hp : p = pq.1 := by rw [← hpq]
  have hq : q = pq.2 := by rw [← hpq]
  subst hp hq
  clear hpq
  fun_induction taking l pq fs with
  | case1 pq fs => exact .here _ _
  | case2 fst r pq fs ih => exact ih
  | case3 n r p q fs ih =>
    rcases p.next_step w fs with e | e
    · rw [e] at ih ⊢; exact ih
    · exact .step (.one [] [q] _ _ _ _ e) ih
  | case4 n r p q fs ih =>
    rcases q.next_step w fs with e | e
    · rw [e] at ih ⊢; exact ih
    · exact .step (.one [p] [] _ _ _ _ e) ih

end CM
