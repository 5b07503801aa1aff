import Verif.Props.ToolArgs
import Verif.Model.PrintArgs
import Verif.Spec.PrintArgs

/-! # The help says what the command line accepts (C122) -/

set_option linter.unusedSimpArgs false

namespace CM

theorem cut_plain (c : UInt8) : ∀ (a : Str), (∀ x ∈ a, x ≠ c) → cutText c a = [a]
  | [], _ => rfl
  | x :: a, h => by
    rw [cutText, if_neg (h x List.mem_cons_self), cut_plain c a fun y hy => h y (List.mem_cons_of_mem _ hy)]

theorem cut_cons (c : UInt8) (b : Str) : ∀ (a : Str), (∀ x ∈ a, x ≠ c) → cutText c (a ++ c :: b) = a :: cutText c b
  | [], _ => by rw [List.nil_append, cutText, if_pos rfl]
  | x :: a, h => by
    rw [List.cons_append, cutText, if_neg (h x List.mem_cons_self), cut_cons c b a fun y hy => h y (List.mem_cons_of_mem _ hy)]

/-- The line of an argument, without the line end. -/
def argLine (a : ToolArg) : Str :=
  (if a.byPlace then b!"(" ++ a.name ++ b!")" else a.name) ++ (if a.kind = .string then b!" <string>" else []) ++ if a.needed then b!" [Mandatory]" else []

theorem helpLine_entry {a : ToolArg} (hn : PlainName a.name) (hs : a.kind = .bool → a.byPlace = false ∧ a.needed = false) (v : Option (Option Str)) :
    helpLine (a.entry v) = .ok (argLine a ++ [10]) := by
  obtain ⟨n, k, p, nd⟩ := a
  have h1 : n.length + 3 ≤ 50 := by have := hn.2.1; dsimp only at this; omega
  have h2 : n.length + 1 ≤ 50 := by omega
  cases k with
  | string => cases p <;> cases nd <;> simp [helpLine, ToolArg.entry, argLine, h1, h2, bind, Except.bind]
  | bool =>
    obtain ⟨h3, h4⟩ := hs rfl
    dsimp only at h3 h4
    subst h3 h4
    simp [helpLine, ToolArg.entry, argLine, h1, h2, bind, Except.bind]

/-- A name is not mistaken for one of the marks. -/
theorem plain_not {n : Str} (hn : PlainName n) : b!"<string>" ≠ n ∧ b!"[Mandatory]" ≠ n := by
  refine ⟨fun e => ?_, fun e => ?_⟩
  · exact (hn.2.2 60 (by rw [← e]; decide)).2.2.2.1 rfl
  · exact (hn.2.2 91 (by rw [← e]; decide)).2.2.2.2 rfl

theorem readArg_line {a : ToolArg} (hn : PlainName a.name) (hs : a.kind = .bool → a.byPlace = false ∧ a.needed = false) : readArg (argLine a) = a := by
  obtain ⟨n, k, p, nd⟩ := a
  dsimp only at hn hs
  obtain ⟨m1, m2⟩ := plain_not hn
  have hb : ∀ x ∈ n, x ≠ 32 := fun x hx => (hn.2.2 x hx).1
  have hh : (n.head? == some 40) = false := by
    cases n with
    | nil => rfl
    | cons c n =>
      have := (hn.2.2 c List.mem_cons_self).2.2.1
      simp [this]
  have hp : ∀ x ∈ (40 :: (n ++ [41]) : Str), x ≠ 32 := by
    intro x hx
    rcases List.mem_cons.1 hx with hx | hx
    · rw [hx]; decide
    · rcases List.mem_append.1 hx with hx | hx
      · exact hb x hx
      · rw [List.mem_singleton.1 hx]; decide
  have q1 : (b!"<string>" : Str) ≠ 40 :: (n ++ [41]) := by intro e; injection e with e; revert e; decide
  have q2 : (b!"[Mandatory]" : Str) ≠ 40 :: (n ++ [41]) := by intro e; injection e with e; revert e; decide
  have c1 : cutText 32 b!"<string>" = [b!"<string>"] := by decide
  have c2 : cutText 32 b!"<string> [Mandatory]" = [b!"<string>", b!"[Mandatory]"] := by decide
  have r1 : (b!"[Mandatory]" : Str) ≠ b!"<string>" := by decide
  cases k with
  | bool =>
    obtain ⟨h3, h4⟩ := hs rfl
    subst h3 h4
    have : argLine ⟨n, .bool, false, false⟩ = n := by simp [argLine]
    rw [this]
    unfold readArg
    rw [cut_plain 32 n hb]
    simp [hh, m1, m2]
  | string =>
    cases p with
    | false =>
      cases nd with
      | false =>
        have : argLine ⟨n, .string, false, false⟩ = n ++ 32 :: b!"<string>" := by simp [argLine]
        rw [this]
        unfold readArg
        rw [cut_cons 32 _ n hb, c1]
        simp only [List.headD_cons, hh, List.contains_cons, List.contains_nil]
        simp [m1, m2]
      | true =>
        have : argLine ⟨n, .string, false, true⟩ = n ++ 32 :: b!"<string> [Mandatory]" := by simp [argLine]
        rw [this]
        unfold readArg
        rw [cut_cons 32 _ n hb, c2]
        simp only [List.headD_cons, hh, List.contains_cons, List.contains_nil]
        simp [m1, m2]
    | true =>
      cases nd with
      | false =>
        have : argLine ⟨n, .string, true, false⟩ = (40 :: (n ++ [41])) ++ 32 :: b!"<string>" := by simp [argLine]
        rw [this]
        unfold readArg
        rw [cut_cons 32 _ _ hp, c1]
        simp only [List.headD_cons, List.contains_cons, List.contains_nil]
        simp [q1, q2]
      | true =>
        have : argLine ⟨n, .string, true, true⟩ = (40 :: (n ++ [41])) ++ 32 :: b!"<string> [Mandatory]" := by simp [argLine]
        rw [this]
        unfold readArg
        rw [cut_cons 32 _ _ hp, c2]
        simp only [List.headD_cons, List.contains_cons, List.contains_nil]
        simp [q1, q2]

theorem argLine_plain {a : ToolArg} (hn : PlainName a.name) : argLine a ≠ [] ∧ ∀ x ∈ argLine a, x ≠ 10 := by
  have hb : ∀ x ∈ a.name, x ≠ 10 := fun x hx => (hn.2.2 x hx).2.1
  have s1 : ∀ x ∈ (b!" <string>" : Str), x ≠ 10 := by decide
  have s2 : ∀ x ∈ (b!" [Mandatory]" : Str), x ≠ 10 := by decide
  refine ⟨fun e => ?_, fun x hx => ?_⟩
  · unfold argLine at e
    simp only [List.append_eq_nil_iff] at e
    have e := e.1.1
    by_cases hp : a.byPlace = true
    · rw [if_pos hp] at e; cases e
    · rw [if_neg hp] at e; exact hn.1 e
  · unfold argLine at hx
    rcases List.mem_append.1 hx with hx | hx
    · rcases List.mem_append.1 hx with hx | hx
      · by_cases hp : a.byPlace = true
        · rw [if_pos hp] at hx
          rcases List.mem_append.1 hx with hx | hx
          · rcases List.mem_append.1 hx with hx | hx
            · rw [List.mem_singleton.1 hx]; decide
            · exact hb x hx
          · rw [List.mem_singleton.1 hx]; decide
        · rw [if_neg hp] at hx; exact hb x hx
      · by_cases hk : a.kind = .string
        · rw [if_pos hk] at hx; exact s1 x hx
        · rw [if_neg hk] at hx; cases hx
    · by_cases hk : a.needed = true
      · rw [if_pos hk] at hx; exact s2 x hx
      · rw [if_neg hk] at hx; cases hx

theorem mapM_lines : ∀ (T : List ToolArg), (∀ a ∈ T, PlainName a.name) → SwitchesFree T → (T.map (·.entry none)).mapM helpLine = .ok (T.map fun a => argLine a ++ [10])
  | [], _, _ => rfl
  | a :: T, hn, hs => by
    rw [List.map_cons, List.mapM_cons, helpLine_entry (hn a List.mem_cons_self) (hs a List.mem_cons_self)]
    show ((T.map (·.entry none)).mapM helpLine >>= _ : Except UB _) = _
    rw [mapM_lines T (fun b hb => hn b (List.mem_cons_of_mem _ hb)) fun b hb => hs b (List.mem_cons_of_mem _ hb)]
    rfl

theorem cut_lines (r : Str) : ∀ (T : List ToolArg), (∀ a ∈ T, PlainName a.name) → cutText 10 ((T.map fun a => argLine a ++ [10]).flatten ++ r) = T.map argLine ++ cutText 10 r
  | [], _ => rfl
  | a :: T, hn => by
    have := cut_cons 10 ((T.map fun a => argLine a ++ [10]).flatten ++ r) (argLine a) (argLine_plain (hn a List.mem_cons_self)).2
    rw [List.map_cons, List.flatten_cons, List.append_assoc, List.append_assoc, List.singleton_append, this, cut_lines r T fun b hb => hn b (List.mem_cons_of_mem _ hb)]
    rfl

/-- What is printed after the arguments. -/
def helpTail : Str := b!"\n" ++ b!"[Mandatory] means that the argument has to be specified. Parentheses around\n" ++
    b!"the keyword mean that the keyword itself does not have to be specified.\n\n"

/-- **C122.** The help can be printed, and reading it gives exactly the arguments of the tool. -/
theorem help_read (T : List ToolArg) (hn : ∀ a ∈ T, PlainName a.name) (hs : SwitchesFree T) : ∃ t, printArgs (T.map (·.entry none)) = .ok t ∧ readHelp t = T := by
  have h1 : cutText 10 (b!"\nAvailable arguments:\n\n" ++ ((T.map fun a => argLine a ++ [10]).flatten ++ helpTail)) =
      [] :: b!"Available arguments:" :: [] :: (T.map argLine ++ cutText 10 helpTail) := by
    have e : (b!"\nAvailable arguments:\n\n" ++ ((T.map fun a => argLine a ++ [10]).flatten ++ helpTail) : Str) =
        [] ++ 10 :: (b!"Available arguments:" ++ 10 :: ([] ++ 10 :: ((T.map fun a => argLine a ++ [10]).flatten ++ helpTail))) := rfl
    rw [e, cut_cons 10 _ [] (by decide), cut_cons 10 _ b!"Available arguments:" (by decide), cut_cons 10 _ [] (by decide), cut_lines _ T hn]
  obtain ⟨u, h2⟩ : ∃ u, cutText 10 helpTail = [] :: u := ⟨_, cut_cons 10 _ [] (by decide)⟩
  refine ⟨b!"\nAvailable arguments:\n\n" ++ ((T.map fun a => argLine a ++ [10]).flatten ++ helpTail), ?_, ?_⟩
  · unfold printArgs
    rw [mapM_lines T hn hs]
    simp only [bind, Except.bind, pure, Except.pure, helpTail, List.append_assoc]
  · unfold readHelp
    rw [h1, h2]
    show ((T.map argLine ++ [] :: u).takeWhile _).map readArg = T
    have h3 : (T.map argLine ++ [] :: u).takeWhile (fun x => decide (x ≠ [])) = T.map argLine := by
      rw [List.takeWhile_append_of_pos]
      · simp
      · intro l hl
        obtain ⟨a, ha, rfl⟩ := List.mem_map.1 hl
        simpa using (argLine_plain (hn a ha)).1
    rw [h3, List.map_map]
    refine (List.map_congr_left fun a ha => ?_).trans (List.map_id T)
    exact readArg_line (hn a ha) (hs a ha)

/-- The arguments of CrashWrite. -/
def cwNames : List ToolArg :=
  [{ name := b!"FROMNAME", kind := .string }, { name := b!"FROMADDR", kind := .string }, { name := b!"TONAME", kind := .string }, { name := b!"TOADDR", kind := .string },
   { name := b!"SUBJECT", kind := .string }, { name := b!"AREA", kind := .string }, { name := b!"ORIGIN", kind := .string }, { name := b!"DIR", kind := .string, needed := true },
   { name := b!"TEXT", kind := .string }, { name := b!"NOMSGID", kind := .bool }, { name := b!"FILEATTACH", kind := .bool }, { name := b!"PKTFROMADDR", kind := .string },
   { name := b!"PKTTOADDR", kind := .string }, { name := b!"PASSWORD", kind := .string }]

/-- The tables of the tools. -/
def toolTables : List (List Arg) := [csTableArgs, loTableArgs, gnTableArgs, clTableArgs, cxTableArgs, cmTableArgs, cwTable]

/-- **C122.** The help of each of the seven tools can be printed, and reading it gives exactly the table with which the tool reads its command line. -/
theorem tools_help_read : ∀ tab ∈ toolTables, ∃ t, printArgs tab = .ok t ∧ (readHelp t).map (·.entry none) = tab := by
  have key : ∀ T : List ToolArg, (∀ a ∈ T, PlainName a.name) → SwitchesFree T → ∃ t, printArgs (T.map (·.entry none)) = .ok t ∧ (readHelp t).map (·.entry none) = T.map (·.entry none) :=
    fun T hn hs => by
      obtain ⟨t, h1, h2⟩ := help_read T hn hs
      exact ⟨t, h1, by rw [h2]⟩
  intro tab h
  simp only [toolTables, List.mem_cons, List.not_mem_nil, or_false] at h
  rcases h with rfl | rfl | rfl | rfl | rfl | rfl | rfl
  · exact key statsNames (by decide) (by decide)
  · exact key listOutNames (by decide) (by decide)
  · exact key getNodeNames (by decide) (by decide)
  · exact key crashListNames (by decide) (by decide)
  · exact key exportNames (by decide) (by decide)
  · exact key maintNames (by decide) (by decide)
  · exact key cwNames (by decide) (by decide)

/-- The help of a tool, for everyone who reads it, says which command lines the tool accepts and what they mean. -/
def HelpTells (tab : List Arg) : Prop :=
  ∃ t, printArgs tab = .ok t ∧ DistinctNames (readHelp t) ∧ ∀ argv,
    ((¬ ∃ p, PartsOf (readHelp t) argv p) → parseArgs tab argv = none) ∧
    ∀ p, PartsOf (readHelp t) argv p → NamesFirst (readHelp t) p →
      ((parseArgs tab argv).isSome = true ↔ Sensible (readHelp t) p) ∧
      ∀ args, parseArgs tab argv = some args → ∀ (i : Nat) (a : ToolArg), (readHelp t)[i]? = some a → args[i]? = some (a.entry (Meant (readHelp t) p a.name))

theorem help_tells {T : List ToolArg} (hT : DistinctNames T) (hn : ∀ a ∈ T, PlainName a.name) (hs : SwitchesFree T) : HelpTells (T.map (·.entry none)) := by
  obtain ⟨t, h1, h2⟩ := help_read T hn hs
  refine ⟨t, h1, ?_⟩
  rw [h2]
  refine ⟨hT, fun argv => ⟨fun h => command_line_refused h, fun p hp hf => ?_⟩⟩
  rw [command_line_partial hT hp hf]
  by_cases hS : Sensible T p
  · rw [if_pos hS]
    refine ⟨by simp [hS], fun args e i a hi => ?_⟩
    injection e with e
    rw [← e, List.getElem?_map, hi]
    rfl
  · rw [if_neg hS]
    exact ⟨by simp [hS], fun args e => by cases e⟩

/-- **C119 (partial).** The help of each of the seven tools says what its command lines mean. -/
theorem tools_help_partial : ∀ tab ∈ toolTables, HelpTells tab := by
  intro tab h
  simp only [toolTables, List.mem_cons, List.not_mem_nil, or_false] at h
  rcases h with rfl | rfl | rfl | rfl | rfl | rfl | rfl
  · exact help_tells (T := statsNames) (by decide) (by decide) (by decide)
  · exact help_tells (T := listOutNames) (by decide) (by decide) (by decide)
  · exact help_tells (T := getNodeNames) (by decide) (by decide) (by decide)
  · exact help_tells (T := crashListNames) (by decide) (by decide) (by decide)
  · exact help_tells (T := exportNames) (by decide) (by decide) (by decide)
  · exact help_tells (T := maintNames) (by decide) (by decide) (by decide)
  · exact help_tells (T := cwNames) (by decide) (by decide) (by decide)

namespace Ex

/-- The help of CrashGetNode. -/
theorem help_getnode : (printArgs gnTableArgs).toOption.map (b!"\nAvailable arguments:\n\n(NODE) <string> [Mandatory]\n(DIRECTORY) <string>\n\n[Mandatory] mea".isPrefixOf ·) = some true ∧
    (printArgs gnTableArgs).toOption.map readHelp = some getNodeNames := by decide +kernel

/-- The conditions are met by the tools. -/
theorem help_writenames : DistinctNames cwNames ∧ (∀ a ∈ cwNames, PlainName a.name) ∧ SwitchesFree cwNames := by decide

end Ex

end CM
