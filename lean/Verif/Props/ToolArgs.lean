import Verif.Lemmas.ToolArgs
import Verif.Props.Search

/-! # The command lines of the tools (C119) -/

set_option linter.unusedSimpArgs false

namespace CM

theorem addNamed_eq : ∀ (p : List CmdPart) (nm : Str → Option (Option Str)) (n : Str), addNamed nm p n = (namedValue p n).or (nm n) := by
  intro p
  induction p with
  | nil => intro nm n; rfl
  | cons x p ih =>
    intro nm n
    cases x with
    | word w => exact ih nm n
    | named m v =>
      rw [addNamed, ih]
      unfold namedValue setNamed
      by_cases h : m = n
      · subst h
        rw [List.filterMap_cons_some (b := v) (by simp), List.getLast?_cons, if_pos rfl]
        cases (List.filterMap (fun | .named k v => if k = m then some v else none | .word _ => none) p).getLast? <;> rfl
      · rw [List.filterMap_cons_none (by simp [h]), if_neg (fun e => h e.symm)]

theorem fill_meant (nm : Str → Option (Option Str)) : ∀ (T : List ToolArg) (ws : List Str), DistinctNames T →
    fillTable nm T ws = T.map fun a => a.entry ((meant nm T ws).lookup a.name).join := by
  intro T
  induction T with
  | nil => intro ws _; rfl
  | cons a T ih =>
    intro ws hd
    unfold DistinctNames at hd
    rw [List.pairwise_cons] at hd
    have hc : ∀ (d : Option (Option Str)) (ws : List Str), a.entry d :: fillTable nm T ws =
        (a :: T).map fun b => b.entry (((a.name, d) :: meant nm T ws).lookup b.name).join := by
      intro d ws
      rw [ih ws hd.2, List.map_cons]
      congr 1
      · simp
      · apply List.map_congr_left
        intro b hb
        have : b.name ≠ a.name := fun e => hd.1 b hb (by rw [e])
        rw [List.lookup_cons, (beq_eq_false_iff_ne (a := b.name) (b := a.name)).2 this]
    rw [fillTable_cons, meant.eq_def]
    dsimp only
    cases nm a.name with
    | some v => exact hc _ _
    | none =>
      cases hb : a.byPlace with
      | false => exact hc _ _
      | true =>
        cases ws with
        | nil => exact hc _ _
        | cons y ws => exact hc _ _

theorem fill_start : ∀ (T : List ToolArg), fillTable (fun _ => none) T [] = T.map (·.entry none) := by
  intro T
  induction T with
  | nil => rfl
  | cons a T ih =>
    rw [fillTable_cons, List.map_cons, ← ih]
    cases a.byPlace <;> rfl

/-- C119. For every table of arguments: a command line in which the arguments that can be given by place are named before the words
without a name is understood exactly if it is sensible, and then every argument has the value that is meant. -/
theorem command_line_partial {T : List ToolArg} (hT : DistinctNames T) {argv : List Str} {p : List CmdPart} (h : PartsOf T argv p) (hn : NamesFirst T p) :
    parseArgs (T.map (·.entry none)) argv = if Sensible T p then some (T.map fun a => a.entry (Meant T p a.name)) else none := by
  have e : addNamed (fun _ => none) p = namedValue p := by
    funext n
    rw [addNamed_eq]
    cases namedValue p n <;> rfl
  unfold parseArgs
  rw [← fill_start, parse_parts hT h _ [] hn (by simp) (by simp), e, List.nil_append]
  by_cases hl : (bareWords p).length ≤ places (namedValue p) T
  · rw [if_pos hl]
    dsimp only
    rw [fill_meant _ T _ hT]
    have hm : ((T.map fun a => a.entry ((meant (namedValue p) T (bareWords p)).lookup a.name).join).any fun a => a.mandatory && a.data == .none) = true ↔
        ¬ Sensible T p := by
      rw [List.any_map, List.any_eq_true]
      constructor
      · rintro ⟨a, ha, hx⟩ ⟨-, hs⟩
        simp only [Function.comp_apply, ToolArg.entry, Bool.and_eq_true, valData_none] at hx
        have := hs a ha hx.1
        unfold Meant at this
        rw [Option.isNone_iff_eq_none] at hx
        rw [hx.2] at this
        cases this
      · intro hs
        have : ¬ ∀ a ∈ T, a.needed = true → (Meant T p a.name).isSome = true := fun hh => hs ⟨hl, hh⟩
        apply Classical.byContradiction
        intro hne
        apply this
        intro a ha hneed
        cases hv : Meant T p a.name with
        | some v => rfl
        | none =>
          refine absurd ⟨a, ha, ?_⟩ hne
          unfold Meant at hv
          simp only [Function.comp_apply, ToolArg.entry, Bool.and_eq_true, valData_none, hv]
          exact ⟨hneed, rfl⟩
    by_cases hs : Sensible T p
    · rw [if_pos hs, if_neg (fun hh => hm.1 hh hs)]
      rfl
    · rw [if_neg hs, if_pos (hm.2 hs)]
  · rw [if_neg hl, if_neg fun hs => hl hs.1]

theorem find_decl {T : List ToolArg} {args : List Arg} (hd : args.map Arg.decl = T.map fun a => (a.entry none).decl) {w : Str} {a : Arg}
    (h : args.find? (·.isKeyword w) = some a) : ∃ b ∈ T, b.kind = a.type ∧ w.map lower = b.name.map lower := by
  have hm := List.mem_map_of_mem (f := Arg.decl) (List.mem_of_find?_eq_some h)
  have hk := List.find?_some h
  rw [hd] at hm
  obtain ⟨b, hb, he⟩ := List.mem_map.1 hm
  refine ⟨b, hb, ?_⟩
  simp only [Arg.decl, ToolArg.entry, Prod.mk.injEq] at he
  refine ⟨he.1, ?_⟩
  simp only [Arg.isKeyword, ← he.2.1] at hk
  simpa [eqi] using hk

theorem not_keyword {T : List ToolArg} {args : List Arg} (hd : args.map Arg.decl = T.map fun a => (a.entry none).decl) {w : Str}
    (h : args.find? (·.isKeyword w) = none) : ∀ b ∈ T, w.map lower ≠ b.name.map lower := by
  intro b hb he
  have hm := List.mem_map_of_mem (f := fun a : ToolArg => (a.entry none).decl) hb
  rw [← hd] at hm
  obtain ⟨a, ha, hae⟩ := List.mem_map.1 hm
  rw [List.find?_eq_none] at h
  apply h a ha
  simp only [Arg.decl, ToolArg.entry, Prod.mk.injEq] at hae
  simp [Arg.isKeyword, hae.2.1, eqi, he]

/-- C119. A command line without parts is refused, for every table. Its last word is the name of an argument that needs a value (`parse_noParts`). -/
theorem command_line_refused {T : List ToolArg} {argv : List Str} (h : ¬ ∃ p, PartsOf T argv p) : parseArgs (T.map (·.entry none)) argv = none := by
  have key : ∀ (args : List Arg) (ws : List Str), args.map Arg.decl = T.map (fun a => (a.entry none).decl) →
      ∀ res, parseLoop args ws = some res → ∃ p, PartsOf T ws p := by
    intro args ws
    fun_induction parseLoop args ws with
    | case1 => intro _ _ _; exact ⟨[], .nil⟩
    | case2 => intro _ _ h; simp at h
    | case3 => intro _ _ h; simp at h
    | case4 args w a hf ht v ws bs hs ih =>
      intro hd res hr
      obtain ⟨b, hb, hk, hw⟩ := find_decl hd hf
      obtain ⟨p, hp⟩ := ih ((setFirst_decl _ _ _ _ hs).trans hd) res hr
      exact ⟨_, .value hb (hk.trans ht) hw hp⟩
    | case5 => intro _ _ h; simp at h
    | case6 args w ws a hf ht bs hs ih =>
      intro hd res hr
      obtain ⟨b, hb, hk, hw⟩ := find_decl hd hf
      obtain ⟨p, hp⟩ := ih ((setFirst_decl _ _ _ _ hs).trans hd) res hr
      exact ⟨_, .switch hb (hk.trans ht) hw hp⟩
    | case7 => intro _ _ h; simp at h
    | case8 args w ws hf bs hs ih =>
      intro hd res hr
      obtain ⟨p, hp⟩ := ih ((setFirst_decl _ _ _ _ hs).trans hd) res hr
      exact ⟨_, .word (not_keyword hd hf) hp⟩
  unfold parseArgs
  cases hp : parseLoop (T.map (·.entry none)) argv with
  | none => rfl
  | some res => exact absurd (key _ _ (by rw [List.map_map]; rfl) res hp) h

theorem argStr_table (T : List ToolArg) (f : Str → Option (Option Str)) (i : Nat) (a : ToolArg) (h : T[i]? = some a) :
    argStr (T.map fun a => a.entry (f a.name)) i = (f a.name).join := by
  unfold argStr
  rw [List.getElem?_map, h]
  simp only [Option.map_some, ToolArg.entry]
  match f a.name with
  | none => rfl
  | some none => rfl
  | some (some s) => rfl

theorem argSet_table (T : List ToolArg) (f : Str → Option (Option Str)) (i : Nat) (a : ToolArg) (h : T[i]? = some a) :
    argSet (T.map fun a => a.entry (f a.name)) i = (f a.name).isSome := by
  unfold argSet
  rw [List.getElem?_map, h]
  simp only [Option.map_some, ToolArg.entry]
  match f a.name with
  | none => rfl
  | some none => rfl
  | some (some s) => rfl

theorem parts_kind {T : List ToolArg} {argv : List Str} {p : List CmdPart} (h : PartsOf T argv p) (n : Str) :
    CmdPart.named n none ∈ p → ∃ a ∈ T, a.name = n ∧ a.kind = .bool := by
  induction h with
  | nil => intro hm; cases hm
  | @switch w a r p ha hk hw _ ih =>
    intro hm
    rcases List.mem_cons.1 hm with h | h
    · cases h; exact ⟨a, ha, rfl, hk⟩
    · exact ih h
  | @value w a v r p ha hk hw _ ih =>
    intro hm
    rcases List.mem_cons.1 hm with h | h
    · cases h
    · exact ih h
  | @word w r p hw _ ih =>
    intro hm
    rcases List.mem_cons.1 hm with h | h
    · cases h
    · exact ih h

theorem meant_lookup (nm : Str → Option (Option Str)) (n : Str) : ∀ (T : List ToolArg) (ws : List Str), (meant nm T ws).lookup n = some (some none) →
    nm n = some none := by
  intro T
  induction T with
  | nil => intro ws h; cases h
  | cons a T ih =>
    intro ws h
    have hc : ∀ (d : Option (Option Str)) (ws : List Str), ((a.name, d) :: meant nm T ws).lookup n = some (some none) → (d = some none → nm a.name = some none) →
        nm n = some none := by
      intro d ws hl hd
      rw [List.lookup_cons] at hl
      by_cases he : n = a.name
      · subst he
        simp only [beq_self_eq_true, Option.some.injEq] at hl
        exact hd hl
      · rw [(beq_eq_false_iff_ne (a := n) (b := a.name)).2 he] at hl
        exact ih ws hl
    rw [meant.eq_def] at h
    dsimp only at h
    cases hn : nm a.name with
    | some v =>
      rw [hn] at h
      exact hc _ _ h fun e => by rw [hn, e]
    | none =>
      rw [hn] at h
      cases hb : a.byPlace with
      | false =>
        rw [hb] at h
        exact hc _ _ h (by simp)
      | true =>
        rw [hb] at h
        cases ws with
        | nil => exact hc _ _ h (by simp)
        | cons y ws => exact hc _ _ h (by simp)

/-- An argument with a value that is given has a value. -/
theorem meant_text {T : List ToolArg} (hT : DistinctNames T) {argv : List Str} {p : List CmdPart} (h : PartsOf T argv p) {a : ToolArg} (ha : a ∈ T)
    (hk : a.kind = .string) (hs : (Meant T p a.name).isSome = true) : ∃ s, (Meant T p a.name).join = some s := by
  cases hv : Meant T p a.name with
  | none => rw [hv] at hs; cases hs
  | some v =>
    cases v with
    | some s => exact ⟨s, rfl⟩
    | none =>
      exfalso
      unfold Meant at hv
      have hl : (meant (namedValue p) T (bareWords p)).lookup a.name = some (some none) := by
        cases hq : (meant (namedValue p) T (bareWords p)).lookup a.name with
        | none => rw [hq] at hv; cases hv
        | some y => rw [hq] at hv; exact congrArg some hv
      have hnv := meant_lookup _ _ _ _ hl
      unfold namedValue at hnv
      have hm := List.mem_of_getLast? hnv
      rw [List.mem_filterMap] at hm
      obtain ⟨x, hx, hxe⟩ := hm
      cases x with
      | word w => cases hxe
      | named m v =>
        simp only at hxe
        split at hxe
        · next hmn =>
          subst hmn
          cases hxe
          obtain ⟨b, hb, hbn, hbk⟩ := parts_kind h _ hx
          have : b = a := by
            apply Classical.byContradiction
            intro hne
            unfold DistinctNames at hT
            obtain ⟨i, hi, rfl⟩ := List.getElem_of_mem hb
            obtain ⟨j, hj, rfl⟩ := List.getElem_of_mem ha
            rw [List.pairwise_iff_getElem] at hT
            rcases Nat.lt_trichotomy i j with hlt | he | hgt
            · exact hT i j hi hj hlt (by rw [hbn])
            · subst he; exact hne rfl
            · exact hT j i hj hi hgt (by rw [hbn])
          subst this
          rw [hk] at hbk
          cases hbk
        · cases hxe

/-! ## The tools -/

/-- The arguments of CrashStats. -/
def statsNames : List ToolArg :=
  [{ name := b!"FILE", kind := .string, byPlace := true, needed := true }, { name := b!"SORT", kind := .string }, { name := b!"LAST7", kind := .bool },
   { name := b!"NOAREAS", kind := .bool }, { name := b!"NONODES", kind := .bool }, { name := b!"GROUP", kind := .string }]

/-- The arguments of CrashListOut. -/
def listOutNames : List ToolArg :=
  [{ name := b!"DIRECTORY", kind := .string, byPlace := true }, { name := b!"ZONE", kind := .string, byPlace := true },
   { name := b!"PATTERN", kind := .string, byPlace := true }, { name := b!"VERBOSE", kind := .bool }]

/-- The arguments of CrashGetNode. -/
def getNodeNames : List ToolArg :=
  [{ name := b!"NODE", kind := .string, byPlace := true, needed := true }, { name := b!"DIRECTORY", kind := .string, byPlace := true }]

/-- The arguments of CrashList. -/
def crashListNames : List ToolArg := [{ name := b!"DIRECTORY", kind := .string, byPlace := true }]

/-- The arguments of CrashExport. -/
def exportNames : List ToolArg :=
  [{ name := b!"PREFSFILE", kind := .string, byPlace := true, needed := true }, { name := b!"OUTFILE", kind := .string, byPlace := true, needed := true },
   { name := b!"FORMAT", kind := .string, byPlace := true, needed := true }, { name := b!"GROUP", kind := .string }]

/-- The arguments of CrashMaint. -/
def maintNames : List ToolArg :=
  [{ name := b!"MAINT", kind := .bool }, { name := b!"PACK", kind := .bool }, { name := b!"VERBOSE", kind := .bool },
   { name := b!"SETTINGS", kind := .string }, { name := b!"PATTERN", kind := .string }]

instance (T : List ToolArg) : Decidable (DistinctNames T) := inferInstanceAs (Decidable (T.Pairwise _))

/-- The text of an argument. -/
def askedText (T : List ToolArg) (p : List CmdPart) (n : Str) : Option Str := (Meant T p n).join

/-- Whether an argument is given. -/
def argGiven (T : List ToolArg) (p : List CmdPart) (n : Str) : Bool := (Meant T p n).isSome

theorem argStr_asked (T : List ToolArg) (p : List CmdPart) (i : Nat) (n : Str) (h : T[i]?.map (·.name) = some n) :
    argStr (T.map fun a => a.entry (Meant T p a.name)) i = askedText T p n := by
  cases ht : T[i]? with
  | none => rw [ht] at h; cases h
  | some a =>
    rw [ht] at h
    cases h
    exact argStr_table T (Meant T p) i a ht

theorem argSet_asked (T : List ToolArg) (p : List CmdPart) (i : Nat) (n : Str) (h : T[i]?.map (·.name) = some n) :
    argSet (T.map fun a => a.entry (Meant T p a.name)) i = argGiven T p n := by
  cases ht : T[i]? with
  | none => rw [ht] at h; cases h
  | some a =>
    rw [ht] at h
    cases h
    exact argSet_table T (Meant T p) i a ht

/-- The first word asks for help. -/
def AsksHelp (argv : List Str) : Prop := ∃ w r, argv = w :: r ∧ w ∈ [b!"?", b!"-h", b!"--help", b!"help", b!"/h", b!"/?"]

theorem help_iff (argv : List Str) : argv.head?.any helpWords.contains = true ↔ AsksHelp argv := by
  unfold AsksHelp
  cases argv with
  | nil => simp
  | cons w r =>
    rw [List.head?_cons, Option.any_some, List.contains_iff_mem]
    exact ⟨fun h => ⟨w, r, rfl, h⟩, fun ⟨w', r', e, h⟩ => by cases e; exact h⟩

/-- C119. Every tool shows its arguments if the first word asks for that, and does nothing else. -/
theorem tools_help (argv : List Str) (h : AsksHelp argv) :
    (∀ e read err, crashStatsMain e read err argv = .ok .help) ∧ (∀ e o z, listOutMain e o z argv = .ok .help) ∧
    (∀ l i env, getNodeMain l i env argv = .ok .help) ∧ (∀ d s c, crashListCmd d s c argv = .ok .help) ∧
    (∀ r c now, crashExportMain r c now argv = .ok .help) ∧ ∀ proc env, crashMaintMain proc env argv = .ret .help := by
  have hh := (help_iff argv).2 h
  refine ⟨fun _ _ _ => ?_, fun _ _ _ => ?_, fun _ _ _ => ?_, fun _ _ _ => ?_, fun _ _ _ => ?_, fun _ _ => ?_⟩
  · unfold crashStatsMain toolStart; rw [if_pos hh]
  · unfold listOutMain toolStart; rw [if_pos hh]
  · unfold getNodeMain toolStart; rw [if_pos hh]
  · unfold crashListCmd toolStart; rw [if_pos hh]
  · unfold crashExportMain toolStart; rw [if_pos hh]
  · unfold crashMaintMain; rw [if_pos hh]; rfl

/-- What CrashStats is asked to do. -/
def statsAsked (p : List CmdPart) : StatArgs :=
  { file := (askedText statsNames p b!"FILE").getD []
    sort := askedText statsNames p b!"SORT"
    last7 := argGiven statsNames p b!"LAST7"
    noAreas := argGiven statsNames p b!"NOAREAS"
    noNodes := argGiven statsNames p b!"NONODES"
    group := askedText statsNames p b!"GROUP" }

/-- C119. CrashStats does what its command line says. -/
theorem stats_cmdline_partial (e : StatEnv) (read : Str → Option Str) (err : Str) {argv : List Str} {p : List CmdPart} (hh : ¬ AsksHelp argv)
    (h : PartsOf statsNames argv p) (hn : NamesFirst statsNames p) :
    crashStatsMain e read err argv =
      if Sensible statsNames p then
        (crashStats e (statsAsked p) (read (statsAsked p).file) err).map fun r => .ran (if r.1 then 0 else 10) r.2
      else .ok .refused := by
  have hd : DistinctNames statsNames := by decide +kernel
  unfold crashStatsMain toolStart
  rw [if_neg (fun x => hh ((help_iff argv).1 x)), show csTableArgs = statsNames.map (·.entry none) from rfl, command_line_partial hd h hn]
  by_cases hs : Sensible statsNames p
  · rw [if_pos hs, if_pos hs]
    dsimp only
    obtain ⟨f, hf⟩ := meant_text hd h (a := statsNames[0]) (by decide +kernel) rfl (hs.2 _ (by decide +kernel) rfl)
    have hf' : askedText statsNames p b!"FILE" = some f := hf
    rw [argStr_asked statsNames p 0 b!"FILE" rfl, argStr_asked statsNames p 1 b!"SORT" rfl, argStr_asked statsNames p 5 b!"GROUP" rfl, argSet_asked statsNames p 2 b!"LAST7" rfl, argSet_asked statsNames p 3 b!"NOAREAS" rfl,
      argSet_asked statsNames p 4 b!"NONODES" rfl]
    rw [show askedText statsNames p b!"FILE" = some f from hf]
    have ha : statsAsked p = { file := f, sort := askedText statsNames p b!"SORT", last7 := argGiven statsNames p b!"LAST7", noAreas := argGiven statsNames p b!"NOAREAS", noNodes := argGiven statsNames p b!"NONODES", group := askedText statsNames p b!"GROUP" } := by
      unfold statsAsked; rw [hf']; rfl
    rw [ha]
    dsimp only
    generalize crashStats e _ (read f) err = r
    cases r <;> rfl
  · rw [if_neg hs, if_neg hs]

/-- What CrashListOut is asked to do. The directory is the current one and the zone is 2 if neither the command line nor the environment
has others. -/
def listOutAsked (p : List CmdPart) (outbound zone : Option Str) : LoArgs :=
  { dir := ((askedText listOutNames p b!"DIRECTORY").or outbound).getD b!"."
    zone := (((askedText listOutNames p b!"ZONE").or zone).map fun z => UInt32.ofInt (atoi z)).getD 2
    pattern := askedText listOutNames p b!"PATTERN"
    verbose := argGiven listOutNames p b!"VERBOSE" }

/-- C119. CrashListOut does what its command line says. -/
theorem listout_cmdline_partial (e : LoEnv) (outbound zone : Option Str) {argv : List Str} {p : List CmdPart} (hh : ¬ AsksHelp argv)
    (h : PartsOf listOutNames argv p) (hn : NamesFirst listOutNames p) :
    listOutMain e outbound zone argv =
      if Sensible listOutNames p then
        (listOut e (listOutAsked p outbound zone)).map fun r => .ran (if r = .badPattern then 10 else 0) r
      else .ok .refused := by
  have hd : DistinctNames listOutNames := by decide +kernel
  unfold listOutMain toolStart
  rw [if_neg (fun x => hh ((help_iff argv).1 x)), show loTableArgs = listOutNames.map (·.entry none) from rfl, command_line_partial hd h hn]
  by_cases hs : Sensible listOutNames p
  · rw [if_pos hs, if_pos hs]
    dsimp only
    rw [argStr_asked listOutNames p 0 b!"DIRECTORY" rfl, argStr_asked listOutNames p 1 b!"ZONE" rfl, argStr_asked listOutNames p 2 b!"PATTERN" rfl, argSet_asked listOutNames p 3 b!"VERBOSE" rfl]
    have ha : listOutAsked p outbound zone =
        { dir := ((askedText listOutNames p b!"DIRECTORY")).getD (outbound.getD b!".")
          zone := match (askedText listOutNames p b!"ZONE") with
            | some z => UInt32.ofInt (atoi z)
            | none => match zone with
              | some z => UInt32.ofInt (atoi z)
              | none => 2
          pattern := (askedText listOutNames p b!"PATTERN")
          verbose := (argGiven listOutNames p b!"VERBOSE") } := by
      unfold listOutAsked
      congr 1
      · cases askedText listOutNames p b!"DIRECTORY" <;> rfl
      · cases askedText listOutNames p b!"ZONE" with
        | some z => rfl
        | none => cases zone <;> rfl
    rw [ha]
    generalize listOut e _ = r
    cases r with
    | error x => rfl
    | ok r => cases r <;> simp [Except.map, LoEnd.code, bind, Except.bind]
  · rw [if_neg hs, if_neg hs]

/-- C119. CrashGetNode does what its command line says: it looks up the node in the directory given, or in that of the environment. -/
theorem getnode_cmdline_partial (lists : Str → Str → Option (List UInt8)) (index : Str → Option (List UInt8)) (env : Option Str) {argv : List Str}
    {p : List CmdPart} (hh : ¬ AsksHelp argv) (h : PartsOf getNodeNames argv p) (hn : NamesFirst getNodeNames p) :
    getNodeMain lists index env argv =
      if Sensible getNodeNames p then
        match (askedText getNodeNames p b!"DIRECTORY").or env with
        | none => .ok (.ran 10 none)
        | some dir => (getNode (lists dir) (index dir) ((askedText getNodeNames p b!"NODE").getD [])).map fun r =>
            .ran (match r with | .shown _ => 0 | _ => 10) (some r)
      else .ok .refused := by
  have hd : DistinctNames getNodeNames := by decide +kernel
  unfold getNodeMain toolStart
  rw [if_neg (fun x => hh ((help_iff argv).1 x)), show gnTableArgs = getNodeNames.map (·.entry none) from rfl, command_line_partial hd h hn]
  by_cases hs : Sensible getNodeNames p
  · rw [if_pos hs, if_pos hs]
    dsimp only
    obtain ⟨f, hf⟩ := meant_text hd h (a := getNodeNames[0]) (by decide +kernel) rfl (hs.2 _ (by decide +kernel) rfl)
    have hf' : askedText getNodeNames p b!"NODE" = some f := hf
    rw [argStr_asked getNodeNames p 0 b!"NODE" rfl, argStr_asked getNodeNames p 1 b!"DIRECTORY" rfl, show askedText getNodeNames p b!"NODE" = some f from hf]
    cases (askedText getNodeNames p b!"DIRECTORY").or env with
    | none => rfl
    | some dir =>
      dsimp only [Option.getD_some]
      generalize getNode (lists dir) (index dir) f = r
      cases r with
      | error x => rfl
      | ok r => cases r <;> rfl
  · rw [if_neg hs, if_neg hs]

/-- C119. CrashList compiles the nodelists of the directory given, or of the current one. -/
theorem crashlist_cmdline_partial (d : ClDisk) (stale : Nat → List UInt8) (canWrite : Str → Bool) {argv : List Str} {p : List CmdPart} (hh : ¬ AsksHelp argv)
    (h : PartsOf crashListNames argv p) (hn : NamesFirst crashListNames p) :
    crashListCmd d stale canWrite argv =
      if Sensible crashListNames p then
        let dir := (askedText crashListNames p b!"DIRECTORY").getD b!"."
        let r := crashListMain d dir stale (canWrite (makeFullPath dir b!"cmnodelist.index" 200))
        .ok (.ran (if r.2.2 then 0 else 10) (r.1, r.2.1))
      else .ok .refused := by
  have hd : DistinctNames crashListNames := by decide +kernel
  unfold crashListCmd toolStart
  rw [if_neg (fun x => hh ((help_iff argv).1 x)), show clTableArgs = crashListNames.map (·.entry none) from rfl, command_line_partial hd h hn]
  by_cases hs : Sensible crashListNames p
  · rw [if_pos hs, if_pos hs]
    dsimp only
    rw [argStr_asked crashListNames p 0 b!"DIRECTORY" rfl]
    rfl
  · rw [if_neg hs, if_neg hs]

/-- C119. CrashExport writes the list that is asked for, in the format asked for, to the file asked for. -/
theorem export_cmdline_partial (read : Str → Option (List UInt8)) (canWrite : Str → Bool) (now : Str) {argv : List Str} {p : List CmdPart}
    (hh : ¬ AsksHelp argv) (h : PartsOf exportNames argv p) (hn : NamesFirst exportNames p) (hs : Sensible exportNames p) :
    ∃ inp out fmt, askedText exportNames p b!"PREFSFILE" = some inp ∧ askedText exportNames p b!"OUTFILE" = some out ∧
      askedText exportNames p b!"FORMAT" = some fmt ∧
      (cxFormat fmt = none → crashExportMain read canWrite now argv = .ok (.ran 10 .badFormat)) ∧
      ∀ f, cxFormat fmt = some f →
        (read inp = none → crashExportMain read canWrite now argv = .ok (.ran 10 .noInput)) ∧
        ∀ c, read inp = some c →
          (canWrite out = false → crashExportMain read canWrite now argv = .ok (.ran 10 .noOutput)) ∧
          (canWrite out = true → inp ≠ out → crashExportMain read canWrite now argv =
            .ok (.ran 0 (.wrote out (crashExport f (askedText exportNames p b!"GROUP") now c)))) := by
  have hd : DistinctNames exportNames := by decide +kernel
  obtain ⟨inp, h0⟩ := meant_text hd h (a := exportNames[0]) (by decide +kernel) rfl (hs.2 _ (by decide +kernel) rfl)
  obtain ⟨out, h1⟩ := meant_text hd h (a := exportNames[1]) (by decide +kernel) rfl (hs.2 _ (by decide +kernel) rfl)
  obtain ⟨fmt, h2⟩ := meant_text hd h (a := exportNames[2]) (by decide +kernel) rfl (hs.2 _ (by decide +kernel) rfl)
  refine ⟨inp, out, fmt, h0, h1, h2, ?_⟩
  unfold crashExportMain toolStart
  rw [if_neg (fun x => hh ((help_iff argv).1 x)), show cxTableArgs = exportNames.map (·.entry none) from rfl, command_line_partial hd h hn, if_pos hs]
  dsimp only
  rw [argStr_asked exportNames p 0 b!"PREFSFILE" rfl, argStr_asked exportNames p 1 b!"OUTFILE" rfl, argStr_asked exportNames p 2 b!"FORMAT" rfl, argStr_asked exportNames p 3 b!"GROUP" rfl,
    show askedText exportNames p b!"PREFSFILE" = some inp from h0, show askedText exportNames p b!"OUTFILE" = some out from h1,
    show askedText exportNames p b!"FORMAT" = some fmt from h2]
  dsimp only
  refine ⟨fun hf => by rw [hf]; rfl, fun f hf => ?_⟩
  rw [hf]
  dsimp only
  refine ⟨fun hr => by rw [hr]; rfl, fun c hr => ?_⟩
  rw [hr]
  dsimp only
  refine ⟨fun hw => by rw [hw]; rfl, fun hw hne => ?_⟩
  rw [hw, if_neg hne]
  rfl

/-- C119. A command line that is not sensible is refused by CrashExport. -/
theorem export_refuses_partial (read : Str → Option (List UInt8)) (canWrite : Str → Bool) (now : Str) {argv : List Str} {p : List CmdPart}
    (hh : ¬ AsksHelp argv) (h : PartsOf exportNames argv p) (hn : NamesFirst exportNames p) (hs : ¬ Sensible exportNames p) :
    crashExportMain read canWrite now argv = .ok .refused := by
  have hd : DistinctNames exportNames := by decide +kernel
  unfold crashExportMain toolStart
  rw [if_neg (fun x => hh ((help_iff argv).1 x)), show cxTableArgs = exportNames.map (·.entry none) from rfl, command_line_partial hd h hn, if_neg hs]

/-- C119. CrashMaint does what its command line says. It has no arguments that can be given by place. -/
theorem maint_cmdline (proc : MaintJob → Prog Bool) (env : Option Str) {argv : List Str} {p : List CmdPart} (hh : ¬ AsksHelp argv)
    (h : PartsOf maintNames argv p) :
    crashMaintMain proc env argv =
      if Sensible maintNames p then
        (crashMaint proc { maint := argGiven maintNames p b!"MAINT", pack := argGiven maintNames p b!"PACK", pattern := askedText maintNames p b!"PATTERN" }
          (((askedText maintNames p b!"SETTINGS").or env).getD b!"crashmail.prefs")).bind fun r => .ret (.ran (if r = .failed then 10 else 0) r)
      else .ret .refused := by
  have hd : DistinctNames maintNames := by decide +kernel
  have hn : ∀ q : List CmdPart, NamesFirst maintNames q := by
    intro q
    induction q with
    | nil => trivial
    | cons x q ih =>
      cases x with
      | named n v => exact ih
      | word w =>
        refine ⟨fun a ha hb => ?_, ih⟩
        have : ∀ a ∈ maintNames, a.byPlace = false := by decide +kernel
        rw [this a ha] at hb
        cases hb
  unfold crashMaintMain
  rw [if_neg (fun x => hh ((help_iff argv).1 x)), show cmTableArgs = maintNames.map (·.entry none) from rfl, command_line_partial hd h (hn p)]
  by_cases hs : Sensible maintNames p
  · rw [if_pos hs, if_pos hs]
    dsimp only
    rw [argSet_asked maintNames p 0 b!"MAINT" rfl, argSet_asked maintNames p 1 b!"PACK" rfl, argStr_asked maintNames p 3 b!"SETTINGS" rfl, argStr_asked maintNames p 4 b!"PATTERN" rfl]
    have hc : ((askedText maintNames p b!"SETTINGS")).getD (env.getD b!"crashmail.prefs") =
        ((askedText maintNames p b!"SETTINGS").or env).getD b!"crashmail.prefs" := by
      cases askedText maintNames p b!"SETTINGS" <;> rfl
    rw [hc]
    show Prog.bind (crashMaint proc { maint := argGiven maintNames p b!"MAINT", pack := argGiven maintNames p b!"PACK", pattern := askedText maintNames p b!"PATTERN" } _) _ = _
    congr 1
    funext r
    cases r <;> rfl
  · rw [if_neg hs, if_neg hs]
    rfl

namespace Ex

/-- Words by place and by name together. -/
theorem listout_words : ∃ p, PartsOf listOutNames [b!"zone", b!"39", b!"verbose", b!"/out", b!"39:*"] p ∧ NamesFirst listOutNames p ∧ Sensible listOutNames p ∧
    askedText listOutNames p b!"DIRECTORY" = some b!"/out" ∧ askedText listOutNames p b!"ZONE" = some b!"39" ∧
    askedText listOutNames p b!"PATTERN" = some b!"39:*" ∧ argGiven listOutNames p b!"VERBOSE" = true := by
  refine ⟨[.named b!"ZONE" (some b!"39"), .named b!"VERBOSE" none, .word b!"/out", .word b!"39:*"], ?_, ?_, by decide +kernel, by decide +kernel,
    by decide +kernel, by decide +kernel, by decide +kernel⟩
  · exact .value (a := listOutNames[1]) (by decide +kernel) rfl (by decide +kernel)
      (.switch (a := listOutNames[3]) (by decide +kernel) rfl (by decide +kernel) (.word (by decide +kernel) (.word (by decide +kernel) .nil)))
  · refine ⟨?_, ?_, trivial⟩ <;> intro a _ _ v hm <;> simp at hm

/-- The full statement fails: a name after a word for the same argument. The word is dropped without notice. -/
theorem word_dropped : parseArgs cxTableArgs [b!"a.prefs", b!"PREFSFILE", b!"b.prefs", b!"out.txt", b!"golded"] =
    parseArgs cxTableArgs [b!"b.prefs", b!"out.txt", b!"golded"] ∧
    (parseArgs cxTableArgs [b!"a.prefs", b!"PREFSFILE", b!"b.prefs", b!"out.txt", b!"golded"]).isSome = true := by decide +kernel

/-- CrashListOut reports success if it cannot read the directory. -/
theorem listout_exit (e : LoEnv) (h : e.disk.scan b!"/none" = none) : listOutMain e none none [b!"/none"] = .ok (.ran 0 .noDir) := by
  have : listOutMain e none none [b!"/none"] = (listOut e { dir := b!"/none" }).bind fun r => .ok (.ran r.code r) := rfl
  rw [this]
  have h2 : listOut e { dir := b!"/none" } = .ok .noDir := by
    unfold listOut loPattern
    simp only [bind, Except.bind, h]
  rw [h2]
  rfl

/-- CrashExport with the name of the configuration also for the list: the configuration is lost. -/
theorem export_over_config : ∃ c, crashExportMain (fun f => if f = b!"cm.prefs" then some b!"SYSOP x\n" else none) (fun _ => true) b!"now\n"
    [b!"cm.prefs", b!"cm.prefs", b!"areasbbs"] = .ok (.ran 0 (.wrote b!"cm.prefs" (.ok c))) ∧
    c = b!"; Generated by CrashExport 1.5.1\n; now\n\nDefault origin ! Sysop\n" :=
  ⟨_, rfl, by decide +kernel⟩

end Ex

end CM
