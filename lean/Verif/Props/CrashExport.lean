import Verif.Lemmas.CrashExport
import Verif.Lemmas.Nodelist
import Verif.Spec.AreaList
import Verif.Props.ReadConfig
/-! # Lists of areas for other programs (C90) -/

set_option linter.unusedSimpArgs false

namespace CM

/-! ## The name of the sysop -/

theorem rdOther_sysop (s : RdSt) (w rest : Str) : AllP' (fun t => t.cfg.sysop = s.cfg.sysop) (rdOther s w rest) := by
  have R : ∀ {t : RdSt}, t.cfg.sysop = s.cfg.sysop → AllP (fun t => t.cfg.sysop = s.cfg.sysop) (.ok t) := fun h => allP_ok h
  unfold rdOther
  refine allP'_ite (fun _ => allP_bind fun _ => R rfl) ?_
  refine allP'_ite (fun _ => allP_bind fun _ => R rfl) ?_
  refine allP'_ite (fun _ => allP_bind fun _ => R rfl) ?_
  refine allP'_ite (fun _ => allP_bind fun _ => R rfl) ?_
  refine allP'_ite (fun _ => allP_bind fun _ => allP_bind fun k => ?_) ?_
  · cases nodelistOf k.1
    · exact allP_error _
    · exact R rfl
  refine allP'_ite (fun _ => allP_bind fun _ => allP_ite (allP_error _) (R rfl)) ?_
  refine allP'_ite (fun _ => allP_bind fun _ => allP_bind fun _ => R rfl) ?_
  refine allP'_ite (fun _ => allP_bind fun _ => allP_ite (R rfl) (allP_ite (R rfl) (allP_ite (R rfl) (allP_error _)))) ?_
  refine allP'_ite (fun _ => allP_bind fun _ => allP_ite (R rfl) (allP_ite (R rfl) (allP_ite (R rfl) (allP_error _)))) ?_
  refine allP'_ite (fun _ => allP_bind fun _ => R rfl) ?_
  refine allP'_ite (fun _ => allP_bind fun _ => R rfl) ?_
  refine allP'_ite (fun _ => allP_bind fun _ => R rfl) ?_
  refine allP'_ite (fun _ => allP_bind fun _ => R rfl) ?_
  refine allP'_ite (fun _ => allP_bind fun _ => R rfl) ?_
  refine allP'_ite (fun _ => allP_bind fun _ => R rfl) ?_
  refine allP'_ite (fun _ => allP_bind fun _ => R rfl) ?_
  refine allP'_ite (fun _ => allP_bind fun _ => R rfl) ?_
  refine allP'_ite (fun _ => allP_bind fun _ => R rfl) ?_
  refine allP'_ite (fun _ => allP_bind fun _ => R rfl) ?_
  intro x hx; cases hx

theorem rdRest_sysop_other (s : RdSt) (w rest : Str) (hw : eqi w b!"SYSOP" = false) : AllP (fun t => t.cfg.sysop = s.cfg.sysop) (rdRest s w rest) := by
  unfold rdRest
  refine allP_ite (allP_bind fun k => allP_ok rfl) (allP_ite ?_ (allP_ite ?_ ?_))
  · cases h : s.cfg.akas.getLast? with
    | none => exact allP_error _
    | some k => exact allP_bind fun _ => allP_ok rfl
  · cases h : s.cfg.filters.getLast? with
    | none => exact allP_error _
    | some k => exact allP_bind fun _ => allP_ok rfl
  · cases switchOf cfgSwitches w with
    | some v => exact allP_ok rfl
    | none =>
      cases switchOf msgSwitches w with
      | some v => exact allP_ok rfl
      | none =>
        cases switchOf jamSwitches w with
        | some v => exact allP_ok rfl
        | none =>
          dsimp only
          cases hp : pathSettings.find? fun p => eqi w p.1 with
          | some p =>
            refine allP_bind fun t => allP_ok ?_
            have h1 := List.mem_of_find?_eq_some hp
            have h2 := List.find?_some hp
            simp only [pathSettings, List.mem_cons, List.not_mem_nil, or_false] at h1
            rcases h1 with rfl | rfl | rfl | rfl | rfl | rfl | rfl | rfl | rfl | rfl | rfl <;> first | rfl | (rw [hw] at h2; cases h2)
          | none =>
            dsimp only
            cases ho : rdOther s w rest with
            | some r => exact rdOther_sysop s w rest r ho
            | none => exact allP_ite (allP_error _) (allP_ok rfl)

theorem rdRest_sysop {s t : RdSt} {w rest : Str} (hw : eqi w b!"SYSOP" = true) (h : rdRest s w rest = .ok t) :
    ∃ r, rdArg 35 rest = .ok r ∧ t.cfg.sysop = r.1 := by
  have hf : (fun p : Str × UInt32 => eqi w p.1) = fun p => eqi b!"SYSOP" p.1 := funext fun p => eqi_same hw p.1
  have hf' : (fun p : Str × Nat × (RdSt → Str → RdSt) => eqi w p.1) = fun p => eqi b!"SYSOP" p.1 := funext fun p => eqi_same hw p.1
  unfold rdRest at h
  rw [if_neg (by rw [eqi_same hw]; decide), if_neg (by rw [any_same hw]; decide), if_neg (by rw [any_same hw]; decide),
    show switchOf cfgSwitches w = none from by unfold switchOf; rw [hf]; decide,
    show switchOf msgSwitches w = none from by unfold switchOf; rw [hf]; decide,
    show switchOf jamSwitches w = none from by unfold switchOf; rw [hf]; decide] at h
  dsimp only at h
  rw [hf', show pathSettings.find? (fun p => eqi b!"SYSOP" p.1) =
    some (b!"SYSOP", 35, fun s v => { s with cfg := { s.cfg with sysop := v } }) from rfl] at h
  obtain ⟨r, hr, h⟩ := ebind_ok.1 h
  rw [epure_ok] at h
  exact ⟨r, hr, by rw [← h]⟩

theorem cxSysop_ok : ∀ {ls : List Str} {s t : RdSt} {n : Str}, rdLines s ls = .ok t → (s.cfg.sysop.length < 34 → n = s.cfg.sysop) →
    t.cfg.sysop.length < 34 →
    ls.foldl (fun n l => if eqi (jbstrcpy 30 l).1 b!"SYSOP" then (jbstrcpy 100 (jbstrcpy 30 l).2.1).1 else n) n = t.cfg.sysop := by
  intro ls
  induction ls with
  | nil => intro s t n h hn hl; cases h; exact hn hl
  | cons l ls ih =>
    intro s t n h hn hl
    obtain ⟨u, h1, h2⟩ := rdLines_cons h
    rw [List.foldl_cons]
    refine ih h2 ?_ hl
    rw [show (jbstrcpy 30 l).1 = keyword l from rfl]
    have other : ∀ {L : List Str}, L.any (eqi (keyword l)) = true → L.any (eqi b!"SYSOP") = false → ¬ eqi (keyword l) b!"SYSOP" = true := by
      intro L hL hs he
      rw [any_same he, hs] at hL; cases hL
    rcases rdLine_cases h1 with ⟨a, hwd, h, rfl⟩ | ⟨A, a, b, hwd, hc, hA, h, rfl⟩ | ⟨m, hwd, hc, hd, h, rfl⟩ |
      ⟨M, m, k, hwd, hc, -, hd, hM, h, rfl⟩ | ⟨hwd, hc, hd, he, h⟩
    · rw [areaWord_any] at hwd
      rw [if_neg (other hwd (by decide))]; exact hn
    · rw [if_neg (other hc (by decide))]; exact hn
    · rw [if_neg (other (L := [b!"NODE"]) (by simpa using hd) (by decide))]; exact hn
    · rw [if_neg (other hd (by decide))]; exact hn
    · by_cases hw : eqi (keyword l) b!"SYSOP" = true
      · rw [if_pos hw]
        obtain ⟨r, hr, e⟩ := rdRest_sysop hw h
        intro hlen
        rw [e] at hlen ⊢
        rw [rdArg_word hr (by omega) (by omega)]
      · rw [if_neg hw, rdRest_sysop_other s _ _ (Bool.eq_false_iff.2 hw) _ h]
        exact hn

/-! ## The list -/

/-- **C90 (partial).** For every configuration file CrashMail accepts and every format, the list CrashExport
writes consists of the lines for the areas CrashMail has, in the same order. Left out are exactly the areas
without a name, the unconfirmed ones, the templates, and those not in the groups asked for. What is missing
for the full claim: areas with names, paths or descriptions that fill CrashMail's fields (the programs cut
them at different lengths), EXPORT lines with marks or with more than forty nodes (undefined behaviour, see
`export_undefined`), and addresses written with fifty characters. -/
theorem export_list_partial (nl : Nodelist) (chk : Node4D → Bool) (fmt : XFormat) (grp : Option Str) (now : Str) (file : List UInt8) (s : RdSt)
    (h : readConfig nl chk file = .ok s) (hm : ∀ a ∈ s.cfg.areas, Modest a) (hs : s.cfg.sysop.length < 34)
    (hw : ∀ l ∈ fileLines 4000 file.length file, isAreaWord (keyword l) = true → (thirdWord l).length < 49) :
    ∃ rows, ExportLines fmt grp (s.cfg.akas.map (·.node)) (s.cfg.nodes.map (·.node)) s.cfg.areas rows ∧
      crashExport fmt grp now file = .ok (exportHead fmt s.cfg.sysop now ++ rows.flatten) := by
  unfold readConfig at h
  have e : cxHead fmt (fileLines 4000 file.length file) now = exportHead fmt s.cfg.sysop now := by
    unfold cxHead exportHead cxSysop
    rw [cxSysop_ok (n := b!"Sysop") h (fun _ => rfl) hs]
  obtain ⟨y, g1, g2⟩ := cxLines_alike (fmt := fmt) (grp := grp) (head := exportHead fmt s.cfg.sysop now) hm (s := rdInit nl chk)
    (x := { out := cxHead fmt (fileLines 4000 file.length file) now }) h (.inl ⟨rfl, rfl, e⟩) hw
  obtain ⟨rs, k1, k2⟩ := g2.flush
  refine ⟨rs, k1.lines fun a ha => (hm a ha).desc, ?_⟩
  unfold crashExport
  dsimp only
  rw [g1]
  exact congrArg _ k2

/-! ## Lists for AreaFix -/

/-- Lines with what ends them. -/
def WholeLine (r : Str) : Prop := ∃ l, r = l ++ [10] ∧ 10 ∉ l ∧ 0 ∉ l ∧ 13 ∉ l ∧ l.length < 198

theorem fileLines_whole : ∀ (rows : List Str) (n : Nat), (∀ r ∈ rows, WholeLine r) → rows.length ≤ n → fileLines 199 n rows.flatten = rows := by
  intro rows
  induction rows with
  | nil => intro n _ _; cases n <;> simp [fileLines, osFGets]
  | cons r rows ih =>
    intro n hr hn
    obtain ⟨l, rfl, h10, h0, h13, hl⟩ := hr r (List.mem_cons_self ..)
    obtain ⟨k, rfl⟩ : ∃ k, n = k + 1 := ⟨n - 1, by simp at hn; omega⟩
    rw [fileLines]
    have e : osFGets 199 (((l ++ [10]) :: rows).flatten) = some (l ++ [10], rows.flatten) := by
      unfold osFGets
      rw [if_neg (by simp)]
      have : ((l ++ [10]) :: rows).flatten = l ++ 10 :: rows.flatten := by simp
      rw [this, fgetsRaw_line l rows.flatten (199 - 1) h10 (by omega)]
      have hc : cstr (l ++ [10]) = l ++ [10] := cstr_all _ (by simp [NoNul, h0])
      dsimp only
      rw [hc, fixCrLf_lf, if_neg]
      intro he
      exact h13 (List.mem_of_getLast? he)
    rw [e]
    dsimp only
    rw [if_neg (by simp), ih k (fun r h => hr r (List.mem_cons_of_mem _ h)) (by simp at hn; omega)]

/-- A name AreaFix can find in a list, and a description of one line. -/
structure ListWords (a : Area) : Prop where
  tag : ∀ c ∈ a.tag, 33 ≤ c ∧ c < 128
  desc : ∀ c ∈ a.description, c ≠ 0 ∧ c ≠ 10 ∧ c ≠ 13

theorem tagWord_line (t r : Str) (c : UInt8) (ht : ∀ c ∈ t, 33 ≤ c ∧ c < 128) (hc : c < 33) : tagWord (t ++ c :: r) = t := by
  unfold tagWord
  rw [List.takeWhile_append_of_pos (by simpa using ht), List.takeWhile_cons_of_neg, List.append_nil]
  simp only [decide_eq_true_eq, not_and]
  intro h
  exact absurd (UInt8.lt_of_lt_of_le hc h) (UInt8.lt_irrefl _)

/-- **C90.** What AreaFix finds in a list in the format FORWARD or FORWARDNODESC: the names of the listed
echomail areas in order, and before them a name that is no area, `;`, from the two lines of comment. -/
theorem forward_list (fmt : XFormat) (grp : Option Str) (akas nodes : List Node4D) (as : List Area) (rows : List Str) (sysop now : Str)
    (hf : fmt = .forward ∨ fmt = .forwardNoDesc) (h : ExportLines fmt grp akas nodes as rows) (ha : ∀ a ∈ as, Modest a ∧ ListWords a)
    (hn : WholeLine now) (hn' : now.length < 100) (p : Area → Bool) (hp : ∀ a, p a = true ↔ InList grp a ∧ a.type = .echomail) :
    (fileLines 199 (exportHead fmt sysop now ++ rows.flatten).length (exportHead fmt sysop now ++ rows.flatten)).map tagWord =
      [b!";", b!";", []] ++ (as.filter p).map (·.tag) := by
  have key : ∃ lines : List Str, rows.flatten = lines.flatten ∧ (∀ r ∈ lines, WholeLine r) ∧ lines.map tagWord = (as.filter p).map (·.tag) := by
    induction h with
    | nil => exact ⟨[], rfl, by simp, rfl⟩
    | @cons a as r rs h1 h2 t ih =>
      obtain ⟨ls, e1, e2, e3⟩ := ih fun a h => ha a (List.mem_cons_of_mem _ h)
      obtain ⟨hm, hw⟩ := ha a (List.mem_cons_self ..)
      by_cases hpa : p a = true
      · obtain ⟨hi, ht⟩ := (hp a).1 hpa
        have hr := h1 hi
        have hrow : r = a.tag ++ (if fmt = .forwardNoDesc ∨ a.description = [] then [] else b!" " ++ a.description) ++ b!"\n" := by
          rcases hf with rfl | rfl
          · dsimp only [ExportLine] at hr
            rw [if_pos ht] at hr
            rw [hr]
            by_cases hd : a.description = []
            · rw [if_pos hd, if_pos (.inr hd)]
            · rw [if_neg hd, if_neg (by simp [hd])]
          · dsimp only [ExportLine] at hr
            rw [if_pos ht] at hr
            rw [hr, if_pos (.inl rfl), List.append_nil]
        have htag : ∀ c : UInt8, c < 33 → c ∉ a.tag := by
          intro c hc hmem
          exact absurd (UInt8.lt_of_lt_of_le hc (hw.tag c hmem).1) (UInt8.lt_irrefl _)
        have hdesc : ∀ c : UInt8, c = 0 ∨ c = 10 ∨ c = 13 → c ∉ a.description := by
          intro c hc hmem
          have := hw.desc c hmem
          rcases hc with e | e | e
          · exact this.1 e
          · exact this.2.1 e
          · exact this.2.2 e
        refine ⟨r :: ls, by rw [List.flatten_cons, List.flatten_cons, e1], ?_, ?_⟩
        · intro q hq
          rcases List.mem_cons.1 hq with rfl | hq
          · refine ⟨_, hrow, ?_, ?_, ?_, ?_⟩
            · split
              · simpa using htag 10 (by decide)
              · simpa using ⟨htag 10 (by decide), hdesc 10 (by simp)⟩
            · split
              · simpa using htag 0 (by decide)
              · simpa using ⟨htag 0 (by decide), hdesc 0 (by simp)⟩
            · split
              · simpa using htag 13 (by decide)
              · simpa using ⟨htag 13 (by decide), hdesc 13 (by simp)⟩
            · have := hm.tag
              have := hm.desc
              split
              · simp; omega
              · simp; omega
          · exact e2 q hq
        · rw [List.map_cons, e3, List.filter_cons, if_pos hpa, List.map_cons, hrow]
          congr 1
          split
          · rw [List.append_nil]
            exact tagWord_line a.tag [] 10 hw.tag (by decide)
          · rw [List.append_assoc, List.append_assoc]
            exact tagWord_line a.tag (a.description ++ b!"\n") 32 hw.tag (by decide)
      · have hr : r = [] := by
          by_cases hi : InList grp a
          · have ht : ¬ a.type = .echomail := fun e => hpa ((hp a).2 ⟨hi, e⟩)
            have := h1 hi
            rcases hf with rfl | rfl <;> dsimp only [ExportLine] at this <;> rw [if_neg ht] at this <;> exact this
          · exact h2 hi
        refine ⟨ls, by rw [List.flatten_cons, hr, e1]; rfl, e2, ?_⟩
        rw [e3, List.filter_cons, if_neg hpa]
  obtain ⟨lines, e1, e2, e3⟩ := key
  obtain ⟨q, rfl, n1, n2, n3, n4⟩ := hn
  have eh : exportHead fmt sysop (q ++ [10]) = [b!"; Generated by CrashExport 1.5.1\n", b!"; " ++ q ++ b!"\n", b!"\n"].flatten := by
    unfold exportHead
    rw [if_neg (by rcases hf with rfl | rfl <;> decide)]
    simp
  have ef : exportHead fmt sysop (q ++ [10]) ++ rows.flatten =
      ([b!"; Generated by CrashExport 1.5.1\n", b!"; " ++ q ++ b!"\n", b!"\n"] ++ lines).flatten := by
    rw [eh, e1, List.flatten_append]
  rw [ef, fileLines_whole]
  · rw [List.map_append, e3]
    congr 1
  · intro r hr
    rcases List.mem_append.1 hr with hr | hr
    · simp only [List.mem_cons, List.not_mem_nil, or_false] at hr
      rcases hr with rfl | rfl | rfl
      · exact ⟨b!"; Generated by CrashExport 1.5.1", rfl, by decide, by decide, by decide, by decide⟩
      · refine ⟨b!"; " ++ q, rfl, by simpa using n1, by simpa using n2, by simpa using n3, ?_⟩
        simp at hn' ⊢; omega
      · exact ⟨[], rfl, by decide, by decide, by decide, by decide⟩
    · exact e2 r hr
  · have : ∀ L : List Str, (∀ r ∈ L, r ≠ []) → L.length ≤ L.flatten.length := by
      intro L
      induction L with
      | nil => simp
      | cons x L ih =>
        intro hL
        have h1 := ih fun r h => hL r (List.mem_cons_of_mem _ h)
        have h2 := List.length_pos_iff.2 (hL x (List.mem_cons_self ..))
        simp only [List.length_cons, List.flatten_cons, List.length_append]
        omega
    apply this
    intro r hr
    rcases List.mem_append.1 hr with hr | hr
    · simp only [List.mem_cons, List.not_mem_nil, or_false] at hr
      rcases hr with rfl | rfl | rfl <;> simp
    · obtain ⟨l, e, -⟩ := e2 r hr
      rw [e]; simp

/-! ## Concrete cases -/

namespace Ex

def cxFile : Str :=
  b!"SYSOP \"Any One\"\nAKA 1:2/3\nNODE 1:2/4 \"\" \"\"\nNODE 1:2/5 \"\" \"\"\nNETMAIL MAIL 1:2/3 MSG mail\n" ++
  b!"AREA ONE 1:2/3 JAM one\nEXPORT 1:2/4 5\nGROUP a\nDESCRIPTION \"The \\\"first\\\" area\"\n" ++
  b!"AREA NEW 1:2/3 JAM new\nUNCONFIRMED\nAREA DEFAULT_A 1:2/3 MSG all/%l\nAREA PASS 1:2/3\nEXPORT 1:2/5\n"

def cxNow : Str := b!"Sun Nov 15 12:00:00 2026\n"

/-- What is written behind the two lines of comment and the empty line. -/
def cxRows (fmt : XFormat) (grp : Option Str) (file : Str) : Option Str :=
  match crashExport fmt grp cxNow file with
  | .ok out => some (out.drop (exportHead .forward [] cxNow).length)
  | .error _ => none

theorem cx_areasBbs : cxRows .areasBbs none cxFile =
    some (b!"Default origin ! Any One\n" ++ b!"!one ONE 1:2/4 1:2/5\n" ++ b!"#PASS PASS 1:2/5\n") := by decide +kernel
theorem cx_forward : cxRows .forward none cxFile = some (b!"ONE The \"first\" area\n" ++ b!"PASS\n") := by decide +kernel
theorem cx_forwardNoDesc : cxRows .forwardNoDesc none cxFile = some b!"ONE\nPASS\n" := by decide +kernel
theorem cx_group : cxRows .forward (some b!"xA") cxFile = some b!"ONE The \"first\" area\n" := by decide +kernel
theorem cx_golded : cxRows .golded none cxFile =
    some (b!"AREADEF MAIL \"\" 0 NET FTS1 mail 1:2/3 (Loc Pvt)\n" ++ b!"AREADEF ONE \"The 'first' area\" a ECHO JAM one 1:2/3 (Loc)\n") := by
  decide +kernel
theorem cx_timed : cxRows .timed none cxFile =
    some (b!"NetArea \"\" MAIL mail -P1:2/3\n" ++ b!"EchoArea \"The 'first' area\" ONE one -P1:2/3 -J\n") := by
  decide +kernel

instance (a : Area) : Decidable (Modest a) :=
  decidable_of_iff (a.tag.length < 79 ∧ a.path.length < 79 ∧ a.description.length < 79 ∧ (∀ t ∈ a.tossNodes, t.flags = 0) ∧ a.tossNodes.length ≤ 40)
    ⟨fun ⟨h1, h2, h3, h4, h5⟩ => ⟨h1, h2, h3, h4, h5⟩, fun ⟨h1, h2, h3, h4, h5⟩ => ⟨h1, h2, h3, h4, h5⟩⟩

instance (a : Area) : Decidable (ListWords a) :=
  decidable_of_iff ((∀ c ∈ a.tag, 33 ≤ c ∧ c < 128) ∧ ∀ c ∈ a.description, c ≠ 0 ∧ c ≠ 10 ∧ c ≠ 13)
    ⟨fun ⟨h1, h2⟩ => ⟨h1, h2⟩, fun ⟨h1, h2⟩ => ⟨h1, h2⟩⟩

/-- Does CrashMail accept the file, with areas both programs read alike? -/
def cxModest (file : Str) : Bool :=
  match readConfig rdNl (fun _ => true) file with
  | .ok s => decide ((∀ a ∈ s.cfg.areas, Modest a) ∧ s.cfg.sysop.length < 34)
  | .error _ => false

theorem cxFile_modest : cxModest cxFile = true := by decide +kernel

/-- So `export_list_partial` applies to this file. -/
example : ∃ s rows, readConfig rdNl (fun _ => true) cxFile = .ok s ∧
    ExportLines .golded (some b!"A") (s.cfg.akas.map (·.node)) (s.cfg.nodes.map (·.node)) s.cfg.areas rows := by
  have h := cxFile_modest
  unfold cxModest at h
  cases hr : readConfig rdNl (fun _ => true) cxFile with
  | error e => rw [hr] at h; cases h
  | ok s =>
    rw [hr] at h
    obtain ⟨h1, h2⟩ := of_decide_eq_true h
    obtain ⟨rows, h3, -⟩ := export_list_partial rdNl (fun _ => true) .golded (some b!"A") cxNow cxFile s hr h1 h2 (by decide +kernel)
    exact ⟨s, rows, rfl, h3⟩

/-- And so does `forward_list`. -/
example : (match readConfig rdNl (fun _ => true) cxFile with
    | .ok s => decide (s.cfg.areas.length = 5 ∧ ∀ a ∈ s.cfg.areas, Modest a ∧ ListWords a)
    | .error _ => false) = true := by decide +kernel
example : WholeLine cxNow ∧ cxNow.length < 100 := ⟨⟨cxNow.dropLast, by decide, by decide, by decide, by decide, by decide⟩, by decide⟩

/-- Is the file accepted by CrashMail, and what does CrashExport do with it? -/
def cxBoth (file : Str) : Bool × Option CxErr :=
  ((match readConfig rdNl (fun _ => true) file with | .ok _ => true | .error _ => false),
   (match crashExport .forward none cxNow file with | .ok _ => none | .error e => some e))

/-- A link with a mark. -/
def cxMarked : Str := b!"AKA 1:2/3\nNODE 1:2/4 \"\" \"\"\nAREA ONE 1:2/3\nEXPORT !1:2/4\n"

/-- An area with 42 links. -/
def cxMany : Str :=
  b!"AKA 1:2/3\nNODE 11111:11111/11111.11111 \"\" \"\"\nNODE 11:11111/11111.1 \"\" \"\"\nAREA ONE 1:2/3\nEXPORT" ++
  (List.replicate 40 b!" 11111:11111/11111.11111").flatten ++ b!" 11:11111/11111.1 11111:11111/11111.11111\n"

/-- **C90, violated.** For a configuration that CrashMail accepts, CrashExport copies a string onto itself as
soon as a node has one of the marks `!`, `@` and `%` (undefined behaviour), and writes behind the end of its
variable when the addresses of an area fill it. -/
theorem export_undefined : cxBoth cxMarked = (true, some .overlap) ∧ cxBoth cxMany = (true, some .oobWrite) := by
  decide +kernel

/-- A description of 90 characters. -/
def cxLong : Str := b!"AKA 1:2/3\nAREA ONE 1:2/3\nDESCRIPTION " ++ List.replicate 90 120 ++ b!"\n"

/-- **C90, violated.** A long description is cut after 79 characters by CrashMail, but not by CrashExport. -/
theorem export_cut : rdView (fun c => c.areas.map (·.description)) cxLong = some [List.replicate 79 120] ∧
    cxRows .forward none cxLong = some (b!"ONE " ++ List.replicate 90 120 ++ b!"\n") := by
  decide +kernel

/-- The list of the first file, as AreaFix reads it. -/
example : ((match crashExport .forward none cxNow cxFile with | .ok out => fileLines 199 out.length out | .error _ => []).map tagWord) =
    [b!";", b!";", [], b!"ONE", b!"PASS"] := by decide +kernel

end Ex

end CM
