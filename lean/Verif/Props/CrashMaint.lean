import Verif.Lemmas.CrashMaint
import Verif.Props.ReadConfig
import Verif.Props.MsgMaint
/-! # Maintenance of all areas (C94) -/

set_option linter.unusedSimpArgs false

namespace CM

/-- The work of a run is determined by the areas. -/
theorem jobs_exist (args : MaintArgs) (as : List Area) : ∃ js, Jobs args as js ∧ ∀ js', Jobs args as js' → js' = js := by
  have : ∃ js, Jobs args as js := by
    induction as with
    | nil => exact ⟨[], .nil⟩
    | cons a as ih =>
      obtain ⟨js, h⟩ := ih
      by_cases k : HasMessages a ∧ AskedFor args.pattern a
      · cases hb : a.base with
        | none => exact absurd hb k.1.1
        | some b => exact ⟨_ :: js, .job k.1 k.2 (j := ⟨b, a.tag, a.path, _⟩) ⟨hb, rfl, rfl, rfl⟩ h⟩
      · exact ⟨js, .skip k h⟩
  obtain ⟨js, h⟩ := this
  exact ⟨js, h, fun js' h' => h'.unique h⟩

/-- **C94 (partial).** CrashMaint run with a configuration that CrashMail accepts. The areas it maintains are those CrashMail
has, with the messages and the limits CrashMail has for them: templates and areas without messages are left out, and so are
those that were not asked for. Each is maintained once, in the order of the configuration. In detail: let `I` hold before, and
let `P i` describe the disk after the first `i` jobs, whatever maintaining an area does (`proc`). Then `I` holds at every moment, and when
the program comes to the end, all jobs have been done.

What is missing for the full claim: limits after templates and areas without messages (see `Ex.limit_of_template`), limits of 0, and
numbers written with thirty characters or more. -/
theorem crashmaint_run_partial (nl : Nodelist) (chk : Node4D → Bool) (file : List UInt8) (s : RdSt) (h : readConfig nl chk file = .ok s)
    (hl : LimitsInPlace s.cfg.areas) (hp : ∀ l ∈ fileLines 4000 file.length file, ProperLimit l)
    (args : MaintArgs) (hw : args.maint = true ∨ args.pack = true) (J : List MaintJob) (hj : Jobs args s.cfg.areas J)
    (w : World) (proc : MaintJob → Prog Bool) (I : FS → Prop) (P : Nat → FS → Prop) (hI : ∀ i fs, P i fs → I fs)
    (hP : ∀ (i : Nat) (j : MaintJob), J[i]? = some j → ∀ fs, P i fs → Through w I (fun r fs' => r = true → P (i + 1) fs') (proc j) fs)
    (cfg : Str) (fs : FS) (hf : fs cfg = some file) (h0 : P 0 fs) :
    Through w I (fun r fs' => r = .done → P J.length fs') (crashMaint proc args cfg) fs := by
  unfold readConfig at h
  have ha : MaintAlike s.cfg.areas (maintConfig file) := mrLines_alike hl h .nil hp
  have hJ := hj.unique (ha.jobs (args := args))
  unfold crashMaint
  rw [if_neg (by rcases hw with e | e <;> simp [e])]
  simp only [Prog.bind_eq, Prog.bind, Prog.pure_eq, readFile]
  refine .read (hI _ _ h0) (fun d hd => ?_) (fun _ => .ret (hI _ _ h0) fun e => by cases e)
  rw [hf] at hd
  cases hd
  exact maintLoop_through hI hP _ 0 fs (by rw [List.drop_zero]; exact hJ) (Nat.zero_le _) h0

/-- **C94.** Without MAINT and PACK nothing happens, whatever the configuration is. -/
theorem crashmaint_nothing (proc : MaintJob → Prog Bool) (args : MaintArgs) (h1 : args.maint = false) (h2 : args.pack = false) (cfg : Str) (w : World)
    (fs fs' : FS) (q : Prog MaintEnd) (hr : Reach w (crashMaint proc args cfg) fs q fs') : fs' = fs := by
  unfold crashMaint at hr
  rw [h1, h2] at hr
  cases hr with
  | here => rfl
  | step s _ => exact nomatch s

/-! ## Other files -/

/-- The files of the messages of an area: numbered files in its directory, or the files of the JAM base with its name. -/
def FileOf (j : MaintJob) (f : Str) : Prop :=
  if j.base = 0 then ∃ n, 1 ≤ n ∧ n < 2 ^ 32 ∧ f = msgFile j.path n else j.path <+: f

theorem slash_end {a b f g : Str} (h : a ++ 47 :: f = b ++ 47 :: g) (hf : (47 : UInt8) ∉ f) (hg : (47 : UInt8) ∉ g) : f = g := by
  have key : ∀ x y : Str, (47 : UInt8) ∉ y → ((x ++ 47 :: y).reverse.takeWhile (· != 47)) = y.reverse := by
    intro x y hy
    rw [List.reverse_append, List.reverse_cons, List.append_assoc, List.takeWhile_append_of_pos]
    · simp
    · intro c hc
      simp only [bne_iff_ne, ne_eq]
      rintro rfl
      exact hy (by simpa using hc)
  have := key a f hf
  rw [h, key b g hg] at this
  simpa using this.symm

theorem dir_slash (d : Str) : ∃ a, (if d.getLast? = some 47 then d else d ++ [47]) = a ++ [47] := by
  split
  · rename_i h
    obtain ⟨ys, e⟩ := List.getLast?_eq_some_iff.1 h
    exact ⟨ys, e⟩
  · exact ⟨d, rfl⟩

theorem ProperNames.keep {fs fs' : FS} {d1 d2 : Str} (h1 : DirName d1) (h2 : DirName d2) (ho : OnlyMessages d1 fs fs') (hp : ProperNames fs d2) :
    ProperNames fs' d2 := by
  intro f hf hm hs hn
  by_cases hx : ∃ n, 1 ≤ n ∧ n < 2 ^ 32 ∧ makeFullPath d2 f 200 = msgFile d1 n
  · obtain ⟨n, -, hn2, e⟩ := hx
    refine ⟨n, hn2, ?_⟩
    have hl : (dec n ++ b!".msg").length ≤ 14 := by
      have := dec_length_le (n := n) (k := 10) (by omega)
      simp only [List.length_append, List.length_cons, List.length_nil]; omega
    unfold msgFile inDir at e
    have hlen : (makeFullPath d2 f 200).length ≤ 95 := by
      rw [e]
      have := h1.2
      split <;> simp only [List.length_append, List.length_cons, List.length_nil] at hl ⊢ <;> omega
    have hfit : d2.length + f.length + 3 ≤ 200 := by
      apply Nat.le_of_not_lt
      intro hc
      have := makeFullPath_long d2 f h2.2 hc
      omega
    rw [makeFullPath_fits _ _ _ h2.1 hfit] at e
    obtain ⟨a, ea⟩ := dir_slash d2
    obtain ⟨b, eb⟩ := dir_slash d1
    rw [ea, eb, List.append_assoc, List.append_assoc] at e
    exact slash_end (a := a) (b := b) (by simpa using e) hf (no_slash_dec n)
  · rw [ho _ (fun n a b e => hx ⟨n, a, b, e⟩)] at hs
    exact hp f hf hm hs hn

/-- **C94.** Files that do not belong to one of the areas that are to be maintained are never touched, wherever the program is
stopped: the messages of other areas, of areas that were not asked for, and the configuration. What is done for a JAM area is left open;
it must touch no other files. -/
theorem crashmaint_others_partial (nl : Nodelist) (chk : Node4D → Bool) (file : List UInt8) (s : RdSt) (h : readConfig nl chk file = .ok s)
    (hl : LimitsInPlace s.cfg.areas) (hp : ∀ l ∈ fileLines 4000 file.length file, ProperLimit l)
    (args : MaintArgs) (hw : args.maint = true ∨ args.pack = true) (J : List MaintJob) (hj : Jobs args s.cfg.areas J)
    (w : World) (hr : ¬ w.renameFails) (today : UInt32) (date : Str) (hdate : date.length < 20) (jam : MaintJob → Prog Bool) (fs : FS)
    (hdir : ∀ j ∈ J, j.base = 0 → DirName j.path ∧ ProperNames fs j.path)
    (hjam : ∀ j ∈ J, j.base ≠ 0 → ∀ gs, Through w (fun gs' => ∀ f, ¬ j.path <+: f → gs' f = gs f) (fun _ _ => True) (jam j) gs)
    (hapart : ∀ i ∈ J, ∀ j ∈ J, i.base ≠ 0 → j.base = 0 → ∀ f, i.path <+: makeFullPath j.path f 200 → isMsgName f = false)
    (cfg : Str) (hf : fs cfg = some file) :
    Through w (fun fs' => ∀ f, (∀ j ∈ J, ¬ FileOf j f) → fs' f = fs f) (fun _ _ => True) (crashMaint (maintProc jam today date) args cfg) fs := by
  refine (crashmaint_run_partial nl chk file s h hl hp args hw J hj w (maintProc jam today date)
    (fun fs' => ∀ f, (∀ j ∈ J, ¬ FileOf j f) → fs' f = fs f)
    (fun _ fs' => (∀ f, (∀ j ∈ J, ¬ FileOf j f) → fs' f = fs f) ∧ ∀ j ∈ J, j.base = 0 → ProperNames fs' j.path)
    (fun _ _ h => h.1) ?_ cfg fs hf ⟨fun _ _ => rfl, fun j hj hb => (hdir j hj hb).2⟩).mono (fun _ h => h) (fun _ _ _ _ => trivial)
  intro i j hi gs hg
  have hmem := List.mem_of_getElem? hi
  unfold maintProc
  by_cases hb : j.base = 0
  · rw [if_pos hb]
    have hd := (hdir j hmem hb).1
    have only : ∀ gs', (gs' = gs ∨ ∃ es ms, DirList gs j.path isMsgName es ∧ Messages es ms ∧
        MaintNow j.path j.opt.pack gs gs' ((surviving j.opt (tooOld today j.opt.keepDays) ms).map (·.1))) → OnlyMessages j.path gs gs' := by
      rintro gs' (rfl | ⟨_, _, _, _, _, ho⟩)
      · exact fun _ _ => rfl
      · exact ho
    have stay : ∀ gs', OnlyMessages j.path gs gs' → ∀ f, (∀ j ∈ J, ¬ FileOf j f) → gs' f = fs f := by
      intro gs' ho f hfj
      rw [ho f (fun n h1 h2 e => hfj j hmem (by unfold FileOf; rw [if_pos hb]; exact ⟨n, h1, h2, e⟩))]
      exact hg.1 f hfj
    refine ((msg_maint_partial w hr j.opt today hdate hd (hg.2 j hmem hb)).mono (J := fun gs' => OnlyMessages j.path gs gs')
      (R := fun _ _ => True) only (fun _ _ _ _ => trivial)).bind (S := fun r gs' => r = true →
        (∀ f, (∀ j ∈ J, ¬ FileOf j f) → gs' f = fs f) ∧ ∀ j ∈ J, j.base = 0 → ProperNames gs' j.path)
      (fun _ gs' ho _ => .ret ho fun _ => ⟨stay gs' ho, fun k hk hkb => ?_⟩) |>.mono stay (fun _ _ _ h => h)
    exact (hg.2 k hk hkb).keep hd (hdir k hk hkb).1 ho
  · rw [if_neg hb]
    have stay : ∀ gs' : FS, (∀ f, ¬ j.path <+: f → gs' f = gs f) → ∀ f, (∀ j ∈ J, ¬ FileOf j f) → gs' f = fs f := by
      intro gs' ho f hfj
      rw [ho f (fun e => hfj j hmem (by unfold FileOf; rw [if_neg hb]; exact e))]
      exact hg.1 f hfj
    refine (hjam j hmem hb gs).mono stay (fun r gs' ho _ _ => ⟨stay gs' ho, fun k hk hkb f hf hm hs hn => ?_⟩)
    by_cases hx : j.path <+: makeFullPath k.path f 200
    · rw [hapart j hmem k hk hb hkb f hx] at hm; cases hm
    · rw [ho _ hx] at hs
      exact hg.2 k hk hkb f hf hm hs hn

/-! ## Concrete cases -/

namespace Ex

/-- A netmail area and an echomail area with limits, a template, an area without messages, and a local area. -/
def cmGood : Str :=
  b!"AKA 1:2/3\nNETMAIL MAIL 1:2/3 MSG /mail\nKEEPDAYS 30\nAREA ONE 1:2/3 jam /one\nKEEPNUM 100\nGROUP A\nKEEPDAYS 20\n" ++
  b!"AREA DEFAULT_A 1:2/3 MSG /new/%l\nGROUP A\nAREA PASS 1:2/3\nLOCALAREA TALK 1:2/3 MSG /talk\n"

instance (l : Str) : Decidable (LimitLine l) := inferInstanceAs (Decidable (_ ∨ _))
instance (l : Str) : Decidable (ProperLimit l) := inferInstanceAs (Decidable (_ → _))
instance (as : List Area) : Decidable (LimitsInPlace as) := inferInstanceAs (Decidable (∀ a ∈ as, _))

/-- Does CrashMail accept the file, and are the limits in place? -/
def cmInPlace (file : Str) : Bool :=
  match readConfig rdNl (fun _ => true) file with
  | .ok s => decide (LimitsInPlace s.cfg.areas ∧ ∀ l ∈ fileLines 4000 file.length file, ProperLimit l)
  | .error _ => false

theorem cmGood_inPlace : cmInPlace cmGood = true := by decide +kernel

/-- What CrashMaint finds in it. -/
theorem cmGood_areas : maintConfig cmGood =
    [⟨b!"MAIL", b!"MSG", b!"/mail", 0, 30⟩, ⟨b!"ONE", b!"jam", b!"/one", 100, 20⟩, ⟨b!"TALK", b!"MSG", b!"/talk", 0, 0⟩] := by decide +kernel

/-- So `crashmaint_run_partial` applies to this file; the three jobs are counted by `P`. -/
example (w : World) (fs : FS) (hf : fs b!"cfg" = some cmGood) : ∃ J : List MaintJob, J.map (fun j => (j.base, j.tag, j.opt.keepNum, j.opt.keepDays)) =
      [(0, b!"MAIL", 0, 30), (1, b!"ONE", 100, 20), (0, b!"TALK", 0, 0)] ∧
    Through w (fun fs' => ∀ f, f ≠ b!"/x" → fs' f = fs f)
      (fun r fs' => r = .done → fs' b!"/x" = some (List.replicate J.length 1))
      (crashMaint (fun _ => do
          match ← readFile b!"/x" with
          | none => return false
          | some d => return (← writeFile b!"/x" .new (1 :: d)) == some true) { maint := true, pack := false } b!"cfg") (fs.put b!"/x" (some [])) := by
  have h := cmGood_inPlace
  unfold cmInPlace at h
  cases hr : readConfig rdNl (fun _ => true) cmGood with
  | error e => rw [hr] at h; cases h
  | ok s =>
    rw [hr] at h
    obtain ⟨h1, h2⟩ := of_decide_eq_true h
    have ha : MaintAlike s.cfg.areas (maintConfig cmGood) := mrLines_alike h1 hr .nil h2
    refine ⟨_, ?_, crashmaint_run_partial rdNl (fun _ => true) cmGood s hr h1 h2 { maint := true, pack := false } (.inl rfl) _ ha.jobs w _ _
      (fun i fs' => fs' b!"/x" = some (List.replicate i 1) ∧ ∀ f, f ≠ b!"/x" → fs' f = fs f) (fun i fs h => h.2) ?_ _ _ ?_ ?_ |>.mono (fun _ h => h) (fun r fs' _ h e => (h e).1)⟩
    · rw [cmGood_areas]; decide +kernel
    · intro i j _ fs' hp
      simp only [Prog.bind_eq, Prog.bind, Prog.pure_eq, readFile, writeFile]
      have other : ∀ (d : Option Data) (f : Str), f ≠ b!"/x" → (fs'.put b!"/x" d) f = fs f := by
        intro d f hne
        unfold FS.put
        rw [if_neg hne]; exact hp.2 f hne
      refine .read hp.2 (fun d hd => ?_) (fun _ => .ret hp.2 fun e => by cases e)
      rw [hp.1] at hd
      cases hd
      refine .write hp.2 (fun _ _ _ => other _) (.ret (other _) fun _ => ⟨?_, other _⟩) (fun _ _ => .ret (other _) fun e => by cases e)
        (fun _ => .ret hp.2 fun e => by cases e)
      simp [FS.put, opened, overlay, List.replicate_succ]
    · unfold FS.put
      rw [if_neg (by decide)]; exact hf
    · refine ⟨by simp [FS.put], fun f hne => by unfold FS.put; rw [if_neg hne]⟩

/-- Two areas; the messages of LETTERS are those of `five`. -/
def cmTwo : Str := b!"AKA 1:2/3\nAREA LETTERS 1:2/3 MSG /m\nKEEPNUM 3\nAREA OTHER 1:2/3 MSG /o\nKEEPNUM 1\n"

theorem cmTwo_inPlace : cmInPlace cmTwo = true := by decide +kernel

def cmDisk : FS := (dirDisk five).put b!"cfg" (some cmTwo)

theorem cmDisk_names : ProperNames cmDisk b!"/m" := by
  intro f h1 h2 h3 h4
  refine five_names f h1 h2 ?_ h4
  unfold cmDisk FS.put at h3
  rw [if_neg] at h3
  · exact h3
  · intro e
    have hm : (b!"/m").length = 2 := rfl
    have hfit : (b!"/m").length + f.length + 3 ≤ 200 := by
      apply Nat.le_of_not_lt
      intro hl
      have := makeFullPath_long b!"/m" f msgDir.2 hl
      rw [e] at this
      simp at this
    rw [makeFullPath_fits _ _ _ msgDir.1 hfit] at e
    simp at e

/-- `crashmaint_others_partial` applies to a run for LETTERS: no file is touched but `/m/1.msg`, `/m/2.msg` and so on. -/
example : Through calm (fun fs' => ∀ f, (∀ n, 1 ≤ n → n < 2 ^ 32 → f ≠ msgFile b!"/m" n) → fs' f = cmDisk f) (fun _ _ => True)
    (crashMaint (maintProc (fun _ => return true) 100 date) { maint := true, pack := true, pattern := some b!"l*" } b!"cfg") cmDisk := by
  have h := cmTwo_inPlace
  unfold cmInPlace at h
  cases hr : readConfig rdNl (fun _ => true) cmTwo with
  | error e => rw [hr] at h; cases h
  | ok s =>
    rw [hr] at h
    obtain ⟨h1, h2⟩ := of_decide_eq_true h
    have ha : MaintAlike s.cfg.areas (maintConfig cmTwo) := mrLines_alike h1 hr .nil h2
    have hJ := ha.jobs (args := { maint := true, pack := true, pattern := some b!"l*" })
    have e : (maintConfig cmTwo).filterMap (jobFor { maint := true, pack := true, pattern := some b!"l*" }) =
      [{ base := 0, tag := b!"LETTERS", path := b!"/m", opt := { fiveOpt with keepDays := 0 } }] := rfl
    rw [e] at hJ
    refine (crashmaint_others_partial rdNl (fun _ => true) cmTwo s hr h1 h2 _ (.inl rfl) _ hJ calm calm_reliable.renames 100 date (by decide) (fun _ => return true)
      cmDisk ?_ ?_ ?_ b!"cfg" (by simp [cmDisk, FS.put])).mono (fun fs' hI f hf => hI f ?_) (fun _ _ _ _ => trivial)
    · intro j hj _
      rw [List.mem_singleton] at hj
      subst hj
      exact ⟨msgDir, cmDisk_names⟩
    · intro j hj hb
      rw [List.mem_singleton] at hj
      subst hj
      exact absurd rfl hb
    · intro i hi j _ hb
      rw [List.mem_singleton] at hi
      subst hi
      exact absurd rfl hb
    · intro j hj ho
      rw [List.mem_singleton] at hj
      subst hj
      unfold FileOf at ho
      rw [if_pos rfl] at ho
      obtain ⟨n, a, b, e⟩ := ho
      exact hf n a b e

/-- A template with a limit, after an area without one. -/
def cmTemplate : Str := b!"AKA 1:2/3\nAREA LETTERS 1:2/3 MSG /m\nAREA DEFAULT 1:2/3 MSG /new/%l\nKEEPNUM 3\n"

/-- **C94, violated.** A limit for new areas, given in a template, is taken for the limit of the area before it: for CrashMail, LETTERS has
no limit, but CrashMaint keeps only three messages of it. The same happens for a limit after an area without messages. -/
theorem limit_of_template :
    rdView (fun c => c.areas.map fun a => (a.tag, a.keepNum)) cmTemplate = some [(b!"LETTERS", 0), (b!"DEFAULT", 3)] ∧
    maintConfig cmTemplate = [⟨b!"LETTERS", b!"MSG", b!"/m", 3, 0⟩] ∧
    rdView (fun c => c.areas.map fun a => (a.tag, a.keepDays)) b!"AKA 1:2/3\nAREA ONE 1:2/3 JAM one\nAREA PASS 1:2/3\nKEEPDAYS 5\n" =
      some [(b!"ONE", 0), (b!"PASS", 5)] ∧
    maintConfig b!"AKA 1:2/3\nAREA ONE 1:2/3 JAM one\nAREA PASS 1:2/3\nKEEPDAYS 5\n" = [⟨b!"ONE", b!"JAM", b!"one", 0, 5⟩] := by
  decide +kernel

/-- Messages of LETTERS are then deleted: of the five messages in the directory, the run of `msg_maint_used` leaves two. -/
example : (maintConfig cmTemplate).filterMap (jobFor { maint := true, pack := true }) =
    [{ base := 0, tag := b!"LETTERS", path := b!"/m", opt := { fiveOpt with keepDays := 0 } }] := rfl

end Ex

end CM
