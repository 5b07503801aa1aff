import Verif.Model.FileOps
import Verif.Lemmas.Disk
import Verif.Props.Strings
/-! # C42, C33, C55: bad packets, replacing files, locks -/

set_option linter.unusedSimpArgs false

namespace CM

/-! ## Moving a file -/

/-- The disk while `f` is moved to `g`: no other file changes, and the contents are complete under one
of the names. -/
def Moving (fs : FS) (f g : Str) (d : Data) (fs' : FS) : Prop :=
  (∀ h, h ≠ f → h ≠ g → fs' h = fs h) ∧ (fs' f = some d ∨ fs' g = some d)

theorem overlay_new (d : Data) : overlay [] 0 d = d := by simp [overlay]

/-- Moving a file: it is complete at every moment under one of the names, and under the new one in the
end if the function says so. -/
theorem movefile_through (w : World) (io : Bool) (fs : FS) (f g : Str) (d : Data) (hf : fs f = some d) (hne : f ≠ g) :
    Through w (Moving fs f g d)
      (fun r fs' => (r.1 = true → fs' g = some d) ∧ (r.1 = false → fs' f = some d) ∧
        (¬ w.renameFails → r = (true, io) ∧ fs' f = none) ∧ (io = false → ¬ w.writeFails → r.2 = false))
      (movefile io f g) fs := by
  have start : Moving fs f g d fs := ⟨fun _ _ _ => rfl, .inl hf⟩
  have wr : ∀ x, Moving fs f g d (fs.put g x) := fun x =>
    ⟨fun h _ h2 => FS.put_ne _ h2 _, .inl (by rw [FS.put_ne _ hne, hf])⟩
  unfold movefile copyfile
  simp only [Prog.bind_eq, osRename, Prog.bind, readFile, writeFile, osDelete]
  refine .rename start ?_ ?_
  · intro d' e
    rw [hf] at e
    cases e
    refine .ret ⟨fun h h1 h2 => by rw [FS.put_ne _ h2, FS.put_ne _ h1], .inr (FS.put_self _ _ _)⟩ ?_
    refine ⟨fun _ => FS.put_self _ _ _, by simp, fun _ => ⟨rfl, ?_⟩, fun h _ => h⟩
    rw [FS.put_ne _ hne, FS.put_self]
  · intro hrn
    have hrn : w.renameFails := hrn.resolve_left (by simp [hf])
    refine .read start ?_ ?_
    · intro d' e
      rw [hf] at e
      cases e
      refine .write start (fun d' t' e => by exact wr _) ?_ ?_ ?_
      · simp only [opened, overlay_new]
        cases io with
        | true =>
          simp only [Bool.true_or, if_true]
          refine .delete (wr _) (fun x hx => ?_) (fun _ => ?_)
          · rw [FS.put_put]
            exact .ret (wr _) ⟨by simp, fun _ => by rw [FS.put_ne _ hne, hf], fun h => absurd hrn h, by simp⟩
          · exact .ret (wr _) ⟨by simp, fun _ => by rw [FS.put_ne _ hne, hf], fun h => absurd hrn h, by simp⟩
        | false =>
          simp only [Bool.false_eq_true, Bool.not_true, Bool.or_self, if_false]
          refine .delete (wr _) (fun x hx => ?_) (fun _ => ?_)
          · refine .ret ⟨fun h h1 h2 => ?_, .inr ?_⟩ ⟨fun _ => ?_, by simp, fun h => absurd hrn h, fun _ _ => rfl⟩
            · rw [FS.put_ne _ h1, FS.put_ne _ h2]
            · rw [FS.put_ne _ (Ne.symm hne), FS.put_self]
            · rw [FS.put_ne _ (Ne.symm hne), FS.put_self]
          · exact .ret (wr _) ⟨fun _ => FS.put_self _ _ _, by simp, fun h => absurd hrn h, fun _ _ => rfl⟩
      · intro hw junk
        simp only [Bool.not_false, Bool.or_true, if_true]
        refine .delete (wr _) (fun x hx => ?_) (fun _ => ?_)
        · rw [FS.put_put]
          exact .ret (wr _) ⟨by simp, fun _ => by rw [FS.put_ne _ hne, hf], fun h => absurd hrn h, fun _ h => absurd hw h⟩
        · exact .ret (wr _) ⟨by simp, fun _ => by rw [FS.put_ne _ hne, hf], fun h => absurd hrn h, fun _ h => absurd hw h⟩
      · intro _
        exact .ret start ⟨by simp, fun _ => hf, fun h => absurd hrn h, fun h _ => h⟩
    · intro _
      exact .ret start ⟨by simp, fun _ => hf, fun h => absurd hrn h, fun h _ => h⟩

/-! ## C42: bad packets -/

theorem badName_length (inbound file : Str) (n : Nat) (hn : n < 100000) :
    (badName inbound file n).length < 100 ∧ (dec n).length + 1 < 10 := by
  have h1 : (makeFullPath inbound (getFilePart file) 90).length ≤ 89 := by
    have := makeFullPath_bounds inbound (getFilePart file) 90 (by omega)
    omega
  have h2 : (dec n).length ≤ 5 := dec_length_le (by omega) (by omega)
  unfold badName
  constructor
  · split <;> simp <;> omega
  · omega

theorem badLoop_through (w : World) (I : FS → Prop) (fs : FS) (hI : I fs) (inbound file : Str) (n : Nat) (hn : n < 100000)
    (hfree : fs (badName inbound file n) = none) (fuel num : Nat) (hnum : num ≤ n) (hf : n < num + fuel) :
    Through w I (fun dest fs' => fs' = fs ∧ fs dest = none ∧ ∃ m, m ≤ n ∧ dest = badName inbound file m)
      (badLoop inbound file fuel num) fs := by
  induction fuel generalizing num with
  | zero => omega
  | succ fuel ih =>
    rw [badLoop]
    have hl := badName_length inbound file num (by omega)
    rw [if_neg (by omega)]
    simp only [osExists, Prog.bind_eq, Prog.bind]
    refine .exist hI ?_
    cases hx : fs (badName inbound file num) with
    | none => exact .ret hI ⟨rfl, hx, num, hnum, rfl⟩
    | some d =>
      have : num ≠ n := by rintro rfl; rw [hfree] at hx; cases hx
      exact ih (num + 1) (by omega) (by omega)

/-- **C42.** A bad packet is renamed to an unused name if one of the first 100000 candidates is free:
whatever fails and wherever the program is stopped, no other file is touched, the name used was free
and has the form of a bad packet, and the packet is complete under its old or its new name. If renaming
works it ends up under the new one. -/
theorem bad_kept (w : World) (io : Bool) (fs : FS) (inbound file : Str) (d : Data) (hf : fs file = some d) (n fuel : Nat)
    (hn : n < 100000) (hfree : fs (badName inbound file n) = none) (hfuel : n < fuel) :
    Through w (fun fs' => ∃ m ≤ n, fs (badName inbound file m) = none ∧ Moving fs file (badName inbound file m) d fs')
      (fun _ fs' => ¬ w.renameFails → ∃ m ≤ n, fs (badName inbound file m) = none ∧ fs' (badName inbound file m) = some d ∧
        fs' file = none) (badFile fuel io inbound file) fs := by
  have start : ∃ m ≤ n, fs (badName inbound file m) = none ∧ Moving fs file (badName inbound file m) d fs :=
    ⟨n, Nat.le_refl n, hfree, fun _ _ _ => rfl, .inl hf⟩
  unfold badFile
  simp only [Prog.bind_eq]
  refine Through.bind (badLoop_through w _ fs start inbound file n hn hfree fuel 0 (by omega) (by omega)) ?_
  rintro dest gs _ ⟨rfl, hd, m, hm, rfl⟩
  have hne : file ≠ badName inbound file m := by
    intro e
    rw [← e, hf] at hd
    cases hd
  refine Through.bind (Q := fun r fs' => Moving gs file (badName inbound file m) d fs' ∧ (¬ w.renameFails → r = (true, io) ∧ fs' file = none ∧ fs' (badName inbound file m) = some d)) ?_ ?_
  · refine (movefile_through w io gs file _ d hf hne).mono (fun fs' h => ⟨m, hm, hd, h⟩) ?_
    rintro ⟨ok, io'⟩ fs' h ⟨h1, h2, h3, _⟩
    refine ⟨h, fun hr => ?_⟩
    obtain ⟨e, h4⟩ := h3 hr
    cases e
    exact ⟨rfl, h4, h1 rfl⟩
  · rintro ⟨ok, io'⟩ fs' h ⟨h1, h2⟩
    exact .ret h fun hr => ⟨m, hm, hd, (h2 hr).2.2, (h2 hr).2.1⟩

/-- The names of the candidates are different, so that there is a free one unless all are in use. -/
theorem badName_inj (inbound file : Str) {m n : Nat} (h : badName inbound file m = badName inbound file n) : m = n := by
  unfold badName at h
  have h := List.append_cancel_left h
  by_cases hm : m = 0 <;> by_cases hn : n = 0 <;> simp [hm, hn] at h ⊢
  exact dec_inj h

/-! ## C33: replacing the configuration -/

theorem ext_ne (f : Str) : f ++ b!".tmp" ≠ f ∧ f ++ b!".bak" ≠ f ∧ f ++ b!".tmp" ≠ f ++ b!".bak" := by
  refine ⟨?_, ?_, ?_⟩
  · intro h; have := congrArg List.length h; simp at this
  · intro h; have := congrArg List.length h; simp at this
  · intro h; have := List.append_cancel_left h; revert this; decide

/-- **C33 (partial).** While the configuration is replaced, the complete old or new one is on the disk
under its name, or the old one under the `.bak` name, whatever fails and wherever the program is
stopped; no other files are touched but the `.tmp` file. If nothing fails the new configuration is in
place, and the old one is kept. Missing: if both writing and renaming can fail, both can be lost
(`Ex.config_lost`). -/
theorem config_kept_partial (w : World) (hw : ¬ w.writeFails ∨ ¬ w.renameFails) (fs : FS) (file : Str)
    (rewrite : Data → Except UB Data) (old new : Data) (hl : file.length ≤ 99) (ho : fs file = some old)
    (hn : rewrite old = .ok new) :
    Through w (fun fs' => (fs' file = some old ∨ fs' file = some new ∨ fs' (file ++ b!".bak") = some old) ∧
        ∀ g, g ≠ file → g ≠ file ++ b!".tmp" → g ≠ file ++ b!".bak" → fs' g = fs g)
      (fun ok fs' => w.Reliable → ok = true ∧ fs' file = some new ∧ fs' (file ++ b!".bak") = some old ∧ fs' (file ++ b!".tmp") = none)
      (replaceConfig file rewrite) fs := by
  obtain ⟨n1, n2, n3⟩ := ext_ne file
  generalize hti : file ++ b!".tmp" = tmp at *
  generalize hbi : file ++ b!".bak" = bak at *
  have start : (fs file = some old ∨ fs file = some new ∨ fs bak = some old) ∧
      ∀ g, g ≠ file → g ≠ tmp → g ≠ bak → fs g = fs g := ⟨.inl ho, fun _ _ _ _ => rfl⟩
  have wr : ∀ x, ((fs.put tmp x) file = some old ∨ (fs.put tmp x) file = some new ∨ (fs.put tmp x) bak = some old) ∧
      ∀ g, g ≠ file → g ≠ tmp → g ≠ bak → (fs.put tmp x) g = fs g :=
    fun x => ⟨.inl (by rw [FS.put_ne _ (Ne.symm n1), ho]), fun g _ h _ => FS.put_ne _ h _⟩
  have wr2 : ∀ x y, (((fs.put tmp x).put bak y) file = some old ∨ ((fs.put tmp x).put bak y) file = some new ∨ ((fs.put tmp x).put bak y) bak = some old) ∧
      ∀ g, g ≠ file → g ≠ tmp → g ≠ bak → ((fs.put tmp x).put bak y) g = fs g :=
    fun x y => ⟨.inl (by rw [FS.put_ne _ (Ne.symm n2), FS.put_ne _ (Ne.symm n1), ho]), fun g _ h h' => by rw [FS.put_ne _ h', FS.put_ne _ h]⟩
  unfold replaceConfig
  rw [if_neg (by omega), hti, hbi]
  simp only [Prog.bind_eq, readFile, Prog.bind]
  refine .read start ?_ ?_
  · intro d e
    rw [ho] at e
    cases e
    simp only [hn, liftUB, writeFile, Prog.bind]
    -- after the new file has been written
    have rest : ∀ t : Data, (t = new ∨ w.writeFails) →
        Through w (fun fs' => (fs' file = some old ∨ fs' file = some new ∨ fs' bak = some old) ∧
          ∀ g, g ≠ file → g ≠ tmp → g ≠ bak → fs' g = fs g)
        (fun ok fs' => w.Reliable → ok = true ∧ fs' file = some new ∧ fs' bak = some old ∧ fs' tmp = none)
        ((osDelete bak).bind fun _ => (osRename file bak).bind fun _ => (osRename tmp file).bind fun _ => pure true)
        (fs.put tmp (some t)) := by
      intro t ht
      have rest2 : ∀ y, (y = none ∨ w.deleteFails ∨ y = fs bak) →
          Through w (fun fs' => (fs' file = some old ∨ fs' file = some new ∨ fs' bak = some old) ∧
            ∀ g, g ≠ file → g ≠ tmp → g ≠ bak → fs' g = fs g)
          (fun ok fs' => w.Reliable → ok = true ∧ fs' file = some new ∧ fs' bak = some old ∧ fs' tmp = none)
          ((osRename file bak).bind fun _ => (osRename tmp file).bind fun _ => pure true)
          ((fs.put tmp (some t)).put bak y) := by
        intro y hy
        have hfile : ((fs.put tmp (some t)).put bak y) file = some old := by
          rw [FS.put_ne _ (Ne.symm n2), FS.put_ne _ (Ne.symm n1), ho]
        simp only [osRename, Prog.bind]
        refine .rename (wr2 _ _) ?_ ?_
        · intro d e
          rw [hfile] at e
          cases e
          rw [show ((fs.put tmp (some t)).put bak y).put file none = ((fs.put tmp (some t)).put file none).put bak y by
            funext g; simp only [FS.put]; split <;> split <;> simp_all]
          rw [FS.put_put]
          have key : ∀ x : Option Data, (((fs.put tmp x).put file none).put bak (some old)) bak = some old := fun x => FS.put_self _ _ _
          have oth : ∀ (x z : Option Data) g, g ≠ file → g ≠ tmp → g ≠ bak → (((fs.put tmp x).put file z).put bak (some old)) g = fs g := by
            intro x z g h1 h2 h3
            rw [FS.put_ne _ h3, FS.put_ne _ h1, FS.put_ne _ h2]
          refine .rename ⟨.inr (.inr (key _)), oth _ _⟩ ?_ ?_
          · intro d e
            rw [FS.put_ne _ n3, FS.put_ne _ n1, FS.put_self] at e
            cases e
            refine .ret ⟨.inr (.inr ?_), ?_⟩ ?_
            · rw [FS.put_ne _ n2, FS.put_ne _ (Ne.symm n3), FS.put_self]
            · intro g h1 h2 h3
              rw [FS.put_ne _ h1, FS.put_ne _ h2, oth _ _ g h1 h2 h3]
            · intro hr
              have ht : t = new := ht.resolve_right hr.writes
              refine ⟨rfl, ?_, ?_, ?_⟩
              · rw [FS.put_self, ht]
              · rw [FS.put_ne _ n2, FS.put_ne _ (Ne.symm n3), FS.put_self]
              · rw [FS.put_ne _ n1, FS.put_self]
          · intro hf
            refine .ret ⟨.inr (.inr (key _)), oth _ _⟩ fun hr => ?_
            rcases hf with e | h
            · rw [FS.put_ne _ n3, FS.put_ne _ n1, FS.put_self] at e; cases e
            · exact absurd h hr.renames
        · intro hf
          have hrn : w.renameFails := hf.resolve_left (by rw [hfile]; simp)
          have ht : t = new := ht.resolve_right (hw.resolve_right (fun h => h hrn))
          subst ht
          refine .rename (wr2 _ _) ?_ ?_
          · intro d e
            rw [FS.put_ne _ n3, FS.put_self] at e
            cases e
            refine .ret ⟨.inr (.inl (FS.put_self _ _ _)), ?_⟩ fun hr => absurd hrn hr.renames
            intro g h1 h2 h3
            rw [FS.put_ne _ h1, FS.put_ne _ h2, FS.put_ne _ h3, FS.put_ne _ h2]
          · intro _
            exact .ret (wr2 _ _) fun hr => absurd hrn hr.renames
      simp only [osDelete, Prog.bind]
      refine .delete (wr _) ?_ ?_
      · intro d e
        exact rest2 none (.inl rfl)
      · intro hf
        have := rest2 (fs bak) (.inr (.inr rfl))
        rwa [FS.put_same _ (FS.put_ne fs (Ne.symm n3) (some t))] at this
    refine .write start (fun d' t' e => by exact wr _) ?_ ?_ ?_
    · simp only [opened, overlay_new]
      exact rest new (.inl rfl)
    · intro hwf junk
      simp only [opened, List.take_nil, List.nil_append]
      exact rest junk (.inr hwf)
    · intro hof
      exact .ret start fun hr => absurd hof hr.opens
  · intro hf
    refine .ret start fun hr => ?_
    rcases hf with h | h
    · rw [ho] at h; cases h
    · exact absurd h hr.opens

/-- **C16.** While the file of duplicates is replaced, the old or the complete new contents are on the
disk, but not always under the right name. -/
theorem dupe_file_kept (w : World) (hw : ¬ w.writeFails) (fs : FS) (file : Str) (old new : Data) (ho : fs file = some old) :
    Through w (fun fs' => (fs' file = some old ∨ fs' file = some new ∨ fs' (file ++ b!".tmp") = some new) ∧
        ∀ g, g ≠ file → g ≠ file ++ b!".tmp" → fs' g = fs g)
      (fun _ fs' => w.Reliable → fs' file = some new) (replaceDupe file new) fs := by
  obtain ⟨n1, -, -⟩ := ext_ne file
  generalize hti : file ++ b!".tmp" = tmp at *
  have wr : ∀ x, ((fs.put tmp x) file = some old ∨ (fs.put tmp x) file = some new ∨ (fs.put tmp x) tmp = some new) ∧
      ∀ g, g ≠ file → g ≠ tmp → (fs.put tmp x) g = fs g :=
    fun x => ⟨.inl (by rw [FS.put_ne _ (Ne.symm n1), ho]), fun g _ h => FS.put_ne _ h _⟩
  have start := wr (fs tmp)
  rw [FS.put_same _ rfl] at start
  unfold replaceDupe
  rw [hti]
  simp only [Prog.bind_eq, writeFile, Prog.bind, osDelete, osRename]
  refine .write start (fun d' t' e => by exact wr _) ?_ (fun h => absurd h hw) ?_
  · simp only [opened, overlay_new]
    refine .delete (wr _) ?_ ?_
    · intro d e
      refine .rename ⟨.inr (.inr (by rw [FS.put_ne _ n1, FS.put_self])), fun g h1 h2 => by rw [FS.put_ne _ h1, FS.put_ne _ h2]⟩ ?_ ?_
      · intro d e
        rw [FS.put_ne _ n1, FS.put_self] at e
        cases e
        exact .ret ⟨.inr (.inl (FS.put_self _ _ _)), fun g h1 h2 => by rw [FS.put_ne _ h1, FS.put_ne _ h2, FS.put_ne _ h1, FS.put_ne _ h2]⟩
          fun _ => FS.put_self _ _ _
      · intro hf
        refine .ret ⟨.inr (.inr (by rw [FS.put_ne _ n1, FS.put_self])), fun g h1 h2 => by rw [FS.put_ne _ h1, FS.put_ne _ h2]⟩ fun hr => ?_
        rw [FS.put_ne _ n1, FS.put_self] at hf
        exact absurd (hf.resolve_left (by simp)) hr.renames
    · intro hf
      refine .rename (wr _) ?_ ?_
      · intro d e
        rw [FS.put_self] at e
        cases e
        exact .ret ⟨.inr (.inl (FS.put_self _ _ _)), fun g h1 h2 => by rw [FS.put_ne _ h1, FS.put_ne _ h2, FS.put_ne _ h2]⟩
          fun _ => FS.put_self _ _ _
      · intro hf
        refine .ret (wr _) fun hr => ?_
        rw [FS.put_self] at hf
        exact absurd (hf.resolve_left (by simp)) hr.renames
  · intro h
    exact .ret start fun hr => absurd h hr.opens

/-! ## C55: locks -/

/-- While the lock file is there, a process does not get the lock and the file stays. -/
def LockStep (w : World) (f : Str) (P : Prog Bool → Prop) : Prop :=
  ∀ p fs p' fs', P p → fs f ≠ none → Step w p fs p' fs' → P p' ∧ fs' f ≠ none

theorem lock_many (w : World) (f : Str) (P : Prog Bool → Prop) (hP : LockStep w f P) (ps ps' : List (Prog Bool)) (fs fs' : FS)
    (h : ∀ p ∈ ps, P p) (hf : fs f ≠ none) (hr : MReach w ps fs ps' fs') : (∀ p ∈ ps', P p) ∧ fs' f ≠ none := by
  induction hr with
  | here => exact ⟨h, hf⟩
  | step s _ ih =>
    cases s with
    | one a b p fs p' fs' st =>
      obtain ⟨h1, h2⟩ := hP _ _ _ _ (h p (by simp)) hf st
      refine ih ?_ h2
      intro q hq
      simp only [List.mem_append, List.mem_cons] at hq
      rcases hq with hq | rfl | hq
      · exact h q (by simp [hq])
      · exact h1
      · exact h q (by simp [hq])

/-- **C55 (partial).** While a lock of a node is there, none of any number of processes that try to lock
it gets the lock, in any interleaving, and the lock stays. Missing: two processes that both look for the
lock before one of them has made it both get it (`Ex.both_locked`). -/
theorem node_lock_partial (w : World) (base : Str) (n : Nat) (fs fs' : FS) (ps : List (Prog Bool)) (hl : base.length < 196)
    (hf : fs (lockName base) ≠ none) (hr : MReach w (List.replicate n (lockBasename base)) fs ps fs') :
    (∀ p ∈ ps, p ≠ .ret true ∧ ∀ u, p ≠ .ub u) ∧ fs' (lockName base) ≠ none := by
  have e : lockBasename base = .exist (lockName base) fun b => if b = true then .ret false else
      .write (lockName base) .new [] fun r => match r with | none => .ret false | some _ => .ret true := by
    unfold lockBasename
    rw [if_neg (by simp [lockName]; omega)]
    simp only [osExists, Prog.bind_eq, Prog.bind]
    congr 1
  have := lock_many w (lockName base) (fun p => p = lockBasename base ∨ p = .ret false) ?_ _ ps fs fs'
    (fun p hp => .inl (List.eq_of_mem_replicate hp)) hf hr
  · refine ⟨fun p hp => ?_, this.2⟩
    rcases this.1 p hp with rfl | rfl
    · rw [e]; exact ⟨by simp, by simp⟩
    · simp
  · intro p gs p' gs' hp hg hs
    rcases hp with rfl | rfl
    · rw [e] at hs
      cases hs
      obtain ⟨d, hd⟩ := Option.ne_none_iff_exists'.1 hg
      refine ⟨?_, hg⟩
      rw [hd]
      exact .inr rfl
    · nomatch hs

/-- **C55 (partial).** The same for the lock of the configuration, whatever number of times the
processes wait. -/
theorem config_lock_partial (w : World) (file : Str) (fuel : List Nat) (fs fs' : FS) (ps : List (Prog Bool))
    (hl : file.length < 195) (hf : fs (busyName file) ≠ none) (hr : MReach w (fuel.map fun n => lockConfig n file) fs ps fs') :
    (∀ p ∈ ps, p ≠ .ret true ∧ ∀ u, p ≠ .ub u) ∧ fs' (busyName file) ≠ none := by
  have e : ∀ n, lockConfigLoop file (n + 1) = .exist (busyName file) fun b => if b = true then
      .sleep fun c => if c = true then .ret false else lockConfigLoop file n
      else .write (busyName file) .new [] fun r => match r with | none => .ret false | some _ => .ret true := by
    intro n
    rw [lockConfigLoop]
    simp only [osExists, Prog.bind_eq, Prog.bind]
    congr 1
  let P : Prog Bool → Prop := fun p => (∃ n, p = lockConfigLoop file n) ∨ (∃ n, p = .sleep fun c => if c = true then .ret false else lockConfigLoop file n) ∨ p = .ret false
  have := lock_many w (busyName file) P ?_ _ ps fs fs' ?_ hf hr
  · refine ⟨fun p hp => ?_, this.2⟩
    rcases this.1 p hp with ⟨n, rfl⟩ | ⟨n, rfl⟩ | rfl
    · cases n with
      | zero => simp [lockConfigLoop]
      | succ n => rw [e]; exact ⟨by simp, by simp⟩
    · simp
    · simp
  · intro p gs p' gs' hp hg hs
    rcases hp with ⟨n, rfl⟩ | ⟨n, rfl⟩ | rfl
    · cases n with
      | zero => simp only [lockConfigLoop] at hs; nomatch hs
      | succ n =>
        rw [e] at hs
        cases hs
        obtain ⟨d, hd⟩ := Option.ne_none_iff_exists'.1 hg
        refine ⟨?_, hg⟩
        rw [hd]
        exact .inr (.inl ⟨n, rfl⟩)
    · cases hs with
      | sleep _ _ b =>
        refine ⟨?_, hg⟩
        cases b
        · exact .inl ⟨n, rfl⟩
        · exact .inr (.inr rfl)
    · nomatch hs
  · intro p hp
    simp only [List.mem_map] at hp
    obtain ⟨n, _, rfl⟩ := hp
    left
    refine ⟨n, ?_⟩
    unfold lockConfig
    rw [if_neg (by simp [busyName]; omega)]

namespace Ex

/-- A disk with two files. -/
def disk : FS := fun f => if f = b!"/in/12345678.pkt" then some b!"X" else if f = b!"/in/12345678.pkt.bad" then some b!"Y" else none

example : disk b!"/in/12345678.pkt" = some b!"X" ∧ badName b!"/in" b!"/in/12345678.pkt" 1 = b!"/in/12345678.pkt.bad,1" ∧
    disk (badName b!"/in" b!"/in/12345678.pkt" 1) = none ∧ disk (badName b!"/in" b!"/in/12345678.pkt" 0) ≠ none := by
  refine ⟨by decide +kernel, by decide +kernel, by decide +kernel, by decide +kernel⟩

/-- C55 (violated). Two processes get the same lock: both look before one makes the file. -/
theorem both_locked (w : World) : ∃ fs', MReach w [lockBasename b!"/out/00010002", lockBasename b!"/out/00010002"] (fun _ => none)
    [.ret true, .ret true] fs' := by
  have s := fun (a b : List (Prog Bool)) p fs p' fs' h => @MStep.one w Bool a b p fs p' fs' h
  exact ⟨_, .step (s [] _ _ _ _ _ (.exist _ _ _)) (.step (s [_] [] _ _ _ _ (.exist _ _ _))
    (.step (s [] _ _ _ _ _ (.openOk _ _ _ _ _)) (.step (s [] _ _ _ _ _ (.writeDone _ _ _ _ _ _))
    (.step (s [_] [] _ _ _ _ (.openOk _ _ _ _ _)) (.step (s [_] [] _ _ _ _ (.writeDone _ _ _ _ _ _)) (.here _ _))))))⟩

/-- C55 (violated). The same for the configuration. -/
theorem both_locked_config (w : World) : ∃ fs', MReach w [lockConfig 1 b!"crashmail.prefs", lockConfig 1 b!"crashmail.prefs"] (fun _ => none)
    [.ret true, .ret true] fs' := by
  have s := fun (a b : List (Prog Bool)) p fs p' fs' h => @MStep.one w Bool a b p fs p' fs' h
  exact ⟨_, .step (s [] _ _ _ _ _ (.exist _ _ _)) (.step (s [_] [] _ _ _ _ (.exist _ _ _))
    (.step (s [] _ _ _ _ _ (.openOk _ _ _ _ _)) (.step (s [] _ _ _ _ _ (.writeDone _ _ _ _ _ _))
    (.step (s [_] [] _ _ _ _ (.openOk _ _ _ _ _)) (.step (s [_] [] _ _ _ _ (.writeDone _ _ _ _ _ _)) (.here _ _))))))⟩

/-- C33 (violated). The disk is full and the configuration cannot be renamed (for example because its
`.bak` is a directory): what is left is an empty configuration. -/
theorem config_lost : ∃ p fs', Reach {} (replaceConfig b!"c" .ok) (fun f => if f = b!"c" then some b!"AKA 1:2/3\n" else none) p fs' ∧
    fs' b!"c" = some [] ∧ fs' b!"c.bak" = none ∧ fs' b!"c.tmp" = none := by
  exact ⟨_, _, .step (.readOk _ _ _ b!"AKA 1:2/3\n" (by simp)) (.step (.openOk _ _ _ _ _)
    (.step (.writeFail _ _ _ _ _ _ _ [] trivial) (.step (.deleteFail _ _ _ (.inr trivial))
    (.step (.renameFail _ _ _ _ (.inr trivial)) (.step (.renameOk _ _ _ _ [] rfl) (.here _ _)))))), rfl, rfl, rfl⟩

/-- C16 (violated). There is a moment in which there is no file of duplicates. -/
theorem dupe_gap : ∃ p fs', Reach { openFails := False, writeFails := False, renameFails := False, deleteFails := False }
    (replaceDupe b!"d" []) (fun f => if f = b!"d" then some b!"CDU2" else none) p fs' ∧ fs' b!"d" = none := by
  refine ⟨_, _, .step (.openOk _ _ _ _ _) (.step (.writeDone _ _ _ _ _ _) (.step (.deleteOk _ _ _ b!"CDU2" rfl) (.here _ _))), rfl⟩

end Ex

end CM
