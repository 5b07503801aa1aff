import Verif.Lemmas.Main
/-! # C99, C100: the command line of CrashMail and the lock of the configuration -/

set_option linter.unusedSimpArgs false

namespace CM

/-! ## The command line -/

/-- A command line of options does not begin with a word that asks for help. -/
theorem Options.noHelp {argv o} (h : Options argv o) : ∀ w, argv.head? = some w → w ∉ helpWords := by
  have key : ∀ x ∈ helpWords, ∀ n ∈ switchNames ++ valueNames, x.map lower ≠ n.map lower := by decide +kernel
  intro w hw hx
  cases h with
  | nil => cases hw
  | switch hn e _ => cases hw; exact key _ hx _ (List.mem_append_left _ hn) e
  | value hn e _ => cases hw; exact key _ hx _ (List.mem_append_right _ hn) e

/-- **C99 (partial).** What CrashMail does for a command line of options: with `VERSION`, `LOCK` or `UNLOCK` (in this
order) only that; otherwise the commands that the specification names, one after the other. -/
theorem crashmail_commands_partial {κ : Type} (P : MainParts κ) (fuel : Nat) (env : Option Str) {argv o} (h : Options argv o) :
    mainProg P fuel env argv =
      if hasOption o b!"VERSION" = true then .ret 0
      else if hasOption o b!"LOCK" = true then (lockConfig fuel (configAsked env o)).bind fun ok => .ret (if ok then 0 else 10)
      else if hasOption o b!"UNLOCK" = true then (unlockConfig (configAsked env o)).bind fun _ => .ret 0
      else mainSession P fuel (configAsked env o) (hasOption o b!"NOSECURITY") (commandsAsked o) :=
  mainProg_options P fuel env h h.noHelp

/-- C99. Any other command line does nothing: the exit code is 0 if the first word asks for help and 10 otherwise. -/
theorem crashmail_refuses {κ : Type} (w : World) (P : MainParts κ) (fuel : Nat) (env : Option Str) {argv : List Str} (h : ¬ ∃ o, Options argv o)
    (fs : FS) (p' : Prog Nat) (fs' : FS) (hr : Reach w (mainProg P fuel env argv) fs p' fs') :
    fs' = fs ∧ p' = .ret (if argv.head?.any helpWords.contains then 0 else 10) := by
  have e : mainProg P fuel env argv = .ret (if argv.head?.any helpWords.contains then 0 else 10) := by
    by_cases hh : argv.head?.any helpWords.contains = true
    · rw [if_pos hh]
      unfold mainProg
      rw [if_pos hh]
    · rw [if_neg hh]
      refine mainProg_bad P fuel env h fun w hw hx => hh ?_
      rw [hw]
      simpa using hx
  rw [e] at hr
  cases hr with
  | here => exact ⟨rfl, rfl⟩
  | step s _ => nomatch s

/-- C99. The order of the options does not matter, nor the case of their names. -/
theorem crashmail_order {κ : Type} (P : MainParts κ) (fuel : Nat) (env : Option Str) {argv o argv' o'} (h : Options argv o)
    (h' : Options argv' o') (hs : ∀ n, hasOption o n = hasOption o' n) (hv : ∀ n, optionValue o n = optionValue o' n) :
    mainProg P fuel env argv = mainProg P fuel env argv' := by
  have hf : ∀ l, firstOption o l = firstOption o' l := by
    intro l
    unfold firstOption
    rw [show hasOption o = hasOption o' from funext hs, show optionValue o = optionValue o' from funext hv]
  have hc : commandOf o = commandOf o' := by
    funext x
    unfold commandOf
    rw [hv, hv]
  rw [crashmail_commands_partial P fuel env h, crashmail_commands_partial P fuel env h']
  unfold configAsked commandsAsked
  rw [hs, hs, hs, hs, hv, hf, hf, hc]

/-! ## The lock -/

/-- The lock file that belongs to a command line. -/
def lockOf (env : Option Str) (o : List (Str × Option Str)) : Str := busyName (configAsked env o)

theorem session_moves (w : World) {κ : Type} (P : MainParts κ) (fuel : Nat) (cfg : Str) (hl : cfg.length ≤ 99) (s : Bool)
    (cmds : List MainCommand) (hP : LeavesLock w P (busyName cfg)) (f : Str) (hf : f ≠ busyName cfg)
    (hfree : ∀ k, NeverTouches w f (P.free k)) (fs : FS) :
    Moves w (fun a b => b f = a f ∨ a (busyName cfg) ≠ none) (mainSession P fuel cfg s cmds) fs := by
  have clean : ∀ k n gs, Moves w (fun a b => b f = a f ∨ a (busyName cfg) ≠ none) (cleanUp P cfg k n) gs := by
    intro k n gs
    unfold cleanUp
    rw [List.take_of_length_le hl]
    refine Moves.bind (((unlockConfig_other w cfg f hf).moves gs).mono fun _ _ => .inl) fun _ gs _ => ?_
    cases k with
    | none => exact .ret
    | some k => exact Moves.bind (((hfree k).moves gs).mono fun _ _ => .inl) fun _ _ _ => .ret
  unfold mainSession
  refine Moves.bind (((lockConfig_other w cfg (by omega) fuel f hf).moves fs).mono fun _ _ => .inl) fun ok gs hg => ?_
  cases ok with
  | false => exact .ret
  | true =>
    have hlock : gs (busyName cfg) ≠ none := (((lockConfig_through w cfg (by omega) fuel fs) _ _ hg).2.1 true rfl).1 rfl |>.1
    rw [if_neg (by decide)]
    refine Moves.bind (((hP.read cfg).locked hlock).mono fun _ _ => .inr) fun k gs1 h1 => ?_
    have hlock1 : gs1 (busyName cfg) ≠ none := by rw [hP.read cfg _ _ _ h1]; exact hlock
    cases k with
    | none => exact clean _ _ _
    | some k =>
      refine Moves.bind (((hP.init k).locked hlock1).mono fun _ _ => .inr) fun k' gs2 h2 => ?_
      have hlock2 : gs2 (busyName cfg) ≠ none := by rw [hP.init k _ _ _ h2]; exact hlock1
      cases k' with
      | none => exact clean _ _ _
      | some k => exact Moves.bind (((mainRun_leaves hP s cmds k).locked hlock2).mono fun _ _ => .inr) fun _ _ _ => clean _ _ _

/-- **C100 (partial).** Whatever fails and wherever the program is stopped: every step that changes a file is taken while
the lock file is there, except for the lock file itself and the files that are written when everything is closed at the
end. -/
theorem work_under_lock_partial (w : World) {κ : Type} (P : MainParts κ) (fuel : Nat) (env : Option Str) {argv o} (h : Options argv o)
    (hl : (configAsked env o).length ≤ 99) (hP : LeavesLock w P (lockOf env o)) (fs : FS) (p1 : Prog Nat) (fs1 : FS) (p2 : Prog Nat) (fs2 : FS)
    (hr : Reach w (mainProg P fuel env argv) fs p1 fs1) (hs : Step w p1 fs1 p2 fs2) (f : Str) (hf : f ≠ lockOf env o)
    (hfree : ∀ k, NeverTouches w f (P.free k)) (hch : fs2 f ≠ fs1 f) : fs1 (lockOf env o) ≠ none := by
  have key : Moves w (fun a b => b f = a f ∨ a (lockOf env o) ≠ none) (mainProg P fuel env argv) fs := by
    rw [crashmail_commands_partial P fuel env h]
    split
    · exact .ret
    · split
      · exact Moves.bind (((lockConfig_other w _ (by omega) fuel f hf).moves fs).mono fun _ _ => .inl) fun _ _ _ => .ret
      · split
        · exact Moves.bind (((unlockConfig_other w _ f hf).moves fs).mono fun _ _ => .inl) fun _ _ _ => .ret
        · exact session_moves w P fuel _ hl _ _ hP f hf hfree fs
  rcases key p1 fs1 p2 fs2 hr hs with e | e
  · exact absurd e hch
  · exact e

/-- **C100 (partial).** As long as there is a lock file, the program (without `UNLOCK`) changes nothing. -/
theorem waits_for_lock_partial (w : World) {κ : Type} (P : MainParts κ) (fuel : Nat) (env : Option Str) {argv o} (h : Options argv o)
    (hl : (configAsked env o).length < 195) (hu : hasOption o b!"UNLOCK" = false) (fs : FS) (hlock : fs (lockOf env o) ≠ none)
    (p' : Prog Nat) (fs' : FS) (hr : Reach w (mainProg P fuel env argv) fs p' fs') :
    fs' = fs ∧ ∀ n, p' = .ret n → hasOption o b!"VERSION" = true ∨ n = 10 := by
  have ret : ∀ (n : Nat), Reach w (.ret n : Prog Nat) fs p' fs' → fs' = fs ∧ p' = .ret n := by
    intro n hr
    cases hr with
    | here => exact ⟨rfl, rfl⟩
    | step s _ => nomatch s
  have same : ∀ gs, ((∀ f, f ≠ lockOf env o → gs f = fs f) ∧ (fs (lockOf env o) ≠ none → gs (lockOf env o) = fs (lockOf env o))) → gs = fs := by
    intro gs ⟨h1, h2⟩
    funext f
    by_cases hf : f = lockOf env o
    · subst hf; exact h2 hlock
    · exact h1 f hf
  have lock := lockConfig_through w (configAsked env o) hl fuel fs
  rw [crashmail_commands_partial P fuel env h] at hr
  by_cases hv : hasOption o b!"VERSION" = true
  · rw [if_pos hv] at hr
    exact ⟨(ret 0 hr).1, fun _ _ => .inl hv⟩
  · rw [if_neg hv] at hr
    by_cases hk : hasOption o b!"LOCK" = true
    · rw [if_pos hk] at hr
      rcases hr.bind_inv with ⟨q, h1, rfl, h3⟩ | ⟨a, gs, h1, h2⟩
      · refine ⟨same _ (lock _ _ h1).1, fun n e => ?_⟩
        obtain ⟨a, ha⟩ := Prog.bind_ret e
        exact absurd ha (h3 a)
      · have e := same _ (lock _ _ h1).1
        subst e
        obtain ⟨e1, e2⟩ := ret _ h2
        refine ⟨e1, fun n en => .inr ?_⟩
        cases a with
        | true => exact absurd (((lock _ _ h1).2.1 true rfl).1 rfl).2 hlock
        | false => rw [e2] at en; cases en; rfl
    · rw [if_neg hk, if_neg (by rw [hu]; decide)] at hr
      unfold mainSession at hr
      rcases hr.bind_inv with ⟨q, h1, rfl, h3⟩ | ⟨a, gs, h1, h2⟩
      · refine ⟨same _ (lock _ _ h1).1, fun n e => ?_⟩
        obtain ⟨a, ha⟩ := Prog.bind_ret e
        exact absurd ha (h3 a)
      · have e := same _ (lock _ _ h1).1
        subst e
        cases a with
        | true => exact absurd (((lock _ _ h1).2.1 true rfl).1 rfl).2 hlock
        | false =>
          obtain ⟨e1, e2⟩ := ret _ h2
          exact ⟨e1, fun n en => .inr (by rw [e2] at en; cases en; rfl)⟩

theorem mainRun_carried {w : World} {κ : Type} {P : MainParts κ} {s : Bool} : ∀ {cmds : List MainCommand} {k k' : κ} {fs fs' : FS},
    Reach w (mainRun P s k cmds) fs (.ret k') fs' → Carried w P s k fs cmds k' fs' := by
  intro cmds
  induction cmds with
  | nil =>
    intro k k' fs fs' hr
    obtain ⟨e1, e2⟩ := hr.of_ret
    cases e1
    rw [e2]
    exact .nil _ _
  | cons c r ih =>
    intro k k' fs fs' hr
    obtain ⟨k1, g, h1, h2⟩ := hr.bind_ret
    exact .cons h1 (ih h2)

/-- **C99 (partial).** A run that ends with code 0 has carried out all these commands, one after the other and with
`NOSECURITY` exactly if it was given: the lock is made, the configuration read, the program prepared, the commands carried
out, the lock removed, and everything is closed. -/
theorem crashmail_carries_out_partial (w : World) {κ : Type} (P : MainParts κ) (fuel : Nat) (env : Option Str) {argv o} (h : Options argv o)
    (hl : (configAsked env o).length ≤ 99) (hv : hasOption o b!"VERSION" = false) (hk : hasOption o b!"LOCK" = false)
    (hu : hasOption o b!"UNLOCK" = false) (fs fs' : FS) (hr : Reach w (mainProg P fuel env argv) fs (.ret 0) fs') :
    ∃ c g1 g2 k g3 k' g4 g5, (∀ f, f ≠ lockOf env o → g1 f = fs f) ∧ Reach w (P.readConfig (configAsked env o)) g1 (.ret (some c)) g2 ∧
      Reach w (P.init c) g2 (.ret (some k)) g3 ∧ Carried w P (hasOption o b!"NOSECURITY") k g3 (commandsAsked o) k' g4 ∧
      (∀ f, f ≠ lockOf env o → g5 f = g4 f) ∧ Reach w (P.free k') g5 (.ret ()) fs' := by
  rw [crashmail_commands_partial P fuel env h, if_neg (by rw [hv]; decide), if_neg (by rw [hk]; decide), if_neg (by rw [hu]; decide)] at hr
  have clean : ∀ {k : Option κ} {c n g}, Reach w (cleanUp P (configAsked env o) k c) g (.ret n) fs' →
      n = c ∧ ∀ k1, k = some k1 → ∃ g5, (∀ f, f ≠ lockOf env o → g5 f = g f) ∧ Reach w (P.free k1) g5 (.ret ()) fs' := by
    intro k c n g hr
    unfold cleanUp at hr
    rw [List.take_of_length_le hl] at hr
    obtain ⟨_, g5, h1, h2⟩ := hr.bind_ret
    cases k with
    | none => have e := h2.of_ret.1; cases e; exact ⟨rfl, fun _ e => by cases e⟩
    | some k =>
      obtain ⟨_, _, h3, h4⟩ := h2.bind_ret
      obtain ⟨e, e'⟩ := h4.of_ret
      cases e
      subst e'
      exact ⟨rfl, fun k1 e => by cases e; exact ⟨g5, fun f hf => unlockConfig_other w _ f hf _ _ _ h1, h3⟩⟩
  unfold mainSession at hr
  obtain ⟨ok, g1, h1, h2⟩ := hr.bind_ret
  cases ok with
  | false => have e := h2.of_ret.1; cases e
  | true =>
    rw [if_neg (by decide)] at h2
    obtain ⟨c, g2, h3, h4⟩ := h2.bind_ret
    cases c with
    | none => have e := (clean h4).1; cases e
    | some c =>
      obtain ⟨k, g3, h5, h6⟩ := h4.bind_ret
      cases k with
      | none => have e := (clean h6).1; cases e
      | some k =>
        obtain ⟨k', g4, h7, h8⟩ := h6.bind_ret
        obtain ⟨g5, h9, h10⟩ := (clean h8).2 k' rfl
        exact ⟨c, g1, g2, k, g3, k', g4, g5, fun f hf => lockConfig_other w _ (by omega) fuel f hf _ _ _ h1, h3, h5, mainRun_carried h7, h9, h10⟩

/-- **C100 (partial).** When the program (without `LOCK`) has ended, whatever its exit code, the lock is free again, if it
was free before, the file can be deleted and the name of the configuration has at most 99 characters. -/
theorem lock_released_partial (w : World) (hd : ¬ w.deleteFails) {κ : Type} (P : MainParts κ) (fuel : Nat) (env : Option Str) {argv o}
    (h : Options argv o) (hl : (configAsked env o).length ≤ 99) (hP : LeavesLock w P (lockOf env o)) (hk : hasOption o b!"LOCK" = false)
    (fs : FS) (hfree : fs (lockOf env o) = none) (n : Nat) (fs' : FS) (hr : Reach w (mainProg P fuel env argv) fs (.ret n) fs') :
    fs' (lockOf env o) = none := by
  rw [crashmail_commands_partial P fuel env h] at hr
  by_cases hv : hasOption o b!"VERSION" = true
  · rw [if_pos hv] at hr
    rw [hr.of_ret.2]
    exact hfree
  · rw [if_neg hv, if_neg (by rw [hk]; decide)] at hr
    by_cases hu : hasOption o b!"UNLOCK" = true
    · rw [if_pos hu] at hr
      obtain ⟨_, g, h1, h2⟩ := hr.bind_ret
      rw [h2.of_ret.2]
      exact ((unlockConfig_through w _ fs) _ _ h1).2.1 _ rfl hd
    · rw [if_neg hu] at hr
      rcases session_done (by omega) hP hr with ⟨_, e⟩ | ⟨_, _, e, _⟩
      · rw [e]; exact hfree
      · exact e hl hd

/-- C100. `LOCK` takes the lock and changes nothing else: afterwards it is there, and it was free before; or the exit code
is 10 and nothing has changed. -/
theorem lock_option (w : World) {κ : Type} (P : MainParts κ) (fuel : Nat) (env : Option Str) {argv o} (h : Options argv o)
    (hl : (configAsked env o).length < 195) (hk : hasOption o b!"LOCK" = true) (hv : hasOption o b!"VERSION" = false)
    (fs : FS) (n : Nat) (fs' : FS) (hr : Reach w (mainProg P fuel env argv) fs (.ret n) fs') :
    (n = 0 ∧ fs (lockOf env o) = none ∧ fs' (lockOf env o) ≠ none ∧ ∀ f, f ≠ lockOf env o → fs' f = fs f) ∨ (n = 10 ∧ fs' = fs) := by
  rw [crashmail_commands_partial P fuel env h, if_neg (by rw [hv]; decide), if_pos hk] at hr
  obtain ⟨ok, g, h1, h2⟩ := hr.bind_ret
  obtain ⟨e1, e2⟩ := h2.of_ret
  have lock := (lockConfig_through w (configAsked env o) hl fuel fs) _ _ h1
  subst e2
  cases ok with
  | true =>
    cases e1
    exact .inl ⟨rfl, ((lock.2.1 true rfl).1 rfl).2, ((lock.2.1 true rfl).1 rfl).1, lock.1.1⟩
  | false =>
    cases e1
    exact .inr ⟨rfl, (lock.2.1 false rfl).2 rfl⟩

/-- C100. `UNLOCK` removes the lock, whoever holds it, and changes nothing else. -/
theorem unlock_option (w : World) (hd : ¬ w.deleteFails) {κ : Type} (P : MainParts κ) (fuel : Nat) (env : Option Str) {argv o} (h : Options argv o)
    (hu : hasOption o b!"UNLOCK" = true) (hk : hasOption o b!"LOCK" = false) (hv : hasOption o b!"VERSION" = false)
    (fs : FS) (n : Nat) (fs' : FS) (hr : Reach w (mainProg P fuel env argv) fs (.ret n) fs') :
    n = 0 ∧ fs' (lockOf env o) = none ∧ ∀ f, f ≠ lockOf env o → fs' f = fs f := by
  rw [crashmail_commands_partial P fuel env h, if_neg (by rw [hv]; decide), if_neg (by rw [hk]; decide), if_pos hu] at hr
  obtain ⟨_, g, h1, h2⟩ := hr.bind_ret
  obtain ⟨e1, e2⟩ := h2.of_ret
  subst e2
  cases e1
  have := (unlockConfig_through w (configAsked env o) fs) _ _ h1
  exact ⟨rfl, this.2.1 _ rfl hd, this.1⟩

/-- C99. The exit code is 0 or 10; and with 10 no command has been begun: the program could have ended in the same way
with any other commands in its place. -/
theorem exit_codes (w : World) {κ : Type} (P : MainParts κ) (fuel : Nat) (env : Option Str) (argv : List Str) (fs : FS) (n : Nat) (fs' : FS)
    (hr : Reach w (mainProg P fuel env argv) fs (.ret n) fs') :
    (n = 0 ∨ n = 10) ∧ (n = 10 → ∀ run', Reach w (mainProg { P with run := run' } fuel env argv) fs (.ret 10) fs') := by
  by_cases h : ∃ o, Options argv o
  · obtain ⟨o, h⟩ := h
    rw [crashmail_commands_partial P fuel env h] at hr
    simp only [crashmail_commands_partial _ fuel env h]
    have code : ∀ {k c g}, Reach w (cleanUp P (configAsked env o) k c) g (.ret n) fs' → n = c := by
      intro k c g hr
      unfold cleanUp at hr
      obtain ⟨_, _, _, h2⟩ := hr.bind_ret
      cases k with
      | none => have := h2.of_ret.1; cases this; rfl
      | some k =>
        obtain ⟨_, _, _, h3⟩ := h2.bind_ret
        have := h3.of_ret.1
        cases this; rfl
    split
    · rename_i hv
      rw [if_pos hv] at hr
      have := hr.of_ret.1
      cases this
      exact ⟨.inl rfl, fun e => absurd e (by decide)⟩
    · rename_i hv
      rw [if_neg hv] at hr
      split
      · rename_i hk
        rw [if_pos hk] at hr
        refine ⟨?_, fun e _ => by subst e; exact hr⟩
        obtain ⟨ok, _, _, h2⟩ := hr.bind_ret
        have := h2.of_ret.1
        cases this
        cases ok
        · exact .inr rfl
        · exact .inl rfl
      · rename_i hk
        rw [if_neg hk] at hr
        split
        · rename_i hu
          rw [if_pos hu] at hr
          refine ⟨?_, fun e _ => by subst e; exact hr⟩
          obtain ⟨_, _, _, h2⟩ := hr.bind_ret
          have := h2.of_ret.1
          cases this
          exact .inl rfl
        · rename_i hu
          rw [if_neg hu] at hr
          unfold mainSession at hr
          obtain ⟨ok, g1, h1, h2⟩ := hr.bind_ret
          cases ok with
          | false =>
            have e := h2.of_ret.1
            cases e
            exact ⟨.inr rfl, fun _ run' => h1.bind_then h2⟩
          | true =>
            rw [if_neg (by decide)] at h2
            obtain ⟨k, g2, h3, h4⟩ := h2.bind_ret
            cases k with
            | none =>
              have e := code h4
              subst e
              exact ⟨.inr rfl, fun _ run' => h1.bind_then (Reach.bind_then (a := none) h3 h4)⟩
            | some k =>
              obtain ⟨k', g3, h5, h6⟩ := h4.bind_ret
              cases k' with
              | none =>
                have e := code h6
                subst e
                exact ⟨.inr rfl, fun _ run' => h1.bind_then (Reach.bind_then (a := some k) h3 (Reach.bind_then (a := none) h5 h6))⟩
              | some k2 =>
                obtain ⟨_, _, _, h8⟩ := h6.bind_ret
                have e := code h8
                subst e
                exact ⟨.inl rfl, fun e => absurd e (by decide)⟩
  · obtain ⟨e1, e2⟩ := crashmail_refuses w P fuel env h fs _ fs' hr
    refine ⟨?_, fun e run' => ?_⟩
    · cases e2
      split
      · exact .inl rfl
      · exact .inr rfl
    · subst e
      have : ∀ Q : MainParts κ, mainProg Q fuel env argv = .ret 10 := by
        intro Q
        refine mainProg_bad Q fuel env h fun x hx hm => ?_
        rw [if_pos (by rw [hx]; simpa using hm)] at e2
        cases e2
      rw [this, e1]
      exact .here _ _

/-- C100 (violated). With a name of 100 to 194 characters the lock is never released: after every successful run the lock
file is still there. -/
theorem lock_stays (w : World) {κ : Type} (P : MainParts κ) (fuel : Nat) (env : Option Str) {argv o} (h : Options argv o)
    (hl : 100 ≤ (configAsked env o).length) (hl' : (configAsked env o).length < 195) (hP : LeavesLock w P (lockOf env o))
    (hv : hasOption o b!"VERSION" = false) (hu : hasOption o b!"UNLOCK" = false) (fs : FS) (fs' : FS)
    (hr : Reach w (mainProg P fuel env argv) fs (.ret 0) fs') : fs' (lockOf env o) ≠ none := by
  cases hk : hasOption o b!"LOCK" with
  | true =>
    rcases lock_option w P fuel env h hl' hk hv fs 0 fs' hr with ⟨_, _, e, _⟩ | ⟨e, _⟩
    · exact e
    · cases e
  | false =>
    rw [crashmail_commands_partial P fuel env h, if_neg (by rw [hv]; decide), if_neg (by rw [hk]; decide), if_neg (by rw [hu]; decide)] at hr
    rcases session_done hl' hP hr with ⟨e, _⟩ | ⟨_, _, _, e⟩
    · cases e
    · exact e hl

/-- C100 (violated). A longer name does not fit into the buffer for the name of the lock file. -/
theorem lock_overflow {κ : Type} (P : MainParts κ) (fuel : Nat) (env : Option Str) {argv o} (h : Options argv o)
    (hl : 195 ≤ (configAsked env o).length) (hv : hasOption o b!"VERSION" = false) (hu : hasOption o b!"UNLOCK" = false) :
    mainProg P fuel env argv = .ub .oobWrite := by
  have e : lockConfig fuel (configAsked env o) = .ub .oobWrite := by
    unfold lockConfig
    rw [if_pos (by simp [busyName]; omega)]
  rw [crashmail_commands_partial P fuel env h, if_neg (by rw [hv]; decide)]
  split
  · rw [e]; rfl
  · rw [if_neg (by rw [hu]; decide)]
    unfold mainSession
    rw [e]; rfl

namespace Ex

/-- The duplicates part of the program: the file is read at the beginning, a command adds a record to the file and to the
memory, and at the end the file is replaced. -/
def dupeParts (x : UInt8) : MainParts Data where
  readConfig _ := .ret (some [])
  init _ := (readFile b!"dupes").bind fun r => .ret (some (r.getD []))
  run _ k _ := (writeFile b!"dupes" (.fromEnd 0) [x]).bind fun _ => .ret (k ++ [x])
  free k := replaceDupe b!"dupes" k

def dupeDisk : FS := fun f => if f = b!"dupes" then some b!"CDU2" else none

/-- The options of `toss SETTINGS cm.prefs`. -/
theorem some_options : Options [b!"toss", b!"SETTINGS", b!"cm.prefs"] [(b!"TOSS", none), (b!"SETTINGS", some b!"cm.prefs")] :=
  .switch (by decide) (by decide) (.value (by decide) (by decide) .nil)

example : commandsAsked [(b!"TOSS", none), (b!"SETTINGS", some b!"cm.prefs")] = [.toss] ∧
    configAsked none [(b!"TOSS", none), (b!"SETTINGS", some b!"cm.prefs")] = b!"cm.prefs" := by decide +kernel

/-- Two commands. -/
example : Options [b!"TOSS", b!"SCAN"] [(b!"TOSS", none), (b!"SCAN", none)] ∧
    commandsAsked [(b!"TOSS", none), (b!"SCAN", none)] = [.toss, .scan] :=
  ⟨.switch (by decide) (by decide) (.switch (by decide) (by decide) .nil), by decide +kernel⟩

/-- C99 (violated). The program does not carry out all that it is asked for: `SENDLIST` is ignored with `SCAN`, and nothing is
said. -/
theorem second_command_ignored {κ : Type} (P : MainParts κ) (fuel : Nat) (env : Option Str) :
    mainProg P fuel env [b!"SCAN", b!"SENDLIST", b!"1:2/3"] = mainProg P fuel env [b!"SCAN"] := by
  rw [crashmail_commands_partial P fuel env (.switch (n := b!"SCAN") (by decide) (by decide) (.value (n := b!"SENDLIST") (by decide) (by decide) .nil)),
    crashmail_commands_partial P fuel env (.switch (n := b!"SCAN") (by decide) (by decide) .nil)]
  rfl

/-- The parts leave the lock alone. -/
theorem parts_leave_lock (w : World) (x : UInt8) (lock : Str) (h1 : b!"dupes" ≠ lock) (h2 : b!"dupes.tmp" ≠ lock) :
    LeavesLock w (dupeParts x) lock := by
  have rd : ∀ (f : Str), NeverTouches w lock (readFile f) := by
    intro f fs q fs' hr
    cases hr with
    | here => rfl
    | step s r => cases s <;> rw [r.of_ret.2]
  have thr : ∀ {α : Type} (p : Prog α), (∀ fs : FS, Through w (fun gs => gs lock = fs lock) (fun _ _ => True) p fs) →
      NeverTouches w lock p := fun p h fs q fs' hr => (h fs q fs' hr).1
  have put : ∀ (fs : FS) (f : Str) v, f ≠ lock → (fs.put f v) lock = fs lock :=
    fun fs f v h => FS.put_ne _ (Ne.symm h) _
  refine ⟨fun _ => .ret, fun _ => (rd _).bind fun _ => .ret, fun _ _ _ => NeverTouches.bind (thr _ fun fs => ?_) fun _ => .ret, fun k => thr _ fun fs => ?_⟩
  · have hp : ∀ v, (fs.put b!"dupes" v) lock = fs lock := fun v => put _ _ _ h1
    exact .write rfl (fun _ _ _ => hp _) (.ret (hp _) trivial) (fun _ _ => .ret (hp _) trivial) fun _ => .ret rfl trivial
  · show Through w _ _ (replaceDupe b!"dupes" k) fs
    have rest : ∀ gs : FS, gs lock = fs lock → Through w (fun gs => gs lock = fs lock) (fun _ _ => True)
        (.delete b!"dupes" fun _ => .rename (b!"dupes" ++ b!".tmp") b!"dupes" fun _ => .ret ()) gs := by
      intro gs hg
      have ren : ∀ gs : FS, gs lock = fs lock → Through w (fun gs => gs lock = fs lock) (fun _ _ => True)
          (.rename (b!"dupes" ++ b!".tmp") b!"dupes" fun _ => .ret ()) gs := by
        intro gs hg
        exact .rename hg (fun d _ => .ret (by exact ((put _ _ _ h1).trans (put _ _ _ h2)).trans hg) trivial) fun _ => .ret hg trivial
      exact .delete hg (fun d _ => ren _ (by rw [put _ _ _ h1]; exact hg)) fun _ => ren _ hg
    have hp : ∀ v, (fs.put (b!"dupes" ++ b!".tmp") v) lock = fs lock := fun v => put _ _ _ h2
    exact .write rfl (fun _ _ _ => hp _) (rest _ (hp _)) (fun _ _ => rest _ (hp _)) fun _ => .ret rfl trivial

def toss1 : Prog Nat := mainProg (dupeParts 97) 1 none [b!"toss", b!"SETTINGS", b!"cm.prefs"]
def toss2 : Prog Nat := mainProg (dupeParts 98) 1 none [b!"toss", b!"SETTINGS", b!"cm.prefs"]

def Prog.returned {α : Type} : Prog α → Option α
  | .ret a => some a
  | _ => none

/-- A run: the record is in the file at the end, and the lock is free again. -/
theorem toss_alone : ∃ p q fs', MReach {} [toss1, .ret 0] dupeDisk [p, q] fs' ∧ Prog.returned p = some 0 ∧
    fs' b!"dupes" = some b!"CDU2a" ∧ fs' b!"cm.prefs.busy" = none :=
  ⟨_, _, _, taking_reach {} [(true, 40)] toss1 (.ret 0) dupeDisk, by decide +kernel, by decide +kernel, by decide +kernel⟩

/-- Two runs one after the other: both records are in the file at the end. -/
theorem toss_twice (w : World) : ∃ p q fs', MReach w [toss1, toss2] dupeDisk [p, q] fs' ∧ Prog.returned p = some 0 ∧ Prog.returned q = some 0 ∧
    fs' b!"dupes" = some b!"CDU2ab" :=
  ⟨_, _, _, taking_reach w [(true, 40), (false, 40)] toss1 toss2 dupeDisk, by decide +kernel, by decide +kernel, by decide +kernel⟩

/-- The theorems about the lock apply to this run. -/
example (w : World) : (configAsked none [(b!"TOSS", none), (b!"SETTINGS", some b!"cm.prefs")]).length ≤ 99 ∧
    LeavesLock w (dupeParts 97) (lockOf none [(b!"TOSS", none), (b!"SETTINGS", some b!"cm.prefs")]) :=
  ⟨by decide +kernel, parts_leave_lock w 97 _ (by decide +kernel) (by decide +kernel)⟩

/-- C100 (violated). A run with a name of 100 characters: everything is done, and the lock stays. -/
theorem long_name_run (w : World) : ∃ p q fs', MReach w [mainProg (dupeParts 97) 1 none [b!"toss", b!"SETTINGS", List.replicate 100 98], .ret 0] dupeDisk [p, q] fs' ∧
    Prog.returned p = some 0 ∧ fs' b!"dupes" = some b!"CDU2a" ∧ fs' (busyName (List.replicate 100 98)) = some [] :=
  ⟨_, _, _, taking_reach w [(true, 40)] _ (.ret 0) dupeDisk, by decide +kernel, by decide +kernel, by decide +kernel⟩

example (w : World) : LeavesLock w (dupeParts 97) (busyName (List.replicate 100 98)) :=
  parts_leave_lock w 97 _ (by decide +kernel) (by decide +kernel)

/-- C100 (violated). The file of duplicates is replaced after the lock has been released: two runs, one after the other has
released the lock, nothing fails, both end with code 0, and the record of the second run is lost. -/
theorem dupes_lost (w : World) : ∃ p q fs', MReach w [toss1, toss2] dupeDisk [p, q] fs' ∧ Prog.returned p = some 0 ∧ Prog.returned q = some 0 ∧
    fs' b!"dupes" = some b!"CDU2a" :=
  ⟨_, _, _, taking_reach w [(true, 8), (false, 40), (true, 40)] toss1 toss2 dupeDisk, by decide +kernel, by decide +kernel, by decide +kernel⟩

end Ex

end CM
