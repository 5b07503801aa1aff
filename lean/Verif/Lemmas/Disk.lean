import Verif.Model.Disk
/-! # Reasoning about programs that work on the disk -/

namespace CM

variable {w : World} {α β : Type} {I J : FS → Prop} {Q R : α → FS → Prop}

theorem FS.put_self (fs : FS) (f : Str) (v : Option Data) : fs.put f v f = v := if_pos rfl

theorem FS.put_ne (fs : FS) {f g : Str} (h : g ≠ f) (v : Option Data) : fs.put f v g = fs g := if_neg h

theorem FS.put_put (fs : FS) (f : Str) (v v' : Option Data) : (fs.put f v).put f v' = fs.put f v' := by
  funext g
  by_cases h : g = f <;> simp [FS.put, h]

theorem FS.put_same (fs : FS) {f : Str} {v : Option Data} (h : fs f = v) : fs.put f v = fs := by
  funext g
  by_cases hg : g = f
  · subst hg; simp [FS.put, h]
  · simp [FS.put, hg]

theorem Reach.trans {p q r : Prog α} {a b c : FS} (h : Reach w p a q b) (h' : Reach w q b r c) : Reach w p a r c := by
  induction h with
  | here => exact h'
  | step s _ ih => exact .step s (ih h')

theorem Through.now {p : Prog α} {fs : FS} (h : Through w I Q p fs) : I fs := (h p fs (.here p fs)).1

theorem Through.reach {p p' : Prog α} {fs fs' : FS} (h : Through w I Q p fs) (hr : Reach w p fs p' fs') :
    Through w I Q p' fs' := fun q gs hq => h q gs (hr.trans hq)

theorem Through.mono {p : Prog α} {fs : FS} (h : Through w I Q p fs) (hI : ∀ fs, I fs → J fs)
    (hQ : ∀ a fs, I fs → Q a fs → R a fs) : Through w J R p fs := by
  intro p' fs' hr
  obtain ⟨h1, h2, h3⟩ := h p' fs' hr
  exact ⟨hI _ h1, fun a e => hQ _ _ h1 (h2 a e), h3⟩

/-- A program is fine if its state is and every step leads to a state from which it is. -/
theorem Through.intro {p : Prog α} {fs : FS} (h1 : I fs) (h2 : ∀ a, p = .ret a → Q a fs) (h3 : ∀ u, p ≠ .ub u)
    (hs : ∀ p' fs', Step w p fs p' fs' → Through w I Q p' fs') : Through w I Q p fs := by
  intro p' fs' hr
  cases hr with
  | here => exact ⟨h1, h2, h3⟩
  | step s r => exact hs _ _ s _ _ r

theorem Through.ret {a : α} {fs : FS} (h1 : I fs) (h2 : Q a fs) : Through w I Q (.ret a) fs := by
  refine .intro h1 (fun b e => ?_) (fun u e => by cases e) (fun p' fs' s => nomatch s)
  cases e; exact h2

theorem Through.stuck {fs : FS} (h1 : I fs) : Through w I Q .stuck fs :=
  .intro h1 (fun _ e => nomatch e) (fun _ e => nomatch e) (fun _ _ s => nomatch s)

theorem Through.exist {f : Str} {k : Bool → Prog α} {fs : FS} (h1 : I fs) (h : Through w I Q (k (fs f).isSome) fs) :
    Through w I Q (.exist f k) fs := by
  refine .intro h1 (fun b e => nomatch e) (fun u e => nomatch e) (fun p' fs' s => ?_)
  cases s; exact h

theorem Through.rename {f g : Str} {k : Bool → Prog α} {fs : FS} (h1 : I fs)
    (hok : ∀ d, fs f = some d → Through w I Q (k true) ((fs.put f none).put g (some d)))
    (hf : fs f = none ∨ w.renameFails → Through w I Q (k false) fs) : Through w I Q (.rename f g k) fs := by
  refine .intro h1 (fun b e => nomatch e) (fun u e => nomatch e) (fun p' fs' s => ?_)
  cases s with
  | renameOk _ _ _ _ d h => exact hok d h
  | renameFail _ _ _ _ h => exact hf h

theorem Through.delete {f : Str} {k : Bool → Prog α} {fs : FS} (h1 : I fs)
    (hok : ∀ d, fs f = some d → Through w I Q (k true) (fs.put f none))
    (hf : fs f = none ∨ w.deleteFails → Through w I Q (k false) fs) : Through w I Q (.delete f k) fs := by
  refine .intro h1 (fun b e => nomatch e) (fun u e => nomatch e) (fun p' fs' s => ?_)
  cases s with
  | deleteOk _ _ _ d h => exact hok d h
  | deleteFail _ _ _ h => exact hf h

theorem Through.read {f : Str} {k : Option Data → Prog α} {fs : FS} (h1 : I fs)
    (hok : ∀ d, fs f = some d → Through w I Q (k (some d)) fs)
    (hf : fs f = none ∨ w.openFails → Through w I Q (k none) fs) : Through w I Q (.read f k) fs := by
  refine .intro h1 (fun b e => nomatch e) (fun u e => nomatch e) (fun p' fs' s => ?_)
  cases s with
  | readOk _ _ _ d h => exact hok d h
  | readFail _ _ _ h => exact hf h

theorem Through.writing {f : Str} {o done todo : Data} {p : Nat} {k : Bool → Prog α} {fs : FS}
    (hc : fs f = some (overlay o p done))
    (hI : ∀ d' t', done ++ todo = d' ++ t' → I (fs.put f (some (overlay o p d'))))
    (hok : Through w I Q (k true) (fs.put f (some (overlay o p (done ++ todo)))))
    (hf : w.writeFails → ∀ junk, Through w I Q (k false) (fs.put f (some (o.take p ++ junk)))) :
    Through w I Q (.writing f o p done todo k) fs := by
  induction todo generalizing done fs with
  | nil =>
    refine .intro ?_ (fun b e => nomatch e) (fun u e => nomatch e) (fun p' fs' s => ?_)
    · have := hI done [] rfl; rwa [FS.put_same fs hc] at this
    · cases s with
      | writeDone => rwa [List.append_nil, FS.put_same fs hc] at hok
      | writeFail _ _ _ _ _ _ _ _ h => exact hf h _
  | cons c t ih =>
    refine .intro ?_ (fun b e => nomatch e) (fun u e => nomatch e) (fun p' fs' s => ?_)
    · have := hI done (c :: t) rfl; rwa [FS.put_same fs hc] at this
    · cases s with
      | byte =>
        refine ih (FS.put_self _ _ _) ?_ ?_ ?_
        · intro d' t' e
          rw [FS.put_put]
          exact hI d' t' (by simpa using e)
        · rw [FS.put_put]; simpa using hok
        · intro hw junk
          rw [FS.put_put]; exact hf hw junk
      | writeFail _ _ _ _ _ _ _ _ h => exact hf h _

theorem overlay_nil (o : Data) (p : Nat) : overlay o p [] = o := by simp [overlay]

theorem Through.write {f : Str} {m : WMode} {d : Data} {k : Option Bool → Prog α} {fs : FS} (h1 : I fs)
    (hI : ∀ d' t', d = d' ++ t' → I (fs.put f (some (overlay (opened fs f m).1 (opened fs f m).2 d'))))
    (hok : Through w I Q (k (some true)) (fs.put f (some (overlay (opened fs f m).1 (opened fs f m).2 d))))
    (hf : w.writeFails → ∀ junk, Through w I Q (k (some false)) (fs.put f (some ((opened fs f m).1.take (opened fs f m).2 ++ junk))))
    (hn : w.openFails → Through w I Q (k none) fs) : Through w I Q (.write f m d k) fs := by
  refine .intro h1 (fun b e => nomatch e) (fun u e => nomatch e) (fun p' fs' s => ?_)
  cases s with
  | openOk =>
    refine Through.writing ?_ ?_ ?_ ?_
    · rw [FS.put_self, overlay_nil]
    · intro d' t' e
      rw [FS.put_put]; exact hI d' t' (by simpa using e)
    · rw [FS.put_put]; simpa using hok
    · intro hw junk
      rw [FS.put_put]; exact hf hw junk
  | openFail _ _ _ _ _ h => exact hn h

theorem Through.running {c : Str} {s : FS} {k : Nat → Prog α} {fs : FS} (h1 : I fs)
    (hd : ∀ fs', w.during c s fs' → I fs') (he : ∀ n fs', w.exec c s n fs' → Through w I Q (k n) fs') :
    Through w I Q (.running c s k) fs := by
  intro p' fs' hr
  generalize hp : Prog.running c s k = p at hr
  induction hr with
  | here => subst hp; exact ⟨h1, (fun a e => by cases e), (fun u e => by cases e)⟩
  | step st r ih =>
    subst hp
    cases st with
    | execDuring _ _ _ _ _ h => exact ih (hd _ h) rfl
    | execEnd _ _ _ _ n _ h => exact he _ _ h _ _ r

theorem Through.exec {c : Str} {k : Nat → Prog α} {fs : FS} (h1 : I fs)
    (hd : ∀ fs', w.during c fs fs' → I fs') (he : ∀ n fs', w.exec c fs n fs' → Through w I Q (k n) fs') :
    Through w I Q (.exec c k) fs := by
  refine .intro h1 (fun b e => nomatch e) (fun u e => nomatch e) (fun p' fs' s => ?_)
  cases s with
  | execStart => exact .running h1 hd he

theorem Through.list {dir : Str} {acc : Str → Bool} {k : Option (List FileEntry) → Prog α} {fs : FS} (h1 : I fs)
    (hok : ∀ es, DirList fs dir acc es → Through w I Q (k (some es)) fs) (hf : w.listFails → Through w I Q (k none) fs) :
    Through w I Q (.list dir acc k) fs := by
  refine .intro h1 (fun b e => nomatch e) (fun u e => nomatch e) (fun p' fs' s => ?_)
  cases s with
  | listOk _ _ _ _ es h => exact hok es h
  | listFail _ _ _ _ h => exact hf h

theorem Through.time {k : UInt32 → Prog α} {fs : FS} (h1 : I fs) (h : ∀ t, Through w I Q (k t) fs) :
    Through w I Q (.time k) fs := by
  refine .intro h1 (fun b e => nomatch e) (fun u e => nomatch e) (fun p' fs' s => ?_)
  cases s; exact h _

theorem Through.sleep {k : Bool → Prog α} {fs : FS} (h1 : I fs) (h : ∀ b, Through w I Q (k b) fs) :
    Through w I Q (.sleep k) fs := by
  refine .intro h1 (fun b e => nomatch e) (fun u e => nomatch e) (fun p' fs' s => ?_)
  cases s; exact h _

/-- Steps of a sequence of two programs. -/
theorem Step.bind_inv {p : Prog α} {h : α → Prog β} {fs : FS} {q : Prog β} {fs' : FS} (hs : Step w (p.bind h) fs q fs')
    (hp : ∀ a, p ≠ .ret a) : ∃ p', Step w p fs p' fs' ∧ q = p'.bind h := by
  cases p with
  | ret a => exact absurd rfl (hp a)
  | ub u => nomatch hs
  | stuck => nomatch hs
  | exist f k => cases hs; exact ⟨_, .exist _ _ _, rfl⟩
  | rename f g k =>
    cases hs with
    | renameOk _ _ _ _ d hd => exact ⟨_, .renameOk _ _ _ _ d hd, rfl⟩
    | renameFail _ _ _ _ hd => exact ⟨_, .renameFail _ _ _ _ hd, rfl⟩
  | delete f k =>
    cases hs with
    | deleteOk _ _ _ d hd => exact ⟨_, .deleteOk _ _ _ d hd, rfl⟩
    | deleteFail _ _ _ hd => exact ⟨_, .deleteFail _ _ _ hd, rfl⟩
  | read f k =>
    cases hs with
    | readOk _ _ _ d hd => exact ⟨_, .readOk _ _ _ d hd, rfl⟩
    | readFail _ _ _ hd => exact ⟨_, .readFail _ _ _ hd, rfl⟩
  | write f m d k =>
    cases hs with
    | openOk => exact ⟨_, .openOk _ _ _ _ _, rfl⟩
    | openFail _ _ _ _ _ hd => exact ⟨_, .openFail _ _ _ _ _ hd, rfl⟩
  | writing f o p d t k =>
    cases hs with
    | byte => exact ⟨_, .byte _ _ _ _ _ _ _ _, rfl⟩
    | writeDone => exact ⟨_, .writeDone _ _ _ _ _ _, rfl⟩
    | writeFail _ _ _ _ _ _ _ _ hd => exact ⟨_, .writeFail _ _ _ _ _ _ _ _ hd, rfl⟩
  | exec c k => cases hs; exact ⟨_, .execStart _ _ _, rfl⟩
  | running c s k =>
    cases hs with
    | execDuring _ _ _ _ _ hd => exact ⟨_, .execDuring _ _ _ _ _ hd, rfl⟩
    | execEnd _ _ _ _ n _ hd => exact ⟨_, .execEnd _ _ _ _ n _ hd, rfl⟩
  | list d a k =>
    cases hs with
    | listOk _ _ _ _ es hd => exact ⟨_, .listOk _ _ _ _ es hd, rfl⟩
    | listFail _ _ _ _ hd => exact ⟨_, .listFail _ _ _ _ hd, rfl⟩
  | time k => cases hs; exact ⟨_, .time _ _ _, rfl⟩
  | sleep k => cases hs; exact ⟨_, .sleep _ _ _, rfl⟩

theorem Reach.bind_inv {p : Prog α} {h : α → Prog β} {fs : FS} {q : Prog β} {fs' : FS} (hr : Reach w (p.bind h) fs q fs') :
    (∃ p', Reach w p fs p' fs' ∧ q = p'.bind h ∧ ∀ a, p' ≠ .ret a) ∨
    (∃ a gs, Reach w p fs (.ret a) gs ∧ Reach w (h a) gs q fs') := by
  generalize e : p.bind h = r at hr
  induction hr generalizing p with
  | here =>
    subst e
    by_cases hp : ∃ a, p = .ret a
    · obtain ⟨a, rfl⟩ := hp
      exact .inr ⟨a, _, .here _ _, .here _ _⟩
    · exact .inl ⟨p, .here _ _, rfl, fun a e => hp ⟨a, e⟩⟩
  | step s r ih =>
    subst e
    by_cases hp : ∃ a, p = .ret a
    · obtain ⟨a, rfl⟩ := hp
      exact .inr ⟨a, _, .here _ _, .step s r⟩
    · obtain ⟨p', s', e⟩ := s.bind_inv (fun a e => hp ⟨a, e⟩)
      rcases ih e.symm with ⟨p'', h1, h2, h3⟩ | ⟨a, gs, h1, h2⟩
      · exact .inl ⟨p'', .step s' h1, h2, h3⟩
      · exact .inr ⟨a, gs, .step s' h1, h2⟩

theorem Prog.bind_ub {p : Prog α} {h : α → Prog β} {u : UB} (e : p.bind h = .ub u) (hp : ∀ a, p ≠ .ret a) : p = .ub u := by
  cases p <;> first | exact absurd rfl (hp _) | cases e <;> rfl

theorem Prog.bind_ret {p : Prog α} {h : α → Prog β} {b : β} (e : p.bind h = .ret b) : ∃ a, p = .ret a := by
  cases p <;> first | exact ⟨_, rfl⟩ | cases e

/-- One program after the other. -/
theorem Through.bind {S : β → FS → Prop} {p : Prog α} {h : α → Prog β} {fs : FS} (hp : Through w I Q p fs)
    (hh : ∀ a gs, I gs → Q a gs → Through w I S (h a) gs) : Through w I S (p.bind h) fs := by
  intro q fs' hr
  rcases hr.bind_inv with ⟨p', h1, rfl, h3⟩ | ⟨a, gs, h1, h2⟩
  · obtain ⟨i, _, u⟩ := hp _ _ h1
    refine ⟨i, ?_, ?_⟩
    · intro b e
      obtain ⟨a, rfl⟩ := Prog.bind_ret e
      exact absurd rfl (h3 a)
    · intro v e
      exact u v (Prog.bind_ub e h3)
  · obtain ⟨i, q', _⟩ := hp _ _ h1
    exact hh a gs i (q' a rfl) _ _ h2

theorem Through.liftUB {e : Except UB α} {fs : FS} (h1 : I fs) (h : ∃ a, e = .ok a ∧ Q a fs) : Through w I Q (liftUB e) fs := by
  obtain ⟨a, rfl, h⟩ := h
  exact .ret h1 h

@[simp] theorem Prog.pure_eq (a : α) : (pure a : Prog α) = .ret a := rfl
@[simp] theorem Prog.bind_eq (p : Prog α) (h : α → Prog β) : (p >>= h) = p.bind h := rfl

end CM
