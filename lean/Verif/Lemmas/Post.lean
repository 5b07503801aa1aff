import Verif.Lemmas.Disk
/-! # What holds when a program has finished

`Post` says nothing about the states in between, nor about programs that end in undefined behaviour. -/

namespace CM

/-- Whenever the program finishes, `Q` holds of its result and the disk. -/
def Post (w : World) {α : Type} (Q : α → FS → Prop) (p : Prog α) (fs : FS) : Prop :=
  ∀ a fs', Reach w p fs (.ret a) fs' → Q a fs'

variable {w : World} {α β : Type} {Q R : α → FS → Prop}

theorem Post.ret {a : α} {fs : FS} (h : Q a fs) : Post w Q (.ret a) fs := by
  intro b fs' hr
  cases hr with
  | here => exact h
  | step s _ => nomatch s

theorem Post.ub {u : UB} {fs : FS} : Post w Q (.ub u) fs := by
  intro b fs' hr
  cases hr with
  | step s _ => nomatch s

theorem Post.stuck {fs : FS} : Post w Q .stuck fs := by
  intro b fs' hr
  cases hr with
  | step s _ => nomatch s

/-- A program is fine if every step leads to a state from which it is. -/
theorem Post.steps {p : Prog α} {fs : FS} (hp : ∀ a, p ≠ .ret a) (hs : ∀ p' fs', Step w p fs p' fs' → Post w Q p' fs') : Post w Q p fs := by
  intro b fs' hr
  cases hr with
  | here => exact absurd rfl (hp b)
  | step s r => exact hs _ _ s _ _ r

theorem Post.mono {p : Prog α} {fs : FS} (h : Post w Q p fs) (hQ : ∀ a fs, Q a fs → R a fs) : Post w R p fs :=
  fun a fs' hr => hQ a fs' (h a fs' hr)

theorem Post.bind {S : β → FS → Prop} {p : Prog α} {h : α → Prog β} {fs : FS} (hp : Post w Q p fs)
    (hh : ∀ a gs, Q a gs → Post w S (h a) gs) : Post w S (p.bind h) fs := by
  intro b fs' hr
  rcases hr.bind_inv with ⟨p', h1, h2, h3⟩ | ⟨a, gs, h1, h2⟩
  · obtain ⟨a, e⟩ := Prog.bind_ret h2.symm
    exact absurd e (h3 a)
  · exact hh a gs (hp a gs h1) b fs' h2

theorem Post.liftUB {e : Except UB α} {fs : FS} (h : ∀ a, e = .ok a → Q a fs) : Post w Q (liftUB e) fs := by
  cases e with
  | ok a => exact .ret (h a rfl)
  | error u => exact .ub

theorem Post.exist {f : Str} {k : Bool → Prog α} {fs : FS} (h : Post w Q (k (fs f).isSome) fs) : Post w Q (.exist f k) fs := by
  refine .steps (fun _ e => nomatch e) fun p' fs' s => ?_
  cases s; exact h

theorem Post.delete {f : Str} {k : Bool → Prog α} {fs : FS}
    (hok : ∀ d, fs f = some d → Post w Q (k true) (fs.put f none))
    (hf : fs f = none ∨ w.deleteFails → Post w Q (k false) fs) : Post w Q (.delete f k) fs := by
  refine .steps (fun _ e => nomatch e) fun p' fs' s => ?_
  cases s with
  | deleteOk _ _ _ d h => exact hok d h
  | deleteFail _ _ _ h => exact hf h

theorem Post.rename {f g : Str} {k : Bool → Prog α} {fs : FS}
    (hok : ∀ d, fs f = some d → Post w Q (k true) ((fs.put f none).put g (some d)))
    (hf : fs f = none ∨ w.renameFails → Post w Q (k false) fs) : Post w Q (.rename f g k) fs := by
  refine .steps (fun _ e => nomatch e) fun p' fs' s => ?_
  cases s with
  | renameOk _ _ _ _ d h => exact hok d h
  | renameFail _ _ _ _ h => exact hf h

theorem Post.read {f : Str} {k : Option Data → Prog α} {fs : FS}
    (hok : ∀ d, fs f = some d → Post w Q (k (some d)) fs)
    (hf : fs f = none ∨ w.openFails → Post w Q (k none) fs) : Post w Q (.read f k) fs := by
  refine .steps (fun _ e => nomatch e) fun p' fs' s => ?_
  cases s with
  | readOk _ _ _ d h => exact hok d h
  | readFail _ _ _ h => exact hf h

theorem Post.list {dir : Str} {acc : Str → Bool} {k : Option (List FileEntry) → Prog α} {fs : FS}
    (hok : ∀ es, DirList fs dir acc es → Post w Q (k (some es)) fs) (hf : w.listFails → Post w Q (k none) fs) :
    Post w Q (.list dir acc k) fs := by
  refine .steps (fun _ e => nomatch e) fun p' fs' s => ?_
  cases s with
  | listOk _ _ _ _ es h => exact hok es h
  | listFail _ _ _ _ h => exact hf h

theorem Post.sleep {k : Bool → Prog α} {fs : FS} (h : ∀ b, Post w Q (k b) fs) : Post w Q (.sleep k) fs := by
  refine .steps (fun _ e => nomatch e) fun p' fs' s => ?_
  cases s; exact h _

theorem Post.time {k : UInt32 → Prog α} {fs : FS} (h : ∀ b, Post w Q (k b) fs) : Post w Q (.time k) fs := by
  refine .steps (fun _ e => nomatch e) fun p' fs' s => ?_
  cases s; exact h _

theorem Post.writing {f : Str} {o done todo : Data} {p : Nat} {k : Bool → Prog α} {fs : FS}
    (hc : fs f = some (overlay o p done))
    (hok : Post w Q (k true) (fs.put f (some (overlay o p (done ++ todo)))))
    (hf : w.writeFails → ∀ junk, Post w Q (k false) (fs.put f (some (o.take p ++ junk)))) :
    Post w Q (.writing f o p done todo k) fs := by
  induction todo generalizing done fs with
  | nil =>
    refine .steps (fun _ e => nomatch e) fun p' fs' s => ?_
    cases s with
    | writeDone => rwa [List.append_nil, FS.put_same fs hc] at hok
    | writeFail _ _ _ _ _ _ _ _ h => exact hf h _
  | cons c t ih =>
    refine .steps (fun _ e => nomatch e) fun p' fs' s => ?_
    cases s with
    | byte =>
      refine ih (FS.put_self _ _ _) ?_ ?_
      · rw [FS.put_put]; simpa using hok
      · intro hw junk
        rw [FS.put_put]; exact hf hw junk
    | writeFail _ _ _ _ _ _ _ _ h => exact hf h _

theorem Post.write {f : Str} {m : WMode} {d : Data} {k : Option Bool → Prog α} {fs : FS}
    (hok : Post w Q (k (some true)) (fs.put f (some (overlay (opened fs f m).1 (opened fs f m).2 d))))
    (hf : w.writeFails → ∀ junk, Post w Q (k (some false)) (fs.put f (some ((opened fs f m).1.take (opened fs f m).2 ++ junk))))
    (hn : w.openFails → Post w Q (k none) fs) : Post w Q (.write f m d k) fs := by
  refine .steps (fun _ e => nomatch e) fun p' fs' s => ?_
  cases s with
  | openOk =>
    refine Post.writing ?_ ?_ ?_
    · rw [FS.put_self, overlay_nil]
    · rw [FS.put_put]; simpa using hok
    · intro hw junk
      rw [FS.put_put]; exact hf hw junk
  | openFail _ _ _ _ _ h => exact hn h

end CM
