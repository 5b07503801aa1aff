import Verif.Lemmas.Pack
/-! # Programs that change only certain files -/

set_option linter.unusedSimpArgs false

namespace CM

/-- The disk is the same as `fs0` but for the files in `S`. -/
def SameBut (S : Str → Prop) (fs0 fs : FS) : Prop := ∀ g, ¬ S g → fs g = fs0 g

/-- The program writes, renames and deletes only files in `S`, and its results are in `Q`. -/
def Only (S : Str → Prop) (fs0 : FS) {α : Type} (Q : α → Prop) : Prog α → Prop
  | .ret a => Q a
  | .ub _ => True
  | .stuck => True
  | .exist _ k => ∀ r, Only S fs0 Q (k r)
  | .rename f g k => S f ∧ S g ∧ ∀ r, Only S fs0 Q (k r)
  | .delete f k => S f ∧ ∀ r, Only S fs0 Q (k r)
  | .read _ k => ∀ r, Only S fs0 Q (k r)
  | .write f _ _ k => S f ∧ ∀ r, Only S fs0 Q (k r)
  | .writing f _ _ _ _ k => S f ∧ ∀ r, Only S fs0 Q (k r)
  | .exec _ k => ∀ r, Only S fs0 Q (k r)
  | .running _ s k => SameBut S fs0 s ∧ ∀ r, Only S fs0 Q (k r)
  | .list _ acc k => Only S fs0 Q (k none) ∧
      ∀ es, (∀ e ∈ es, ∃ n, e.name = n.take 99 ∧ (47 : UInt8) ∉ n ∧ acc n = true) → Only S fs0 Q (k (some es))
  | .time k => ∀ r, Only S fs0 Q (k r)
  | .sleep k => ∀ r, Only S fs0 Q (k r)

/-- The commands a program starts change only files in `S`. -/
def ExecOnly (w : World) (S : Str → Prop) : Prop :=
  ∀ c fs fs', (w.during c fs fs' ∨ ∃ n, w.exec c fs n fs') → SameBut S fs fs'

theorem SameBut.put {S : Str → Prop} {fs0 fs : FS} (h : SameBut S fs0 fs) {f : Str} (hf : S f) (v : Option Data) :
    SameBut S fs0 (fs.put f v) := by
  intro g hg
  rw [FS.put_ne _ (by rintro rfl; exact hg hf), h g hg]

theorem only_step {w : World} {S : Str → Prop} (hw : ExecOnly w S) {α : Type} {fs0 : FS} {Q : α → Prop} {p p' : Prog α} {fs fs' : FS}
    (h : Step w p fs p' fs') (hp : Only S fs0 Q p) (hs : SameBut S fs0 fs) : Only S fs0 Q p' ∧ SameBut S fs0 fs' := by
  cases h with
  | exist => exact ⟨hp _, hs⟩
  | renameOk => exact ⟨hp.2.2 _, (hs.put hp.1 _).put hp.2.1 _⟩
  | renameFail => exact ⟨hp.2.2 _, hs⟩
  | deleteOk => exact ⟨hp.2 _, hs.put hp.1 _⟩
  | deleteFail => exact ⟨hp.2 _, hs⟩
  | readOk => exact ⟨hp _, hs⟩
  | readFail => exact ⟨hp _, hs⟩
  | openOk => exact ⟨⟨hp.1, fun r => hp.2 _⟩, hs.put hp.1 _⟩
  | openFail => exact ⟨hp.2 _, hs⟩
  | byte => exact ⟨hp, hs.put hp.1 _⟩
  | writeDone => exact ⟨hp.2 _, hs⟩
  | writeFail => exact ⟨hp.2 _, hs.put hp.1 _⟩
  | execStart => exact ⟨⟨hs, hp⟩, hs⟩
  | execDuring c s k fs fs' h =>
    refine ⟨hp, fun g hg => ?_⟩
    rw [hw c s fs' (.inl h) g hg, hp.1 g hg]
  | execEnd c s k fs n fs' h =>
    refine ⟨hp.2 _, fun g hg => ?_⟩
    rw [hw c s fs' (.inr ⟨n, h⟩) g hg, hp.1 g hg]
  | listOk dir acc k fs es h =>
    refine ⟨hp.2 es fun e he => ?_, hs⟩
    obtain ⟨n, d, e1, e2, -, e3, -⟩ := h.1 e he
    exact ⟨n, e1, e2, e3⟩
  | listFail => exact ⟨hp.1, hs⟩
  | time => exact ⟨hp _, hs⟩
  | sleep => exact ⟨hp _, hs⟩

/-- Such a program leaves the other files as they are, wherever it is stopped. -/
theorem only_reach {w : World} {S : Str → Prop} (hw : ExecOnly w S) {α : Type} {fs0 : FS} {Q : α → Prop} {p p' : Prog α} {fs fs' : FS}
    (h : Reach w p fs p' fs') (hp : Only S fs0 Q p) (hs : SameBut S fs0 fs) : Only S fs0 Q p' ∧ SameBut S fs0 fs' := by
  induction h with
  | here => exact ⟨hp, hs⟩
  | step h _ ih =>
    obtain ⟨h1, h2⟩ := only_step hw h hp hs
    exact ih h1 h2

theorem Only.bind {S : Str → Prop} {fs0 : FS} {α β : Type} {Q : α → Prop} {R : β → Prop} {p : Prog α} {h : α → Prog β}
    (hp : Only S fs0 Q p) (hh : ∀ a, Q a → Only S fs0 R (h a)) : Only S fs0 R (p.bind h) := by
  induction p with
  | ret a => exact hh a hp
  | ub u => trivial
  | stuck => trivial
  | exist f k ih => exact fun r => ih r (hp r)
  | rename f g k ih => exact ⟨hp.1, hp.2.1, fun r => ih r (hp.2.2 r)⟩
  | delete f k ih => exact ⟨hp.1, fun r => ih r (hp.2 r)⟩
  | read f k ih => exact fun r => ih r (hp r)
  | write f m d k ih => exact ⟨hp.1, fun r => ih r (hp.2 r)⟩
  | writing f o p d t k ih => exact ⟨hp.1, fun r => ih r (hp.2 r)⟩
  | exec c k ih => exact fun r => ih r (hp r)
  | running c s k ih => exact ⟨hp.1, fun r => ih r (hp.2 r)⟩
  | list d a k ih => exact ⟨ih _ hp.1, fun es hes => ih _ (hp.2 es hes)⟩
  | time k ih => exact fun r => ih r (hp r)
  | sleep k ih => exact fun r => ih r (hp r)

theorem Only.weaken {S : Str → Prop} {fs0 : FS} {α : Type} {Q R : α → Prop} {p : Prog α}
    (hp : Only S fs0 Q p) (hh : ∀ a, Q a → R a) : Only S fs0 R p := by
  induction p with
  | ret a => exact hh a hp
  | ub u => trivial
  | stuck => trivial
  | exist f k ih => exact fun r => ih r (hp r)
  | rename f g k ih => exact ⟨hp.1, hp.2.1, fun r => ih r (hp.2.2 r)⟩
  | delete f k ih => exact ⟨hp.1, fun r => ih r (hp.2 r)⟩
  | read f k ih => exact fun r => ih r (hp r)
  | write f m d k ih => exact ⟨hp.1, fun r => ih r (hp.2 r)⟩
  | writing f o p d t k ih => exact ⟨hp.1, fun r => ih r (hp.2 r)⟩
  | exec c k ih => exact fun r => ih r (hp r)
  | running c s k ih => exact ⟨hp.1, fun r => ih r (hp.2 r)⟩
  | list d a k ih => exact ⟨ih _ hp.1, fun es hes => ih _ (hp.2 es hes)⟩
  | time k ih => exact fun r => ih r (hp r)
  | sleep k ih => exact fun r => ih r (hp r)

theorem Only.liftUB {S : Str → Prop} {fs0 : FS} {α : Type} {Q : α → Prop} {e : Except UB α} (h : ∀ a, e = .ok a → Q a) :
    Only S fs0 Q (liftUB e) := by
  cases e with
  | error u => trivial
  | ok a => exact h a rfl

end CM
