import Verif.Lemmas.Disk
/-! # Running a program on a disk without faults

Used for concrete cases. Listings and other programs are left to the caller. -/

namespace CM

/-- The result of a program when nothing fails: the time is 0 and Ctrl-C is not pressed. -/
def Prog.play {α : Type} : Prog α → FS → Option (α × FS)
  | .ret a, fs => some (a, fs)
  | .exist f k, fs => (k (fs f).isSome).play fs
  | .rename f g k, fs =>
    match fs f with
    | some d => (k true).play ((fs.put f none).put g (some d))
    | none => (k false).play fs
  | .delete f k, fs =>
    match fs f with
    | some _ => (k true).play (fs.put f none)
    | none => (k false).play fs
  | .read f k, fs => (k (fs f)).play fs
  | .write f m d k, fs => (k (some true)).play (fs.put f (some (overlay (opened fs f m).1 (opened fs f m).2 d)))
  | .time k, fs => (k 0).play fs
  | .sleep k, fs => (k false).play fs
  | _, _ => none

theorem reach_writing {w : World} {α : Type} {f : Str} {o done todo : Data} {p : Nat} {k : Bool → Prog α} {fs : FS}
    (hc : fs f = some (overlay o p done)) :
    Reach w (.writing f o p done todo k) fs (k true) (fs.put f (some (overlay o p (done ++ todo)))) := by
  induction todo generalizing done fs with
  | nil =>
    rw [List.append_nil, FS.put_same fs hc]
    exact .step (.writeDone _ _ _ _ _ _) (.here _ _)
  | cons c t ih =>
    refine .step (.byte _ _ _ _ _ _ _ _) ?_
    have := ih (done := done ++ [c]) (fs := fs.put f (some (overlay o p (done ++ [c])))) (FS.put_self _ _ _)
    rw [FS.put_put] at this
    simpa using this

theorem play_reach (w : World) {α : Type} (p : Prog α) (fs : FS) {a : α} {fs' : FS} (h : p.play fs = some (a, fs')) : Reach w p fs (.ret a) fs' := by
  induction p generalizing fs with
  | ret b => simp only [Prog.play, Option.some.injEq, Prod.mk.injEq] at h; rw [← h.1, ← h.2]; exact .here _ _
  | ub u => cases h
  | stuck => cases h
  | exist f k ih => exact .step (.exist _ _ _) (ih _ _ h)
  | rename f g k ih =>
    unfold Prog.play at h
    cases hf : fs f with
    | some d => rw [hf] at h; exact .step (.renameOk _ _ _ _ d hf) (ih _ _ h)
    | none => rw [hf] at h; exact .step (.renameFail _ _ _ _ (.inl hf)) (ih _ _ h)
  | delete f k ih =>
    unfold Prog.play at h
    cases hf : fs f with
    | some d => rw [hf] at h; exact .step (.deleteOk _ _ _ d hf) (ih _ _ h)
    | none => rw [hf] at h; exact .step (.deleteFail _ _ _ (.inl hf)) (ih _ _ h)
  | read f k ih =>
    unfold Prog.play at h
    cases hf : fs f with
    | some d => rw [hf] at h; exact .step (.readOk _ _ _ d hf) (ih _ _ h)
    | none => rw [hf] at h; exact .step (.readFail _ _ _ (.inl hf)) (ih _ _ h)
  | write f m d k ih =>
    unfold Prog.play at h
    refine .step (.openOk _ _ _ _ _) ?_
    have r := reach_writing (w := w) (f := f) (o := (opened fs f m).1) (p := (opened fs f m).2) (done := []) (todo := d) (k := fun r => k (some r))
      (fs := fs.put f (some (opened fs f m).1)) (by rw [FS.put_self, overlay_nil])
    rw [FS.put_put, List.nil_append] at r
    exact r.trans (ih _ _ h)
  | writing => cases h
  | exec => cases h
  | running => cases h
  | list => cases h
  | time k ih => exact .step (.time _ _ 0) (ih _ _ h)
  | sleep k ih => exact .step (.sleep _ _ false) (ih _ _ h)

/-- Where a program ends, possibly in undefined behaviour, when just the renames of the files `bad` fail. -/
def Prog.playTo (bad : Str → Bool) {α : Type} : Prog α → FS → Option (Prog α × FS)
  | .ret a, fs => some (.ret a, fs)
  | .ub u, fs => some (.ub u, fs)
  | .exist f k, fs => (k (fs f).isSome).playTo bad fs
  | .rename f g k, fs =>
    match fs f with
    | some d => if bad f then (k false).playTo bad fs else (k true).playTo bad ((fs.put f none).put g (some d))
    | none => (k false).playTo bad fs
  | .delete f k, fs =>
    match fs f with
    | some _ => (k true).playTo bad (fs.put f none)
    | none => (k false).playTo bad fs
  | .read f k, fs => (k (fs f)).playTo bad fs
  | .write f m d k, fs => (k (some true)).playTo bad (fs.put f (some (overlay (opened fs f m).1 (opened fs f m).2 d)))
  | .time k, fs => (k 0).playTo bad fs
  | .sleep k, fs => (k false).playTo bad fs
  | _, _ => none

theorem playTo_reach {w : World} {bad : Str → Bool} (hw : w.renameFails ∨ ∀ f, bad f = false) {α : Type} (p : Prog α) (fs : FS) {q : Prog α} {fs' : FS} (h : p.playTo bad fs = some (q, fs')) :
    Reach w p fs q fs' := by
  induction p generalizing fs with
  | ret b => simp only [Prog.playTo, Option.some.injEq, Prod.mk.injEq] at h; rw [← h.1, ← h.2]; exact .here _ _
  | ub u => simp only [Prog.playTo, Option.some.injEq, Prod.mk.injEq] at h; rw [← h.1, ← h.2]; exact .here _ _
  | stuck => cases h
  | exist f k ih => exact .step (.exist _ _ _) (ih _ _ h)
  | rename f g k ih =>
    unfold Prog.playTo at h
    cases hf : fs f with
    | some d =>
      rw [hf] at h
      dsimp only at h
      split at h
      · next hb =>
        refine .step (.renameFail _ _ _ _ (.inr ?_)) (ih _ _ h)
        rcases hw with hw | hw
        · exact hw
        · rw [hw] at hb; cases hb
      · exact .step (.renameOk _ _ _ _ d hf) (ih _ _ h)
    | none => rw [hf] at h; exact .step (.renameFail _ _ _ _ (.inl hf)) (ih _ _ h)
  | delete f k ih =>
    unfold Prog.playTo at h
    cases hf : fs f with
    | some d => rw [hf] at h; exact .step (.deleteOk _ _ _ d hf) (ih _ _ h)
    | none => rw [hf] at h; exact .step (.deleteFail _ _ _ (.inl hf)) (ih _ _ h)
  | read f k ih =>
    unfold Prog.playTo at h
    cases hf : fs f with
    | some d => rw [hf] at h; exact .step (.readOk _ _ _ d hf) (ih _ _ h)
    | none => rw [hf] at h; exact .step (.readFail _ _ _ (.inl hf)) (ih _ _ h)
  | write f m d k ih =>
    unfold Prog.playTo at h
    refine .step (.openOk _ _ _ _ _) ?_
    have r := reach_writing (w := w) (f := f) (o := (opened fs f m).1) (p := (opened fs f m).2) (done := []) (todo := d) (k := fun r => k (some r))
      (fs := fs.put f (some (opened fs f m).1)) (by rw [FS.put_self, overlay_nil])
    rw [FS.put_put, List.nil_append] at r
    exact r.trans (ih _ _ h)
  | writing => cases h
  | exec => cases h
  | running => cases h
  | list => cases h
  | time k ih => exact .step (.time _ _ 0) (ih _ _ h)
  | sleep k ih => exact .step (.sleep _ _ false) (ih _ _ h)

end CM
