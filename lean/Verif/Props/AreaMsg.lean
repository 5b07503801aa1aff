import Verif.Props.AreaMem
import Verif.Spec.AreaMsg

/-! # Where messages go in `*.msg` areas (C121) -/

set_option linter.unusedSimpArgs false

namespace CM

/-- The search ends at a free number. -/
theorem freeNum_free : ∀ (k : Nat) (l m : List Nat) (n : Nat), m.length ≤ k → (∀ x, n ≤ x → x ∈ l → x ∈ m) → freeNum l k n ∉ l
  | 0, l, m, n, hl, h => by
    intro hm
    have := h n (Nat.le_refl _) hm
    have : m = [] := List.eq_nil_of_length_eq_zero (by omega)
    simp_all
  | k + 1, l, m, n, hl, h => by
    unfold freeNum
    by_cases hn : n ∈ l
    · rw [if_pos (by simpa using hn)]
      refine freeNum_free k l (m.filter (· ≠ n)) (n + 1) ?_ fun x hx hxl => ?_
      · have hlt : (m.filter (· ≠ n)).length < m.length := List.length_filter_lt_length_iff_exists.2 ⟨n, h n (Nat.le_refl _) hn, by simp⟩
        omega
      · exact List.mem_filter.2 ⟨h x (by omega) hxl, by simp; omega⟩
    · rw [if_neg (by simpa using hn)]
      exact hn

theorem freeNum_new (l : List Nat) (n : Nat) : freeNum l l.length n ∉ l := freeNum_free _ l l n (Nat.le_refl _) fun _ _ h => h

/-- What one operation does to the directories. -/
def DirsStep (m m' : AreaDirs) (r : Option (Str × Nat)) : Prop :=
  ∀ p, (∀ l, m.dirs p = some l → m'.dirs p = some (numsIn p [r] ++ l) ∧ ∀ n ∈ numsIn p [r], n ∉ l) ∧
    (m.dirs p = none → m'.dirs p = none ∧ numsIn p [r] = [] ∨ m'.dirs p = some (numsIn p [r]))

theorem numsIn_one (p q : Str) (n : Nat) : numsIn p [some (q, n)] = if q = p then [n] else [] := by
  unfold numsIn
  by_cases h : q = p <;> simp [h]

theorem numsIn_none (p : Str) : numsIn p [none] = [] := rfl

theorem numsIn_cons (p : Str) (r : Option (Str × Nat)) (rs : List (Option (Str × Nat))) : numsIn p (r :: rs) = numsIn p rs ++ numsIn p [r] := by
  unfold numsIn
  rw [← List.reverse_append, ← List.filterMap_append]
  rfl

theorem dirsStep_same (m m' : AreaDirs) (h : m'.dirs = m.dirs) : DirsStep m m' none := by
  intro p
  rw [h, numsIn_none]
  exact ⟨fun l hl => ⟨hl, fun n hn => (by cases hn)⟩, fun hl => .inl ⟨hl, rfl⟩⟩

theorem numsIn_length (p : Str) (r : Option (Str × Nat)) : (numsIn p [r]).Nodup := by
  cases r with
  | none => simp [numsIn]
  | some x =>
    obtain ⟨q, n⟩ := x
    rw [numsIn_one]
    split <;> simp

/-- Writing into a directory that exists. -/
theorem dirWrite_spec (m : AreaDirs) (a : Nat) (p : Str) (h : Nat) :
    DirsStep m (dirWrite m a p h).2 (dirWrite m a p h).1 ∧ (dirWrite m a p h).2.mem = m.mem ∧ (∀ q n, (dirWrite m a p h).1 = some (q, n) → q = p) ∧
      (m.dirs p ≠ none → (dirWrite m a p h).1 ≠ none) ∧ (m.dirs p = none → (dirWrite m a p h).1 = none) ∧
      ∀ b, (dirWrite m a p h).2.recs b ≠ none → b = a ∨ m.recs b ≠ none := by
  unfold dirWrite
  dsimp only
  have hrec : ∀ b v, (if b = a then some v else m.recs b) ≠ none → b = a ∨ m.recs b ≠ none := fun b v hb => by
    by_cases hba : b = a
    · exact .inl hba
    · rw [if_neg hba] at hb; exact .inr hb
  cases hd : m.dirs p with
  | none => exact ⟨dirsStep_same _ _ rfl, rfl, fun q n e => (by cases e), fun hh => absurd rfl hh, fun _ => rfl, fun b hb => hrec b _ hb⟩
  | some l =>
    refine ⟨fun q => ?_, rfl, fun q n e => by injection e with e; injection e with e; exact e.symm, fun _ => by simp, fun hh => (by cases hh), fun b hb => hrec b _ hb⟩
    dsimp only
    rw [numsIn_one]
    by_cases hq : q = p
    · subst hq
      rw [if_pos rfl, if_pos rfl]
      refine ⟨fun l' hl' => ?_, fun hl' => absurd (hd.symm.trans hl') (by simp)⟩
      rw [hd] at hl'
      injection hl' with hl'
      subst hl'
      refine ⟨rfl, fun n hn => ?_⟩
      rw [List.mem_singleton.1 hn]
      exact freeNum_new l _
    · rw [if_neg hq, if_neg fun e => hq e.symm]
      exact ⟨fun l' hl' => ⟨hl', fun n hn => (by cases hn)⟩, fun hl' => .inl ⟨hl', rfl⟩⟩

theorem dirStore_spec (m : AreaDirs) (a : Nat) (p : Str) (ok : Bool) :
    DirsStep m (dirStore m a p ok).2 (dirStore m a p ok).1 ∧ (dirStore m a p ok).2.mem = m.mem ∧ (∀ q n, (dirStore m a p ok).1 = some (q, n) → q = p) ∧
      (ok = true → (m.recs a ≠ none → m.dirs p ≠ none) → (dirStore m a p ok).1 ≠ none) ∧ ∀ b, (dirStore m a p ok).2.recs b ≠ none → b = a ∨ m.recs b ≠ none := by
  unfold dirStore
  cases hr : m.recs a with
  | some h =>
    obtain ⟨h1, h2, h3, h4, h5, h6⟩ := dirWrite_spec m a p h
    exact ⟨h1, h2, h3, fun _ hh => h4 (hh (by simp)), h6⟩
  | none =>
    dsimp only
    cases hd : m.dirs p with
    | some l =>
      obtain ⟨h1, h2, h3, h4, h5, h6⟩ := dirWrite_spec m a p (highNum l)
      exact ⟨h1, h2, h3, fun _ _ => h4 (by rw [hd]; simp), h6⟩
    | none =>
      dsimp only
      cases ok with
      | false =>
        refine ⟨dirsStep_same _ _ rfl, rfl, fun q n e => (by cases e), fun e => (by cases e), fun b hb => ?_⟩
        by_cases hba : b = a
        · exact .inl hba
        · exact .inr (by simpa [hba] using hb)
      | true =>
        rw [if_pos rfl]
        obtain ⟨h1, h2, h3, h4, h5, h6⟩ := dirWrite_spec { m with dirs := fun q => if q = p then some [] else m.dirs q } a p 1
        refine ⟨fun q => ?_, h2, h3, fun _ _ => h4 (by simp), h6⟩
        obtain ⟨i1, i2⟩ := h1 q
        dsimp only at i1 i2
        by_cases hq : q = p
        · subst hq
          rw [if_pos rfl] at i1
          refine ⟨fun l hl => absurd (hd.symm.trans hl) (by simp), fun _ => .inr ?_⟩
          have := (i1 [] rfl).1
          rwa [List.append_nil] at this
        · rw [if_neg hq] at i1 i2
          exact ⟨i1, i2⟩

theorem dirOp_spec (m : AreaDirs) (o : AreaOp) :
    DirsStep m (dirOp m o).2 (dirOp m o).1 ∧ (∀ q n, (dirOp m o).1 = some (q, n) → ∃ a ok, o = .store a ok ∧ m.mem a = some q) ∧
      (∀ mem0 P, (∀ a, m.mem a = ownerAfter mem0 a P) → ∀ a, (dirOp m o).2.mem a = ownerAfter mem0 a (P ++ [o])) := by
  cases o with
  | create a p =>
    cases hm : m.mem a with
    | some v =>
      simp only [dirOp, hm]
      refine ⟨dirsStep_same _ _ rfl, fun q n e => (by cases e), fun mem0 P hP b => ?_⟩
      rw [owner_snoc, ← hP]
      dsimp only
      by_cases hab : a = b
      · subst hab; rw [if_pos rfl, hm]
      · rw [if_neg hab]
    | none =>
      simp only [dirOp, hm]
      refine ⟨dirsStep_same _ _ rfl, fun q n e => (by cases e), fun mem0 P hP b => ?_⟩
      rw [owner_snoc, ← hP]
      dsimp only
      by_cases hab : a = b
      · subst hab; rw [if_pos rfl, if_pos rfl, hm]
      · rw [if_neg hab, if_neg fun e => hab e.symm]
  | remove a =>
    simp only [dirOp]
    refine ⟨dirsStep_same _ _ rfl, fun q n e => (by cases e), fun mem0 P hP b => ?_⟩
    rw [owner_snoc, ← hP]
    dsimp only
    by_cases hab : a = b
    · subst hab; simp
    · rw [if_neg hab, if_neg fun e => hab e.symm]
  | store a ok =>
    cases hm : m.mem a with
    | none =>
      simp only [dirOp, hm]
      refine ⟨dirsStep_same _ _ rfl, fun q n e => (by cases e), fun mem0 P hP b => ?_⟩
      rw [owner_snoc, ← hP]
    | some p =>
      simp only [dirOp, hm]
      obtain ⟨h1, h2, h3, h4, h5⟩ := dirStore_spec m a p ok
      refine ⟨h1, fun q n e => ⟨a, ok, rfl, by rw [h3 q n e, hm]⟩, fun mem0 P hP b => ?_⟩
      rw [h2, owner_snoc, ← hP]

/-- What a run does to the directories. -/
theorem dirRun_dirs : ∀ (os : List AreaOp) (m : AreaDirs), OnlyAdded m.dirs (dirRun os m).2.dirs (dirRun os m).1
  | [], m => fun p => ⟨fun l hl => ⟨hl, id⟩, fun hl => .inl ⟨hl, rfl⟩⟩
  | o :: os, m => by
    intro p
    obtain ⟨h1, h2⟩ := (dirOp_spec m o).1 p
    obtain ⟨i1, i2⟩ := dirRun_dirs os (dirOp m o).2 p
    simp only [dirRun]
    rw [numsIn_cons]
    refine ⟨fun l hl => ?_, fun hl => ?_⟩
    · obtain ⟨h3, h4⟩ := h1 l hl
      obtain ⟨i3, i4⟩ := i1 _ h3
      rw [List.append_assoc]
      refine ⟨i3, fun hd => i4 ?_⟩
      rw [List.nodup_append]
      exact ⟨numsIn_length p _, hd, fun x hx y hy e => h4 x hx (e ▸ hy)⟩
    · rcases h2 hl with ⟨h3, h4⟩ | h3
      · rw [h4, List.append_nil]
        exact i2 h3
      · exact .inr ⟨(i1 _ h3).1, (i1 _ h3).2 (numsIn_length p _)⟩

theorem dirRun_own (mem0 : Nat → Option Str) : ∀ (os P : List AreaOp) (m : AreaDirs), (∀ a, m.mem a = ownerAfter mem0 a P) →
    (dirRun os m).1.length = os.length ∧ (∀ a, (dirRun os m).2.mem a = ownerAfter mem0 a (P ++ os)) ∧
      ∀ (k : Nat) (p : Str) (n : Nat), (dirRun os m).1[k]? = some (some (p, n)) → ∃ a ok, os[k]? = some (.store a ok) ∧ ownerAfter mem0 a (P ++ os.take k) = some p
  | [], P, m, h => ⟨rfl, fun a => by rw [List.append_nil]; exact h a, fun k p n hk => (by simp [dirRun] at hk)⟩
  | o :: os, P, m, h => by
    obtain ⟨_, h2, h3⟩ := dirOp_spec m o
    have e : ∀ t, P ++ o :: t = (P ++ [o]) ++ t := fun t => by rw [List.append_assoc]; rfl
    obtain ⟨i1, i2, i3⟩ := dirRun_own mem0 os (P ++ [o]) (dirOp m o).2 (h3 mem0 P h)
    refine ⟨by simp only [dirRun, List.length_cons, i1], fun a => by rw [e]; exact i2 a, fun k p n hk => ?_⟩
    cases k with
    | zero =>
      simp only [dirRun, List.getElem?_cons_zero] at hk
      injection hk with hk
      obtain ⟨a, ok, h4, h5⟩ := h2 p n hk
      exact ⟨a, ok, by rw [h4]; rfl, by rw [List.take_zero, List.append_nil, ← h, h5]⟩
    | succ k =>
      simp only [dirRun, List.getElem?_cons_succ] at hk
      obtain ⟨a, ok, h4, h5⟩ := i3 k p n hk
      exact ⟨a, ok, h4, by rw [List.take_succ_cons, e]; exact h5⟩

/-- **C121, `*.msg` areas.** Whatever areas are created and removed during a run, at whatever addresses: every message that is stored is stored in the directory of its
own area, under a number that no other message has, and nothing is lost there. -/
theorem dir_stored_own (mem : Nat → Option Str) (dirs : Str → Option (List Nat)) (os : List AreaOp) :
    StoredOwn mem os (dirRun os (dirStart mem dirs)).1 ∧ OnlyAdded dirs (dirRun os (dirStart mem dirs)).2.dirs (dirRun os (dirStart mem dirs)).1 := by
  obtain ⟨h1, _, h3⟩ := dirRun_own mem os [] (dirStart mem dirs) fun _ => rfl
  exact ⟨⟨h1, h3⟩, dirRun_dirs os (dirStart mem dirs)⟩

/-- What holds at any time, if no address is used again. -/
structure DirInv (mem0 : Nat → Option Str) (P : List AreaOp) (m : AreaDirs) : Prop where
  owner : ∀ a, m.mem a = ownerAfter mem0 a P
  listed : ∀ a, m.recs a ≠ none → ∃ ok, .store a ok ∈ P
  made : ∀ a p, m.recs a ≠ none → m.mem a = some p → m.dirs p ≠ none

theorem dirsStep_keeps {m m' r p} (h : DirsStep m m' r) (hp : m.dirs p ≠ none) : m'.dirs p ≠ none := by
  cases hd : m.dirs p with
  | none => exact absurd hd hp
  | some l => rw [((h p).1 l hd).1]; simp

theorem dirOp_inv {mem0 P m} (o : AreaOp) (h : DirInv mem0 P m) (hr : ∀ a p, o = .create a p → ∀ ok, .store a ok ∉ P) (hk : ∀ a ok, o = .store a ok → ok = true) :
    DirInv mem0 (P ++ [o]) (dirOp m o).2 ∧ ∀ a ok, o = .store a ok → ownerAfter mem0 a P ≠ none → ∃ x, (dirOp m o).1 = some x := by
  obtain ⟨s1, s2, s3⟩ := dirOp_spec m o
  have hl : ∀ a, m.recs a ≠ none → ∃ ok, .store a ok ∈ P ++ [o] := fun a ha => by
    obtain ⟨ok, hok⟩ := h.listed a ha
    exact ⟨ok, List.mem_append.2 (.inl hok)⟩
  cases o with
  | create a p =>
    refine ⟨⟨s3 mem0 P h.owner, ?_, ?_⟩, fun _ _ e => (by cases e)⟩
    · cases hm : m.mem a <;> simp only [dirOp, hm] <;> exact hl
    · cases hm : m.mem a with
      | some v => simp only [dirOp, hm]; exact h.made
      | none =>
        simp only [dirOp, hm]
        intro b q hb hq
        have hba : b ≠ a := by
          intro e
          obtain ⟨ok, hok⟩ := h.listed b hb
          exact hr a p rfl ok (e ▸ hok)
        rw [if_neg hba] at hq
        exact h.made b q hb hq
  | remove a =>
    refine ⟨⟨s3 mem0 P h.owner, hl, ?_⟩, fun _ _ e => (by cases e)⟩
    intro b q hb hq
    simp only [dirOp] at hq
    by_cases hba : b = a
    · rw [if_pos hba] at hq; cases hq
    · rw [if_neg hba] at hq; exact h.made b q hb hq
  | store a ok =>
    have hok := hk a ok rfl
    subst hok
    cases hm : m.mem a with
    | none =>
      have e : dirOp m (.store a true) = (none, m) := by simp only [dirOp, hm]
      refine ⟨⟨s3 mem0 P h.owner, by rw [e]; exact hl, by rw [e]; exact h.made⟩, fun b ok' e hb => ?_⟩
      cases e
      exact absurd (by rw [← h.owner, hm]) hb
    | some p =>
      have e : dirOp m (.store a true) = dirStore m a p true := by simp only [dirOp, hm]
      obtain ⟨t1, t2, t3, t4, t5⟩ := dirStore_spec m a p true
      have t4 := t4 rfl fun hh => h.made a p hh hm
      refine ⟨⟨s3 mem0 P h.owner, ?_, ?_⟩, fun b ok' eq hb => ?_⟩
      · rw [e]
        intro b hb
        rcases t5 b hb with hb | hb
        · exact ⟨true, by rw [hb]; simp⟩
        · exact hl b hb
      · rw [e]
        intro b q hb hq
        rw [t2] at hq
        rcases t5 b hb with hb | hb
        · rw [hb, hm] at hq
          injection hq with hq
          subst hq
          cases hs : (dirStore m a p true).1 with
          | none => exact absurd hs t4
          | some x =>
            obtain ⟨q, n⟩ := x
            have hq := t3 q n hs
            subst hq
            rw [hs] at t1
            cases hd : m.dirs q with
            | some l => rw [((t1 q).1 l hd).1]; simp
            | none =>
              rcases (t1 q).2 hd with ⟨_, h2⟩ | h2
              · rw [numsIn_one, if_pos rfl] at h2; cases h2
              · rw [h2]; simp
        · exact dirsStep_keeps t1 (h.made b q hb hq)
      · rw [e]
        cases hs : (dirStore m a p true).1 with
        | none => exact absurd hs t4
        | some x => exact ⟨x, rfl⟩

theorem dirRun_all (mem0 : Nat → Option Str) : ∀ (os P : List AreaOp) (m : AreaDirs), DirInv mem0 P m → NoneReused (P ++ os) → DirsMade os →
    ∀ (k a : Nat) (ok : Bool), os[k]? = some (.store a ok) → ownerAfter mem0 a (P ++ os.take k) ≠ none → ∃ x, (dirRun os m).1[k]? = some (some x)
  | [], P, m, h, hr, hd, k, a, ok, hk => (by simp at hk)
  | o :: os, P, m, h, hr, hd, k, a, ok, hk => by
    intro ha
    have e : ∀ t, P ++ o :: t = (P ++ [o]) ++ t := fun t => by rw [List.append_assoc]; rfl
    obtain ⟨h1, h2⟩ := dirOp_inv o h (fun a p ho ok => hr P a p os (by rw [ho]) ok) (fun a ok ho => hd a ok (by rw [ho]; exact List.mem_cons_self))
    cases k with
    | zero =>
      rw [List.getElem?_cons_zero] at hk
      injection hk with hk
      rw [List.take_zero, List.append_nil] at ha
      obtain ⟨x, hx⟩ := h2 a ok hk ha
      exact ⟨x, by simp only [dirRun, List.getElem?_cons_zero, hx]⟩
    | succ k =>
      rw [List.getElem?_cons_succ] at hk
      rw [List.take_succ_cons, e] at ha
      simp only [dirRun, List.getElem?_cons_succ]
      exact dirRun_all mem0 os (P ++ [o]) _ h1 (e os ▸ hr) (fun a ok ho => hd a ok (List.mem_cons_of_mem _ ho)) k a ok hk ha

/-- **C121 (partial), `*.msg` areas.** Every message for an existing area is stored, unless a new area gets its record at the address of an area that was removed after messages
had been stored in it. -/
theorem dir_all_stored_partial (mem : Nat → Option Str) (dirs : Str → Option (List Nat)) (os : List AreaOp) (hr : NoneReused os) (hd : DirsMade os) :
    AllStored mem os (dirRun os (dirStart mem dirs)).1 :=
  dirRun_all mem os [] _ ⟨fun _ => rfl, fun _ h => absurd rfl h, fun _ _ h => absurd rfl h⟩ hr hd

theorem dirRun_append : ∀ (os os' : List AreaOp) (m : AreaDirs),
    dirRun (os ++ os') m = ((dirRun os m).1 ++ (dirRun os' (dirRun os m).2).1, (dirRun os' (dirRun os m).2).2)
  | [], os', m => rfl
  | o :: os, os', m => by simp only [List.cons_append, dirRun, dirRun_append os os' (dirOp m o).2]

/-- **C121, violated for `*.msg` areas.** Whatever has happened before in the run: if the new area gets the address of an area that has got messages, and its directory does not
exist, the directory is not made and the message is not stored, although the directory could be made. -/
theorem dir_not_made (mem : Nat → Option Str) (dirs : Str → Option (List Nat)) (os : List AreaOp) (a : Nat) (p q : Str) (hm : ownerAfter mem a os = some p) (hpq : p ≠ q)
    (hq : (dirRun os (dirStart mem dirs)).2.dirs q = none) :
    ∃ r m, dirRun (os ++ reuseOps a q) (dirStart mem dirs) = ((dirRun os (dirStart mem dirs)).1 ++ [r, none, none, none], m) ∧ m.dirs q = none ∧ m.mem a = some q := by
  obtain ⟨_, h2, _⟩ := dirRun_own mem os [] (dirStart mem dirs) fun _ => rfl
  rw [dirRun_append]
  generalize dirRun os (dirStart mem dirs) = x at hq h2 ⊢
  obtain ⟨rs, m⟩ := x
  dsimp only at hq h2 ⊢
  have hma : m.mem a = some p := by rw [h2, List.nil_append, hm]
  obtain ⟨t1, t2, t3, _, _⟩ := dirStore_spec m a p true
  have hrec : (dirStore m a p true).2.recs a ≠ none := by
    unfold dirStore
    cases m.recs a with
    | some h => unfold dirWrite; dsimp only; cases m.dirs p <;> simp
    | none =>
      dsimp only
      cases hp : m.dirs p with
      | some l => unfold dirWrite; dsimp only; rw [hp]; simp
      | none => unfold dirWrite; simp
  have e1 : dirOp m (.store a true) = dirStore m a p true := by simp only [dirOp, hma]
  generalize hs : dirStore m a p true = s at t1 t2 t3 hrec e1
  obtain ⟨r, m1⟩ := s
  dsimp only at t1 t2 t3 hrec
  have hq1 : m1.dirs q = none := by
    rcases (t1 q).2 hq with h | h
    · exact h.1
    · cases r with
      | none =>
        -- nothing was stored, and the directory was not made
        unfold dirStore at hs
        cases hr : m.recs a with
        | some v =>
          rw [hr] at hs
          unfold dirWrite at hs
          dsimp only at hs
          cases hp : m.dirs p with
          | none => rw [hp] at hs; cases hs; exact hq
          | some l => rw [hp] at hs; cases hs
        | none =>
          rw [hr] at hs
          dsimp only at hs
          cases hp : m.dirs p with
          | some l => rw [hp] at hs; unfold dirWrite at hs; dsimp only at hs; rw [hp] at hs; cases hs
          | none => rw [hp] at hs; unfold dirWrite at hs; simp at hs
      | some x =>
        obtain ⟨u, n⟩ := x
        have hu := t3 u n rfl
        subst hu
        -- stored in `p`
        exfalso
        have key : m1.dirs q = m.dirs q := by
          unfold dirStore at hs
          cases hr : m.recs a with
          | some v =>
            rw [hr] at hs
            unfold dirWrite at hs
            dsimp only at hs
            cases hp : m.dirs u with
            | none => rw [hp] at hs; cases hs
            | some l => rw [hp] at hs; cases hs; exact if_neg fun e => hpq e.symm
          | none =>
            rw [hr] at hs
            dsimp only at hs
            cases hp : m.dirs u with
            | some l => rw [hp] at hs; unfold dirWrite at hs; dsimp only at hs; rw [hp] at hs; cases hs; exact if_neg fun e => hpq e.symm
            | none =>
              rw [hp] at hs
              unfold dirWrite at hs
              simp only [if_true] at hs
              cases hs
              dsimp only
              rw [if_neg fun e => hpq e.symm, if_neg fun e => hpq e.symm]
        rw [key, hq] at h
        cases h
  cases hh : m1.recs a with
  | none => exact absurd hh hrec
  | some v =>
    refine ⟨r, { mem := fun b => if b = a then some q else if b = a then none else m1.mem b, recs := fun b => if b = a then some (v + 1) else m1.recs b, dirs := m1.dirs }, ?_, hq1, if_pos rfl⟩
    have e2 : dirOp m1 (.remove a) = (none, { m1 with mem := fun b => if b = a then none else m1.mem b }) := rfl
    simp only [reuseOps, dirRun, e1, e2]
    simp [dirOp, dirStore, hh, dirWrite, hq1, freeNum]

namespace Ex

def msgDirs0 : Str → Option (List Nat) := fun p => if p = b!"/a" then some [7, 3] else none

/-- Areas are created, removed and used; one directory exists. -/
theorem dir_case : NoneReused areaOps ∧ (dirRun areaOps (dirStart areaMem0 msgDirs0)).1 = [some (b!"/a", 8), none, none, some (b!"/c", 2), some (b!"/a", 9), none, none] ∧
    DirsMade (areaOps.take 6) ∧ NoneReused (areaOps.take 6) :=
  ⟨areaOps_reused, by decide +kernel, by simp [DirsMade, areaOps], fun x a p y h ok => areaOps_reused x a p (y ++ areaOps.drop 6) (by rw [← List.cons_append, ← List.append_assoc, ← h, List.take_append_drop]) ok⟩

/-- The directory of the new area is not made. -/
theorem dir_reused : (dirRun (reuseOps 16 b!"/new") (dirStart areaMem0 msgDirs0)).1 = [some (b!"/a", 8), none, none, none] ∧
    (dirRun [] (dirStart areaMem0 msgDirs0)).2.dirs b!"/new" = none ∧ ownerAfter areaMem0 16 [] = some b!"/a" := by decide +kernel

end Ex

end CM
