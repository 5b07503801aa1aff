import Verif.Lemmas.Example
import Verif.Lemmas.MsgBase
/-! # C45: importing into *.msg areas -/

set_option linter.unusedSimpArgs false

namespace CM

/-- The contents of a stored message are defined if its fields fit. -/
theorem msgData_ok (o : MsgOpt) (junk : Nat → UInt8) {m : MemMsg} (h : FieldsFit m) : ∃ d, msgData o junk m = .ok d := by
  obtain ⟨h1, h2, h3, h4⟩ := h
  have hs : (storedOf m).frm = m.frm ∧ (storedOf m).to = m.to ∧ (storedOf m).subject = m.subject ∧ (storedOf m).date = m.date := by
    unfold storedOf; split <;> exact ⟨rfl, rfl, rfl, rfl⟩
  obtain ⟨G, e, -⟩ := mmMakeSeenByBuf_lines m.seenBy
  unfold msgData StoredMsg.bytes cField
  rw [hs.1, hs.2.1, hs.2.2.1, hs.2.2.2, if_pos h1, if_pos h2, if_pos h3, if_pos h4, e]
  by_cases hb : (o.importSeenBy && m.area ≠ []) = true
  · simp only [hb, if_true, bind, Except.bind, pure, Except.pure]
    exact ⟨_, rfl⟩
  · simp only [hb, if_false, bind, Except.bind, pure, Except.pure]
    exact ⟨_, rfl⟩

/-- The number found: the first free one. -/
theorem msgFree_through {w : World} {dir : Str} {I : FS → Prop} {fs : FS} (hI : I fs) (hd : DirName dir) :
    ∀ fuel (n : UInt32), (∃ k : Nat, n.toNat ≤ k ∧ k < 2 ^ 32 ∧ fs (msgFile dir k) = none) →
      Through w I (fun k gs => gs = fs ∧ n.toNat ≤ k.toNat ∧ fs (msgFile dir k.toNat) = none ∧
        ∀ j : Nat, n.toNat ≤ j → j < k.toNat → fs (msgFile dir j) ≠ none) (msgFree dir fuel n) fs := by
  intro fuel
  induction fuel with
  | zero => intro n _; exact .stuck hI
  | succ fuel ih =>
    rintro n ⟨k, h1, h2, h3⟩
    unfold msgFree osExists
    simp only [Prog.bind_eq, Prog.bind]
    refine .exist hI ?_
    rw [msgPath_eq hd]
    cases he : fs (msgFile dir n.toNat) with
    | none =>
      simp only [Option.isSome_none]
      refine .ret hI ⟨rfl, Nat.le_refl _, he, fun j a b => by omega⟩
    | some d =>
      simp only [Option.isSome_some, if_true]
      have hk : n.toNat ≠ k := by rintro rfl; rw [he] at h3; cases h3
      have hn : (n + 1).toNat = n.toNat + 1 := by
        rw [UInt32.toNat_add]; show (n.toNat + 1) % 2 ^ 32 = _; omega
      refine (ih (n + 1) ⟨k, by omega, h2, h3⟩).mono (fun _ h => h) ?_
      rintro a gs _ ⟨e1, e2, e3, e4⟩
      refine ⟨e1, by omega, e3, fun j a b => ?_⟩
      by_cases hj : j = n.toNat
      · subst hj; rw [he]; simp
      · exact e4 j (by omega) b

/-- The record of an area that has been read: its highest number is at least 1 and there is a free number
above it. -/
def Room (fs : FS) (dir : Str) (r : MsgRec) : Prop :=
  1 ≤ r.high.toNat ∧ ∃ k : Nat, r.high.toNat < k ∧ k < 2 ^ 32 ∧ fs (msgFile dir k) = none

/-- What an import leaves behind: the message is in a new file. -/
def Imported (fs : FS) (dir : Str) (d : Data) (fs' : FS) (r : MsgRec) : Prop :=
  ∃ n : UInt32, 2 ≤ n.toNat ∧ fs (msgFile dir n.toNat) = none ∧ fs' = fs.put (msgFile dir n.toNat) (some d) ∧ r.high = n

/-- What names there are in a listing, their numbers. -/
theorem names_below {fs : FS} {dir : Str} {es : List FileEntry} {b : Nat} (hb : 0 < b) (hl : DirList fs dir isMsgName es)
    (hn : NumbersBelow fs dir b) : ∀ f ∈ es.map (·.name), atol f < b := by
  intro f hf
  obtain ⟨e, he, rfl⟩ := List.mem_map.1 hf
  obtain ⟨n, d, e1, e2, -, e3, e4, -⟩ := hl.1 e he
  have := (hn n e2 e3 (by rw [e4]; simp)).2
  rw [e1]
  unfold atol
  omega

theorem msgGetArea_through {w : World} {dir : Str} {fs : FS} {st : MsgSt} {i : Nat} {I : FS → Prop} (hI : I fs) {b : Nat}
    (h2 : 2 ≤ b) (hb : b ≤ 2 ^ 32) (hn : st i = none → NumbersBelow fs dir b) :
    Through w I (fun x gs => gs = fs ∧ (∀ j, j ≠ i → x.2 j = st j) ∧ (x.1 = true → ∃ r, x.2 i = some r ∧
        (st i = some r ∨ (st i = none ∧ 1 ≤ r.high.toNat ∧ r.high.toNat < b))) ∧ (x.1 = false → w.listFails))
      (msgGetArea st i dir) fs := by
  unfold msgGetArea
  cases hs : st i with
  | some r => exact .ret hI ⟨rfl, fun _ _ => rfl, fun _ => ⟨r, hs, .inl rfl⟩, fun h => nomatch h⟩
  | none =>
    unfold osReadDir
    simp only [Prog.bind_eq, Prog.bind]
    refine .list hI ?_ ?_
    · intro es hl
      refine .ret hI ⟨rfl, ?_, fun _ => ⟨scanRec (es.map (·.name)), ?_, .inr ⟨trivial, ?_⟩⟩, fun h => (by cases h)⟩
      · intro j hj; show MsgSt.set st i _ j = st j; unfold MsgSt.set; rw [if_neg hj]
      · show MsgSt.set st i _ i = _; unfold MsgSt.set; rw [if_pos rfl]
      · obtain ⟨a, c, -⟩ := scanRec_spec _ b hb h2 (names_below (by omega) hl (hn hs))
        exact ⟨a, c⟩
    · intro hf
      refine .ret hI ⟨rfl, ?_, fun h => (by cases h), fun _ => hf⟩
      intro j hj; show MsgSt.set st i _ j = st j; unfold MsgSt.set; rw [if_neg hj]

/-- **C45**, one import. Whatever fails and wherever the program is stopped, every file that was there
before is as it was. If the import succeeds, exactly one file is new; it contains the message, and its
number is not that of the high water mark.

`b`: the directory has no number of `b` or more if it has not been read; `Room`: if it has been read,
there is a free number. -/
theorem import_kept {w : World} (o : MsgOpt) (junk : Nat → UInt8) (fuel : Nat) (io : Bool) (st : MsgSt) (i : Nat) (dir : Str)
    (m : MemMsg) (fs : FS) (hd : DirName dir) (hf : FieldsFit m) (b : Nat) (h2 : 2 ≤ b) (hb : b < 2 ^ 32)
    (hn : st i = none → NumbersBelow fs dir b) (hr : ∀ r, st i = some r → Room fs dir r) :
    Through w (AllKept fs) (fun x fs' => x.1 = true → ∃ d r, msgData o junk m = .ok d ∧ x.2.2 i = some r ∧ Imported fs dir d fs' r ∧
        (∀ j, j ≠ i → x.2.2 j = st j) ∧
        (∀ r0, (st i = some r0 → r0.high.toNat < r.high.toNat ∧
            ∀ k : Nat, r0.high.toNat < k → k < r.high.toNat → fs (msgFile dir k) ≠ none)) ∧ (st i = none → r.high.toNat ≤ b))
      (msgImport o junk fuel io st i dir m) fs := by
  have k0 : AllKept fs fs := fun _ _ => rfl
  obtain ⟨d, hdat⟩ := msgData_ok o junk hf
  unfold msgImport
  simp only [Prog.bind_eq]
  refine Through.bind (msgGetArea_through k0 h2 (by omega) hn) ?_
  rintro ⟨found, st1⟩ gs - ⟨rfl, h3, h4, -⟩
  dsimp only at h3 h4 ⊢
  cases found with
  | false => exact .ret k0 (fun h => nomatch h)
  | true =>
    obtain ⟨r, h5, h6⟩ := h4 rfl
    simp only [Bool.not_true, Bool.false_eq_true, if_false]
    rw [h5]
    simp only [Option.getD_some]
    have room : Room gs dir r := by
      rcases h6 with h6 | ⟨h6, h7, h8⟩
      · exact hr r h6
      · refine ⟨h7, b, h8, hb, ?_⟩
        cases hx : gs (msgFile dir b) with
        | none => rfl
        | some y =>
          have hxx := (hn h6) (dec b ++ b!".msg") (no_slash_dec b) (isMsgName_dec b) (by
            rw [← msgFile_fits hd b hb, hx]; simp)
          rw [atoi_msgName] at hxx
          omega
    obtain ⟨r1, k, r2, r3, r4⟩ := room
    have hn1 : (r.high + 1).toNat = r.high.toNat + 1 := by
      rw [UInt32.toNat_add]; show (r.high.toNat + 1) % 2 ^ 32 = _; omega
    refine Through.bind (msgFree_through k0 hd fuel _ ⟨k, by omega, r3, r4⟩) ?_
    rintro n gs' - ⟨rfl, f1, f2, f3⟩
    unfold msgWrite writeFile
    simp only [Prog.bind_eq]
    rw [hdat]
    simp only [liftUB, Prog.bind]
    rw [msgPath_eq hd]
    have kp : ∀ x, AllKept gs' (gs'.put (msgFile dir n.toNat) x) := by
      intro x f hf
      refine FS.put_ne _ ?_ _
      rintro rfl
      exact hf f2
    refine .write k0 ?_ ?_ ?_ ?_
    · intro d' t' _; exact kp _
    · refine .ret (kp _) ?_
      intro hok
      refine ⟨d, { r with high := n }, rfl, ?_, ⟨n, by omega, f2, ?_, rfl⟩, ?_, ?_, ?_⟩
      · show MsgSt.setHigh _ _ _ _ = _
        unfold MsgSt.setHigh MsgSt.set; rw [if_pos rfl, h5]; rfl
      · have : overlay (opened gs' (msgFile dir n.toNat) .new).1 (opened gs' (msgFile dir n.toNat) .new).2 d = d := by
          simp [overlay, opened]
        rw [this]
      · intro j hj
        show MsgSt.setHigh _ _ _ _ = _
        unfold MsgSt.setHigh MsgSt.set; rw [if_neg hj]; exact h3 j hj
      · intro r0 h0
        rcases h6 with h6 | ⟨h6, -⟩
        · rw [h6] at h0; injection h0 with h0; subst h0
          exact ⟨by show r.high.toNat < n.toNat; omega, fun k a b => f3 k (by omega) b⟩
        · rw [h6] at h0; cases h0
      · intro h0
        show n.toNat ≤ b
        rcases h6 with h6 | ⟨h6, h7, h8⟩
        · rw [h6] at h0; cases h0
        · apply Nat.le_of_not_lt
          intro hlt
          have := f3 b (by omega) hlt
          have hxx := (hn h0) (dec b ++ b!".msg") (no_slash_dec b) (isMsgName_dec b) (by
            rw [← msgFile_fits hd b hb]; exact this)
          rw [atoi_msgName] at hxx
          omega
    · intro _ j
      refine .ret (kp _) ?_
      intro h; simp at h
    · intro _
      refine .ret k0 ?_
      intro h; cases h

/-! ## Any number of imports -/

/-- A run that imports messages into areas, `dirs` are their directories. A failed import ends it (the
callers return `FALSE` then, see `Model/Handle.lean`). -/
def importAll (o : MsgOpt) (junk : Nat → UInt8) (fuel : Nat) (dirs : Nat → Str) : List (Nat × MemMsg) → Bool → MsgSt → Prog Bool
  | [], _, _ => .ret true
  | (i, m) :: q, io, st => do
    let (ok, io, st) ← msgImport o junk fuel io st i (dirs i) m
    if ok then importAll o junk fuel dirs q io st else return false

/-- Every message is in its own file, which is new and is not for the high water mark. -/
def EachStored (o : MsgOpt) (junk : Nat → UInt8) (dirs : Nat → Str) (fs fs' : FS) : List Str → List (Nat × MemMsg) → Prop
  | [], [] => True
  | f :: fl, (i, m) :: q =>
    (∃ n : Nat, 2 ≤ n ∧ f = msgFile (dirs i) n) ∧ fs f = none ∧ (∃ d, msgData o junk m = .ok d ∧ fs' f = some d) ∧
      EachStored o junk dirs fs fs' fl q
  | _, _ => False

theorem makeFullPath_long (path file : Str) (hp : path.length < 80) (hl : 200 < path.length + file.length + 3) :
    100 < (makeFullPath path file 200).length := by
  have e : mystrncpy path 200 = path := List.take_of_length_le (by omega)
  simp only [makeFullPath, e]
  have key : ∀ d : Str, d.length ≤ path.length + 1 → path.length ≤ d.length →
      100 < (if 200 - d.length - 1 > 0 then d ++ mystrncpy file (200 - d.length - 1) else d).length := by
    intro d h1 h2
    rw [if_pos (by omega)]
    simp only [mystrncpy, List.length_append, List.length_take]
    omega
  split
  · exact key _ (by simp) (by simp)
  · exact key _ (by omega) (by omega)

theorem inDir_name {a b f : Str} {n : Nat} (hf : (47 : UInt8) ∉ f) (h : inDir a f = inDir b (dec n ++ b!".msg")) : f = dec n ++ b!".msg" := by
  have key : ∀ x y u v : Str, (47 : UInt8) ∉ u → (47 : UInt8) ∉ v → x ++ 47 :: u = y ++ 47 :: v → u = v := by
    intro x y u v hu hv e
    rw [List.append_eq_append_iff] at e
    rcases e with ⟨z, e1, e2⟩ | ⟨z, e1, e2⟩
    · cases z with
      | nil => simpa using e2
      | cons c z => simp at e2; exact absurd (by rw [e2.2]; simp) hu
    · cases z with
      | nil => simpa using e2.symm
      | cons c z => simp at e2; exact absurd (by rw [e2.2]; simp) hv
  have form : ∀ a : Str, ∃ x, ∀ f, inDir a f = x ++ 47 :: f := by
    intro a
    unfold inDir
    by_cases hl : a.getLast? = some 47
    · obtain ⟨t, rfl⟩ := List.getLast?_eq_some_iff.1 hl
      exact ⟨t, fun f => by rw [if_pos hl]; simp⟩
    · exact ⟨a, fun f => by rw [if_neg hl]; simp⟩
  obtain ⟨x, hx⟩ := form a
  obtain ⟨y, hy⟩ := form b
  rw [hx, hy] at h
  exact key _ _ _ _ hf (no_slash_dec n) h

/-- One new message raises the bound on the numbers by at most one, in every directory. -/
theorem numbersBelow_put {fs : FS} {dir dir' : Str} {b n : Nat} (hd : DirName dir) (hd' : DirName dir') (hn : n ≤ b) (hn2 : n < 2 ^ 32) (d : Data)
    (h : NumbersBelow fs dir' b) : NumbersBelow (fs.put (msgFile dir n) (some d)) dir' (b + 1 : Nat) := by
  intro f h1 h2 h3
  by_cases he : makeFullPath dir' f 200 = msgFile dir n
  · have hlen : (msgFile dir n).length < 100 := by
      have := dec_length_le (n := n) (k := 10) (by omega) (by omega)
      have l4 : (b!".msg").length = 4 := rfl
      have := hd.2
      unfold msgFile inDir
      split <;> simp only [List.length_append, l4, List.length_cons, List.length_nil] <;> omega
    have hfit : dir'.length + f.length + 3 ≤ 200 := by
      apply Nat.le_of_not_lt
      intro hl
      have := makeFullPath_long dir' f hd'.2 hl
      rw [he] at this
      omega
    rw [makeFullPath_fits _ _ _ hd'.1 hfit] at he
    have hf := inDir_name (a := dir') (b := dir) (n := n) h1 he
    subst hf
    have hl : (dec n ++ b!".msg").length ≤ 99 := by
      have := dec_length_le (n := n) (k := 10) (by omega) (by omega)
      have l4 : (b!".msg").length = 4 := rfl
      rw [List.length_append, l4]; omega
    rw [List.take_of_length_le hl, atoi_msgName]
    omega
  · rw [FS.put_ne _ he] at h3
    have := h f h1 h2 h3
    omega

/-- **C45**, any number of imports into any areas. Whatever fails and wherever the program is stopped,
every file that was there before is as it was; after a successful run every message is in its own new
file, and none of these is a file for a high water mark.

The message numbers found in the directories are below `b`, and there are fewer than 2^32 - b imports. -/
theorem imports_kept {w : World} (o : MsgOpt) (junk : Nat → UInt8) (fuel : Nat) (dirs : Nat → Str) (hd : ∀ i, DirName (dirs i))
    (ms : List (Nat × MemMsg)) (hm : ∀ x ∈ ms, FieldsFit x.2) (fs : FS) (b : Nat) (h2 : 2 ≤ b) (hb : b + ms.length < 2 ^ 32)
    (hn : ∀ i, NumbersBelow fs (dirs i) b) (io : Bool) :
    Through w (AllKept fs) (fun ok fs' => ok = true → ∃ fl, EachStored o junk dirs fs fs' fl ms ∧ fl.Nodup ∧ ∀ f, f ∉ fl → fs' f = fs f)
      (importAll o junk fuel dirs ms io fun _ => none) fs := by
  have key : ∀ (ms : List (Nat × MemMsg)) (fs : FS) (b : Nat) (io : Bool) (st : MsgSt), (∀ x ∈ ms, FieldsFit x.2) → 2 ≤ b → b + ms.length < 2 ^ 32 →
      (∀ i, NumbersBelow fs (dirs i) b) → (∀ i r, st i = some r → 1 ≤ r.high.toNat ∧ r.high.toNat < b) →
      Through w (AllKept fs) (fun ok fs' => ok = true → ∃ fl, EachStored o junk dirs fs fs' fl ms ∧ fl.Nodup ∧ ∀ f, f ∉ fl → fs' f = fs f)
        (importAll o junk fuel dirs ms io st) fs := by
    intro ms
    induction ms with
    | nil =>
      intro fs b io st _ _ _ _ _
      exact .ret (fun _ _ => rfl) fun _ => ⟨[], trivial, List.nodup_nil, fun _ _ => rfl⟩
    | cons x q ih =>
      obtain ⟨i, m⟩ := x
      intro fs b io st hm h2 hb hn hst
      simp only [List.length_cons] at hb
      unfold importAll
      simp only [Prog.bind_eq]
      have free : fs (msgFile (dirs i) b) = none := by
        cases hx : fs (msgFile (dirs i) b) with
        | none => rfl
        | some y =>
          have hxx := hn i (dec b ++ b!".msg") (no_slash_dec b) (isMsgName_dec b) (by
            rw [← msgFile_fits (hd i) b (by omega), hx]; simp)
          rw [atoi_msgName] at hxx
          omega
      refine Through.bind (import_kept o junk fuel io st i (dirs i) m fs (hd i) (hm (i, m) (by simp)) b h2 (by omega) (fun _ => hn i)
        (fun r hr => ⟨(hst i r hr).1, b, (hst i r hr).2, by omega, free⟩)) ?_
      rintro ⟨ok, io1, st1⟩ gs hk hq
      dsimp only at hq ⊢
      cases ok with
      | false => exact .ret hk (fun h => nomatch h)
      | true =>
        obtain ⟨d, r, q1, q2, ⟨n, q3, q4, q5, q6⟩, q7, q8, q9⟩ := hq rfl
        simp only [if_true]
        have hnb : n.toNat ≤ b := by
          rw [← q6]
          cases hs : st i with
          | none => exact q9 hs
          | some r0 =>
            apply Nat.le_of_not_lt
            intro hlt
            exact (q8 r0 hs).2 b (hst i r0 hs).2 hlt free
        have t := ih gs (b + 1) io1 st1 (fun x hx => hm x (by simp [hx])) (by omega) (by omega)
          (fun j => by rw [q5]; exact numbersBelow_put (hd i) (hd j) hnb n.toNat_lt d (hn j))
          (fun j r' hr' => by
            by_cases hj : j = i
            · subst hj; rw [q2] at hr'; injection hr' with hr'; subst hr'; rw [q6]; omega
            · rw [q7 j hj] at hr'; have := hst j r' hr'; omega)
        refine t.mono ?_ ?_
        · intro gs' hg f hf
          rw [hg f (by rw [hk f hf]; exact hf), hk f hf]
        · intro ok gs' hg hq hok
          obtain ⟨fl, e1, e2, e3⟩ := hq hok
          have hin : ∀ (fl : List Str) (q : List (Nat × MemMsg)), EachStored o junk dirs gs gs' fl q → ∀ f ∈ fl, gs f = none := by
            intro fl
            induction fl with
            | nil => intro q _ f hf; cases hf
            | cons f0 fl ihf =>
              intro q hq f hf
              cases q with
              | nil => exact hq.elim
              | cons y q =>
                rcases List.mem_cons.1 hf with rfl | hf
                · exact hq.2.1
                · exact ihf q hq.2.2.2 f hf
          have hnew : gs (msgFile (dirs i) n.toNat) = some d := by rw [q5, FS.put_self]
          have hnot : msgFile (dirs i) n.toNat ∉ fl := by
            intro hmem
            have := hin fl q e1 _ hmem
            rw [hnew] at this; cases this
          have lift : ∀ (fl : List Str) (q : List (Nat × MemMsg)), EachStored o junk dirs gs gs' fl q → EachStored o junk dirs fs gs' fl q := by
            intro fl
            induction fl with
            | nil => intro q hq; cases q with
              | nil => trivial
              | cons y q => exact hq.elim
            | cons f0 fl ihf =>
              intro q hq
              cases q with
              | nil => exact hq.elim
              | cons y q =>
                refine ⟨hq.1, ?_, hq.2.2.1, ihf q hq.2.2.2⟩
                cases hx : fs f0 with
                | none => rfl
                | some z =>
                  have := hk f0 (by rw [hx]; simp)
                  rw [hq.2.1, hx] at this; cases this
          refine ⟨msgFile (dirs i) n.toNat :: fl, ⟨⟨n.toNat, q3, rfl⟩, q4, ⟨d, q1, ?_⟩, lift fl q e1⟩, ?_, ?_⟩
          · rw [e3 _ hnot, hnew]
          · exact List.nodup_cons.2 ⟨hnot, e2⟩
          · intro f hf
            rw [List.mem_cons, not_or] at hf
            rw [e3 f hf.2, q5, FS.put_ne _ hf.1]
  exact key ms fs b io _ hm h2 hb hn (fun i r h => by cases h)

namespace Ex

/-- A directory with the messages 2 and 5. -/
def msgDisk : FS := FS.put (FS.put (fun _ => none) (msgFile b!"/m" 2) (some [])) (msgFile b!"/m" 5) (some [])

theorem msgDir : DirName b!"/m" := ⟨by decide, by decide⟩

theorem msgDisk_below : NumbersBelow msgDisk b!"/m" (6 : Nat) := by
  refine numbersBelow_put msgDir msgDir (Nat.le_refl 5) (by decide) _ ?_
  refine numbersBelow_put (b := 4) msgDir msgDir (by decide) (by decide) _ ?_
  intro f _ _ h
  exact absurd rfl h

/-- The hypotheses of `imports_kept` are met by two messages for that directory. -/
example : let ms := [(0, msg [] []), (0, msg [] [])]
    (∀ i, DirName ((fun _ => b!"/m" : Nat → Str) i)) ∧ (∀ x ∈ ms, FieldsFit x.2) ∧ 2 ≤ 6 ∧ 6 + ms.length < 2 ^ 32 ∧
      ∀ i, NumbersBelow msgDisk ((fun _ => b!"/m" : Nat → Str) i) (6 : Nat) := by
  refine ⟨fun _ => msgDir, ?_, by decide, by decide, fun _ => msgDisk_below⟩
  intro x hx
  simp only [List.mem_cons, List.not_mem_nil, or_false, or_self] at hx
  subst hx
  exact ⟨by decide, by decide, by decide, by decide⟩

/-- The first of them gets number 6. -/
example : (scanRec [b!"5.msg", b!"2.msg"]).high + 1 = 6 := by decide +kernel

/-- Numbers are 32 bits wide: with a file 4294967295.msg the second import gets number 1, which is the
file of the high water mark. -/
theorem import_number_wraps : (scanRec [b!"4294967295.msg"]).high + 1 + 1 = 1 ∧ msgPath b!"/m" 1 = makeFullPath b!"/m" b!"1.msg" 200 := by
  decide +kernel

end Ex

end CM
