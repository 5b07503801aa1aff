import Verif.Lemmas.ArcName
import Verif.Props.Path
import Verif.Props.Netmail
/-! # C38: bundle names -/

set_option linter.unusedSimpArgs false

namespace CM

theorem makeArcName_first (weekday : Bool) (max : Nat) (now day : UInt32) (arcs : List FileEntry) (last : List Str)
    (hd : day.toNat < 7) (hn : arcs.length + last.length < 2 ^ 32) :
    ∃ b : UInt32, existsBasenum arcs last b = false ∧ makeArcName weekday max now day arcs last [] =
      .ok (some (bname b (if weekday then day.toNat * 10 else 0))) := by
  obtain ⟨b, hb⟩ := freeBasenum_total arcs last now hn
  refine ⟨b, freeBasenum_some _ _ _ _ _ hb, ?_⟩
  unfold makeArcName
  rw [if_pos rfl, hb]
  dsimp only
  have e : (if weekday = true then day * 10 else 0).toNat = if weekday = true then day.toNat * 10 else 0 := by
    split
    · rw [UInt32.toNat_mul]; simp; omega
    · rfl
  rw [bundleName_bname _ _ (by rw [e]; split <;> omega), e]
  rfl

theorem bname_bundle (b : UInt32) (s : Nat) (h : s < 70) : BundleName b.toNat (s / 10) (s % 10) (bname b s) := by
  rw [bundleName_iff]
  exact ⟨b, rfl, by omega, by omega, by rw [Nat.div_add_mod' s 10]⟩

theorem bname_inj {b b' : UInt32} {s s' : Nat} (h : bname b s = bname b' s') : b = b' := by
  have := congrArg hextodec h
  rw [hextodec_bname, hextodec_bname] at this
  apply UInt32.toNat_inj.1
  simpa using congrArg UInt64.toNat this

/-- The name of a bundle determines its base number. -/
theorem bundleName_base {b d k b' d' k' : Nat} {name : Str} (h : BundleName b d k name) (h' : BundleName b' d' k' name) :
    b = b' := by
  obtain ⟨x, rfl, _, _, e⟩ := (bundleName_iff _ _ _ _).1 h
  obtain ⟨y, rfl, _, _, e'⟩ := (bundleName_iff _ _ _ _).1 h'
  rw [bname_inj (e.symm.trans e')]

/-- **C38.** The bundle for a node is its last one, or a name no archive in the outbound has (whatever
the case of its letters). It always is a name of the right form, and a number is always found. `arcs`
are the archives in the outbound, `last` the last bundles of all nodes. -/
theorem arcname_current_or_new (weekday : Bool) (max : Nat) (now day : UInt32) (arcs : List FileEntry) (last : List Str)
    (cur : Str) (hd : day.toNat < 7) (hn : arcs.length + last.length < 2 ^ 32) (ha : ∀ fe ∈ arcs, isArc fe.name = true)
    (hc : cur = [] ∨ ∃ b d k, BundleName b d k cur) :
    ∃ name b d k, makeArcName weekday max now day arcs last cur = .ok (some name) ∧ BundleName b d k name ∧
      (name = cur ∨ ∀ fe ∈ arcs, fe.name.map lower ≠ name.map lower) := by
  rcases hc with rfl | ⟨b, d, k, h⟩
  · obtain ⟨b, hb, h⟩ := makeArcName_first weekday max now day arcs last hd hn
    refine ⟨_, _, _, _, h, bname_bundle b _ (by split <;> omega), .inr fun fe hfe he => ?_⟩
    have := hextodec_eqi ((eqi_iff _ _).2 he)
    rw [hextodec_bname] at this
    simp only [existsBasenum, Bool.or_eq_false_iff, List.any_eq_false, Bool.and_eq_true, beq_iff_eq, not_and] at hb
    exact hb.1 fe hfe (ha fe hfe) this
  · obtain ⟨x, rfl, hd1, hk1, rfl⟩ := (bundleName_iff _ _ _ _).1 h
    have hs : d * 10 + k < 70 := by omega
    refine ⟨_, _, _, _, makeArcName_cur weekday max now day arcs last x _ hs hd, bname_bundle x _ ?_, ?_⟩
    · split
      · exact hs
      · split
        · exact hs
        · exact nextNum_lt _ _ _ hd hs
    · split
      · exact .inl rfl
      · split
        · exact .inl rfl
        · rename_i hx
          refine .inr fun fe hfe he => hx ?_
          rw [List.any_eq_true]
          exact ⟨fe, hfe, (eqi_iff _ _).2 he⟩

/-- **C38.** Bundles of different nodes have different base numbers: if that was so before, and the
node had no bundle or one of its own, it is so for the new name. -/
theorem arcname_own_base (weekday : Bool) (max : Nat) (now day : UInt32) (arcs : List FileEntry) (last : List Str)
    (cur name other : Str) (hd : day.toNat < 7) (hn : arcs.length + last.length < 2 ^ 32)
    (hc : cur = [] ∨ ∃ b d k, BundleName b d k cur) (ho : other ∈ last) (b' d' k' : Nat) (hb : BundleName b' d' k' other)
    (hne : ∀ b d k, BundleName b d k cur → b ≠ b')
    (h : makeArcName weekday max now day arcs last cur = .ok (some name)) :
    ∀ b d k, BundleName b d k name → b ≠ b' := by
  intro b d k hbn
  rcases hc with rfl | ⟨b0, d0, k0, h0⟩
  · obtain ⟨x, hx, e⟩ := makeArcName_first weekday max now day arcs last hd hn
    rw [h] at e
    simp only [Except.ok.injEq, Option.some.injEq] at e
    subst e
    obtain ⟨y, rfl, _, _, e⟩ := (bundleName_iff _ _ _ _).1 hbn
    obtain ⟨z, rfl, _, _, rfl⟩ := (bundleName_iff _ _ _ _).1 hb
    have e := bname_inj e
    subst e
    intro e
    have e := UInt32.toNat_inj.1 e
    subst e
    simp only [existsBasenum, Bool.or_eq_false_iff, List.any_eq_false, Bool.and_eq_true, beq_iff_eq, not_and] at hx
    exact hx.2 _ ho (by simp [bname]) (hextodec_bname _ _)
  · have h0' := h0
    obtain ⟨x, rfl, hd1, hk1, rfl⟩ := (bundleName_iff _ _ _ _).1 h0
    rw [makeArcName_cur weekday max now day arcs last x _ (by omega) hd] at h
    simp only [Except.ok.injEq, Option.some.injEq] at h
    subst h
    obtain ⟨y, rfl, _, _, e⟩ := (bundleName_iff _ _ _ _).1 hbn
    rw [← bname_inj e]
    exact hne _ _ _ h0'

/-- **C38.** When a bundle is used further and when it is not. A bundle that is still there, not empty
and not above the limit is used again (with weekday naming: on its own day). A bundle that is gone,
empty or too large is followed by the one with the next number (or the first of the day), unless that
one exists. -/
theorem arcname_limit (weekday : Bool) (max : Nat) (now day : UInt32) (arcs : List FileEntry) (last : List Str)
    (cur : Str) (b d k : Nat) (hc : BundleName b d k cur) (hd : day.toNat < 7) :
    ((∃ fe ∈ arcs, fe.name.map lower = cur.map lower) →
      (∀ fe ∈ arcs, fe.name.map lower = cur.map lower → 0 < fe.size ∧ fe.size ≤ max) →
      (weekday = true → d = day.toNat) → makeArcName weekday max now day arcs last cur = .ok (some cur)) ∧
    (∀ next d' k', BundleName b d' k' next → 10 * d' + k' = (10 * d + k + 1) % 70 →
      (weekday = true → d' = day.toNat) →
      (∀ fe ∈ arcs, fe.name.map lower = cur.map lower → fe.size = 0 ∨ max < fe.size) →
      (∀ fe ∈ arcs, fe.name.map lower ≠ next.map lower) →
      makeArcName weekday max now day arcs last cur = .ok (some next)) ∧
    (∀ next, BundleName b day.toNat 0 next → weekday = true → d ≠ day.toNat →
      (10 * d + k + 1) % 70 / 10 ≠ day.toNat →
      (∀ fe ∈ arcs, fe.name.map lower ≠ next.map lower) →
      makeArcName weekday max now day arcs last cur = .ok (some next)) := by
  obtain ⟨x, rfl, hd1, hk1, rfl⟩ := (bundleName_iff _ _ _ _).1 hc
  have hs : d * 10 + k < 70 := by omega
  rw [makeArcName_cur weekday max now day arcs last x _ hs hd]
  have lst : ∀ fe, (arcs.filter fun fe => eqi (bname x (d * 10 + k)) fe.name).getLast? = some fe →
      fe ∈ arcs ∧ fe.name.map lower = (bname x (d * 10 + k)).map lower := by
    intro fe h
    have := List.mem_of_getLast? h
    rw [List.mem_filter] at this
    exact ⟨this.1, ((eqi_iff _ _).1 this.2).symm⟩
  have base : ∀ {d' k' next}, BundleName x.toNat d' k' next → next = bname x (d' * 10 + k') := by
    intro d' k' next h
    obtain ⟨y, e, _, _, rfl⟩ := (bundleName_iff _ _ _ _).1 h
    rw [UInt32.toNat_inj.1 e]
  refine ⟨?_, ?_, ?_⟩
  · rintro ⟨fe, h1, h2⟩ hsz hw
    rw [if_pos]
    unfold takesMore
    have hne : (arcs.filter fun fe => eqi (bname x (d * 10 + k)) fe.name) ≠ [] := by
      intro e
      have : fe ∈ arcs.filter fun fe => eqi (bname x (d * 10 + k)) fe.name :=
        List.mem_filter.2 ⟨h1, (eqi_iff _ _).2 h2.symm⟩
      rw [e] at this; simp at this
    obtain ⟨g, hg⟩ : ∃ g, (arcs.filter fun fe => eqi (bname x (d * 10 + k)) fe.name).getLast? = some g :=
      ⟨_, List.getLast?_eq_some_getLast hne⟩
    obtain ⟨g1, g2⟩ := lst g hg
    have := hsz g g1 g2
    rw [hg]
    have hdiv : (d * 10 + k) / 10 = d := by omega
    have hok : sizeOk max (some g) = true := by
      simp only [sizeOk, Bool.and_eq_true, Bool.not_eq_true', beq_eq_false_iff_ne, decide_eq_false_iff_not]
      omega
    rw [hok, hdiv]
    cases weekday with
    | false => rfl
    | true => simp [hw rfl]
  · intro next d' k' hb hnum hw hsz hno
    have e := base hb
    subst e
    have hk' : k' < 10 := by
      obtain ⟨_, _, _, h, _⟩ := (bundleName_iff _ _ _ _).1 hb; exact h
    have h1 : takesMore weekday max day.toNat arcs (bname x (d * 10 + k)) (d * 10 + k) = false := by
      unfold takesMore
      cases hg : (arcs.filter fun fe => eqi (bname x (d * 10 + k)) fe.name).getLast? with
      | none => rfl
      | some g =>
        obtain ⟨g1, g2⟩ := lst g hg
        have := hsz g g1 g2
        have hok : sizeOk max (some g) = false := by
          rw [← Bool.not_eq_true]
          simp only [sizeOk, Bool.and_eq_true, Bool.not_eq_true', beq_eq_false_iff_ne, decide_eq_false_iff_not]
          omega
        rw [hok]; rfl
    have h2 : nextNum weekday day.toNat (d * 10 + k) = d' * 10 + k' := by
      unfold nextNum
      dsimp only
      have : (if d * 10 + k + 1 = 70 then 0 else d * 10 + k + 1) = d' * 10 + k' := by split <;> omega
      rw [this]
      cases weekday with
      | false => rfl
      | true => rw [if_neg]; simp; have := hw rfl; omega
    rw [h1, h2, if_neg (by simp), if_neg]
    rw [List.any_eq_true]
    rintro ⟨fe, f1, f2⟩
    exact hno fe f1 ((eqi_iff _ _).1 f2)
  · intro next hb hw hdd hnn hno
    have e := base hb
    subst e hw
    have h1 : takesMore true max day.toNat arcs (bname x (d * 10 + k)) (d * 10 + k) = false := by
      unfold takesMore
      have : (d * 10 + k) / 10 = d := by omega
      rw [this]
      simp [hdd]
    have h2 : nextNum true day.toNat (d * 10 + k) = day.toNat * 10 + 0 := by
      unfold nextNum
      dsimp only
      rw [if_pos]
      · rfl
      · simp only [Bool.true_and, bne_iff_ne, ne_eq]
        split <;> omega
    rw [h1, h2, if_neg (by simp), if_neg]
    rw [List.any_eq_true]
    rintro ⟨fe, f1, f2⟩
    exact hno fe f1 ((eqi_iff _ _).1 f2)

/-! ## The index file -/

theorem jbstrcpy_word (m : Nat) (w r : Str) (hw : ∀ c ∈ w, c ≠ 32 ∧ c ≠ 9 ∧ c ≠ 92 ∧ c ≠ 10 ∧ c ≠ 34) (hne : w ≠ [])
    (hl : w.length < m) (hr : r = [] ∨ ∃ t, r = 32 :: t) :
    jbstrcpy m (w ++ r) = (w, r.drop 1, true) := by
  obtain ⟨c, t, rfl⟩ := List.exists_cons_of_ne_nil hne
  have hc := hw c (by simp)
  unfold jbstrcpy
  have e : (c :: t ++ r).dropWhile isBlank = c :: t ++ r := by
    rw [List.cons_append, List.dropWhile_cons_of_neg]
    simp [isBlank, hc]
  have hq : ((c :: t ++ r).head? == some 34) = false := by simp [hc]
  simp only [e, hq, Bool.false_eq_true, if_false]
  rw [tokLoop_plain m 0 (c :: t) r (fun x hx => by have := hw x hx; exact ⟨this.1, this.2.1, this.2.2.1, this.2.2.2.1⟩)
    (by omega) (hr.imp id fun ⟨t, e⟩ => ⟨32, t, e, .inl rfl⟩)]
  rcases hr with rfl | ⟨t', rfl⟩ <;> simp [skipSep]

/-- A word of the index. -/
def WordChar (c : UInt8) : Prop := 33 < c.toNat ∧ c.toNat < 128 ∧ c.toNat ≠ 92 ∧ c.toNat ≠ 34

theorem WordChar.plain {c : UInt8} (h : WordChar c) :
    (c ≠ 32 ∧ c ≠ 9 ∧ c ≠ 92 ∧ c ≠ 10 ∧ c ≠ 34) ∧ below33 c = false ∧ c ≠ 0 ∧ c ≠ 13 := by
  have : ∀ c : UInt8, 33 < c.toNat ∧ c.toNat < 128 ∧ c.toNat ≠ 92 ∧ c.toNat ≠ 34 →
      (c ≠ 32 ∧ c ≠ 9 ∧ c ≠ 92 ∧ c ≠ 10 ∧ c ≠ 34) ∧ below33 c = false ∧ c ≠ 0 ∧ c ≠ 13 := by decide +kernel
  exact this c h

theorem readIndexLine_ok (n : Node4D) (s : Str) (ns : List (Node4D × Str)) (hs : ∀ c ∈ s, WordChar c) (hne : s ≠ [])
    (hl : s.length ≤ 12) :
    readIndexLine (print4D n ++ [32] ++ s ++ [10]) ns =
      .ok (ns.map fun p => if compare4D p.1 n == 0 then (p.1, s) else p) := by
  have hp : ∀ c ∈ print4D n, WordChar c := by
    intro c hc
    have := print4D_chars n c hc
    have key : ∀ c : UInt8, AddrChar c → WordChar c := by unfold AddrChar WordChar; decide +kernel
    exact key c this
  have hpne : print4D n ≠ [] := by unfold print4D; split <;> simp
  have st : striptrail (print4D n ++ [32] ++ s ++ [10]) = .ok (print4D n ++ [32] ++ s) := by
    rw [striptrail_iff]
    refine ⟨[10], rfl, by simp [below33], ?_⟩
    rw [List.getLast?_append]
    obtain ⟨c, hc⟩ : ∃ c, s.getLast? = some c := ⟨_, List.getLast?_eq_some_getLast hne⟩
    refine ⟨c, by rw [hc]; rfl, (hs c (List.mem_of_getLast? hc)).plain.2.1⟩
  unfold readIndexLine
  have j1 := jbstrcpy_word 200 (print4D n) (32 :: s) (fun c hc => (hp c hc).plain.1) hpne
    (by have := print4D_length n; omega) (.inr ⟨s, rfl⟩)
  have j2 := jbstrcpy_word 200 s [] (fun c hc => (hs c hc).plain.1) hne (by omega) (.inl rfl)
  rw [List.append_nil] at j2
  rw [st]
  simp only [bind, Except.bind, List.append_assoc, List.singleton_append, j1, parse4D_print4D, List.drop_succ_cons,
    List.drop_zero, j2, pure, Except.pure]
  have : mystrncpy s 13 = s := List.take_of_length_le (by omega)
  rw [this]

/-- Entering the name of a line for the node it is for. -/
def enterName (st : List (Node4D × Str)) (q : Node4D × Str) : List (Node4D × Str) :=
  if q.2 = [] then st else st.map fun p => if compare4D p.1 q.1 == 0 then (p.1, q.2) else p

/-- Reading the lines of an index. -/
theorem readIndexLoop_write (ns cur : List (Node4D × Str)) (f : Nat) (hf : ns.length ≤ f)
    (hs : ∀ p ∈ ns, (∀ c ∈ p.2, WordChar c) ∧ p.2.length ≤ 12) :
    readIndexLoop (f + 1) (writeIndex ns) cur =
      .ok (ns.foldl enterName cur) := by
  induction ns generalizing cur f with
  | nil => simp [writeIndex, readIndexLoop, osFGets]
  | cons q ns ih =>
    obtain ⟨n, s⟩ := q
    have hq := hs (n, s) (by simp)
    have hns := fun p hp => hs p (List.mem_cons_of_mem _ hp)
    by_cases he : s = []
    · subst he
      simp only [writeIndex, if_true, List.nil_append, List.foldl_cons]
      exact ih cur f (by simp at hf; omega) hns
    · simp only [writeIndex, if_neg he, List.foldl_cons]
      obtain ⟨g, rfl⟩ : ∃ g, f = g + 1 := ⟨f - 1, by simp at hf; omega⟩
      have hp : ∀ c ∈ print4D n, WordChar c := by
        intro c hc
        have := print4D_chars n c hc
        have key : ∀ c : UInt8, AddrChar c → WordChar c := by unfold AddrChar WordChar; decide +kernel
        exact key c this
      have hlen := print4D_length n
      have ht : NlText (print4D n ++ [32] ++ s) := by
        constructor
        · intro h
          simp only [List.mem_append, List.mem_singleton] at h
          rcases h with (h | h) | h
          · exact (hp _ h).plain.2.2.1 rfl
          · simp at h
          · exact (hq.1 _ h).plain.2.2.1 rfl
        · intro h
          simp only [List.mem_append, List.mem_singleton] at h
          rcases h with (h | h) | h
          · exact (hp _ h).plain.1.2.2.2.1 rfl
          · simp at h
          · exact (hq.1 _ h).plain.1.2.2.2.1 rfl
        · have := hq.2; simp at this ⊢; omega
      have hg := osFGets_line (print4D n ++ [32] ++ s) (writeIndex ns) 200 ht (by have := hq.2; simp at this ⊢; omega)
      have hcr : (print4D n ++ [32] ++ s).getLast? ≠ some 13 := by
        intro h
        rw [List.getLast?_append] at h
        obtain ⟨c, hc⟩ : ∃ c, s.getLast? = some c := ⟨_, List.getLast?_eq_some_getLast he⟩
        rw [hc] at h
        simp only [Option.some_or, Option.some.injEq] at h
        subst h
        exact (hq.1 _ (List.mem_of_getLast? hc)).plain.2.2.2 rfl
      rw [if_neg hcr] at hg
      rw [List.append_assoc (print4D n ++ [32] ++ s) [10], List.singleton_append]
      rw [readIndexLoop, hg]
      dsimp only
      rw [if_neg (by simp), readIndexLine_ok n s cur hq.1 he hq.2]
      simp only [bind, Except.bind]
      have e : enterName cur (n, s) = cur.map fun p => if compare4D p.1 n == 0 then (p.1, s) else p := if_neg he
      rw [e]
      exact ih _ g (by simp at hf; omega) hns

theorem bname_word (b : UInt32) (s : Nat) (h : s < 70) : (∀ c ∈ bname b s, WordChar c) ∧ (bname b s).length = 12 := by
  constructor
  · intro c hc
    simp only [bname, List.mem_append, List.mem_cons] at hc
    rcases hc with hc | rfl | hc
    · have := (hexFold_hexW 8 b.toNat (by have := b.toNat_lt; omega)).2 c hc
      unfold IsHexLow at this
      unfold WordChar
      omega
    · unfold WordChar; decide
    · have fin : ∀ s : Fin 70, ∀ c ∈ arcTail s.1, 33 < c.toNat ∧ c.toNat < 128 ∧ c.toNat ≠ 92 ∧ c.toNat ≠ 34 := by decide +kernel
      exact fin ⟨s, h⟩ c hc
  · simp [bname, hexW_length, arcTail_length s h]

/-- Distinct nodes, with their last bundles: none, or one with a number of its own. -/
structure IndexOk (ns : List (Node4D × Str)) : Prop where
  addr : ns.Pairwise fun p q => compare4D p.1 q.1 ≠ 0 ∧ compare4D q.1 p.1 ≠ 0
  name : ∀ p ∈ ns, p.2 = [] ∨ ∃ b d k, BundleName b d k p.2
  base : ns.Pairwise fun p q => ∀ b d k b' d' k', BundleName b d k p.2 → BundleName b' d' k' q.2 → b ≠ b'

theorem compare4D_self (a : Node4D) : compare4D a a = 0 := by
  simp [compare4D]

theorem foldl_index (ns done : List (Node4D × Str))
    (hp : (done ++ ns).Pairwise fun p q => compare4D p.1 q.1 ≠ 0 ∧ compare4D q.1 p.1 ≠ 0) :
    ns.foldl enterName
      (done ++ ns.map fun p => (p.1, [])) = done ++ ns := by
  induction ns generalizing done with
  | nil => simp
  | cons q ns ih =>
    have h1 : (done ++ [q] ++ ns).Pairwise fun p q => compare4D p.1 q.1 ≠ 0 ∧ compare4D q.1 p.1 ≠ 0 := by simpa using hp
    have e : enterName (done ++ (q :: ns).map (fun p => (p.1, []))) q = done ++ [q] ++ ns.map fun p => (p.1, []) := by
      unfold enterName
      by_cases hq : q.2 = []
      · rw [if_pos hq]; simp [← hq]
      · rw [if_neg hq]
        rw [List.pairwise_append] at hp
        obtain ⟨_, h2, h3⟩ := hp
        rw [List.pairwise_cons] at h2
        simp only [List.map_append, List.map_cons, List.map_map, compare4D_self, BEq.rfl, if_true, List.append_assoc,
          List.singleton_append]
        congr 1
        · conv => rhs; rw [← List.map_id done]
          apply List.map_congr_left
          intro p hp
          have := (h3 p hp q (by simp)).1
          rw [if_neg (by simpa using this)]; rfl
        · congr 1
          apply List.map_congr_left
          intro p hp
          have := (h2.1 p hp).2
          simp [this]
    rw [List.foldl_cons, e]
    rw [ih (done ++ [q]) h1]
    simp

theorem clearDups_ok (ns : List (Node4D × Str)) (hn : ∀ p ∈ ns, p.2 = [] ∨ ∃ b d k, BundleName b d k p.2)
    (hb : ns.Pairwise fun p q => ∀ b d k b' d' k', BundleName b d k p.2 → BundleName b' d' k' q.2 → b ≠ b') :
    clearDups ns = ns := by
  induction ns with
  | nil => simp [clearDups]
  | cons p r ih =>
    rw [List.pairwise_cons] at hb
    have hr := ih (fun q hq => hn q (by simp [hq])) hb.2
    rw [clearDups]
    by_cases hp : p.2 = []
    · rw [if_pos hp, hr]
    · rw [if_neg hp]
      have : (r.map fun q => if hextodec p.2 == hextodec q.2 then (q.1, []) else q) = r := by
        conv => rhs; rw [← List.map_id r]
        apply List.map_congr_left
        intro q hq
        obtain ⟨b, d, k, h1⟩ := (hn p (by simp)).resolve_left hp
        rcases hn q (by simp [hq]) with h2 | ⟨b', d', k', h2⟩
        · split
          · simp [← h2]
          · rfl
        · have := hb.1 q hq _ _ _ _ _ _ h1 h2
          obtain ⟨x, rfl, _, _, e1⟩ := (bundleName_iff _ _ _ _).1 h1
          obtain ⟨y, rfl, _, _, e2⟩ := (bundleName_iff _ _ _ _).1 h2
          rw [e1, e2, hextodec_bname, hextodec_bname, if_neg]; rfl
          simp only [beq_iff_eq]
          intro e
          exact this (by simpa using congrArg UInt64.toNat e)
      rw [this, hr]

/-- **C38.** The last bundles of the nodes survive from one run to the next: reading the index that
was written gives every node its bundle again. -/
theorem index_roundtrip (ns : List (Node4D × Str)) (h : IndexOk ns) :
    readIndex (writeIndex ns) (ns.map fun p => (p.1, [])) = .ok ns := by
  have hw : ∀ p ∈ ns, (∀ c ∈ p.2, WordChar c) ∧ p.2.length ≤ 12 := by
    intro p hp
    rcases h.name p hp with e | ⟨b, d, k, hb⟩
    · rw [e]; simp
    · obtain ⟨x, rfl, _, _, e⟩ := (bundleName_iff _ _ _ _).1 hb
      obtain ⟨h1, h2⟩ := bname_word x (d * 10 + k) (by omega)
      rw [e]
      exact ⟨h1, by omega⟩
  have len : ∀ (l : List (Node4D × Str)) (cur : List (Node4D × Str)), (∀ p ∈ l, (∀ c ∈ p.2, WordChar c) ∧ p.2.length ≤ 12) →
      readIndexLoop ((writeIndex l).length + 1) (writeIndex l) cur =
      .ok (l.foldl enterName cur) := by
    intro l cur hl
    have e1 : writeIndex l = writeIndex (l.filter fun p => p.2 != []) := by
      clear hl
      induction l with
      | nil => rfl
      | cons q l ih =>
        by_cases hq : q.2 = []
        · rw [List.filter_cons_of_neg (by simp [hq]), writeIndex, if_pos hq, List.nil_append, ih]
        · rw [List.filter_cons_of_pos (by simp [hq]), writeIndex, writeIndex, ih]
    have e2 : ∀ c, l.foldl enterName c =
        (l.filter fun p => p.2 != []).foldl enterName c := by
      clear hl e1
      induction l with
      | nil => intro c; rfl
      | cons q l ih =>
        intro c
        by_cases hq : q.2 = []
        · rw [List.filter_cons_of_neg (by simp [hq]), List.foldl_cons, show enterName c q = c from if_pos hq, ih]
        · rw [List.filter_cons_of_pos (by simp [hq]), List.foldl_cons, List.foldl_cons, ih]
    rw [e1, e2]
    have hl' : ∀ p ∈ l.filter (fun p => p.2 != []), (∀ c ∈ p.2, WordChar c) ∧ p.2.length ≤ 12 := fun p hp => hl p (List.mem_filter.1 hp).1
    have hne : ∀ p ∈ l.filter (fun p => p.2 != []), p.2 ≠ [] := fun p hp => by simpa using (List.mem_filter.1 hp).2
    generalize l.filter (fun p => p.2 != []) = m at *
    refine readIndexLoop_write m cur _ ?_ hl'
    clear e1 e2 hl'
    induction m with
    | nil => simp
    | cons q m ih =>
      have := ih fun p hp => hne p (by simp [hp])
      rw [writeIndex, if_neg (hne q (by simp))]
      simp; omega
  unfold readIndex
  rw [len ns _ hw, ← List.nil_append (ns.map fun p => (p.1, [])), foldl_index ns [] (by simpa using h.addr)]
  simp only [bind, Except.bind, pure, Except.pure, List.nil_append]
  rw [clearDups_ok ns h.name h.base]

namespace Ex

/-- The second bundle of Monday for a node; the first one is too large. -/
example : makeArcName true 1000 5 1 [⟨b!"0000ABCD.MO0", 2000, 0⟩] [b!"0000abcd.mo0"] b!"0000abcd.mo0" =
    .ok (some b!"0000abcd.mo1") ∧ isArc b!"0000ABCD.MO0" = true ∧ BundleName 0xabcd 1 0 b!"0000abcd.mo0" := by
  refine ⟨by decide +kernel, by decide +kernel, b!"0000abcd", b!"mo", by decide +kernel, by decide, rfl, rfl, by decide +kernel, by decide +kernel⟩

/-- The number of the time is in use, so the next one is taken. -/
example : makeArcName false 1000 5 1 [⟨b!"00000005.mo0", 10, 0⟩] [[], b!"00000006.su3"] [] = .ok (some b!"00000007.su0") := by
  decide +kernel

/-- Two nodes whose index is written and read. -/
example : IndexOk [(⟨2, 200, 1, 0⟩, b!"0000abcd.mo0"), (⟨2, 200, 2, 0⟩, []), (⟨2, 200, 2, 7⟩, b!"0000abce.sa9")] ∧
    writeIndex [(⟨2, 200, 1, 0⟩, b!"0000abcd.mo0"), (⟨2, 200, 2, 0⟩, []), (⟨2, 200, 2, 7⟩, b!"0000abce.sa9")] =
      b!"2:200/1 0000abcd.mo0\n2:200/2.7 0000abce.sa9\n" := by
  have n1 : BundleName 0xabcd 1 0 b!"0000abcd.mo0" := ⟨b!"0000abcd", b!"mo", by decide +kernel, by decide, rfl, rfl, by decide +kernel, by decide +kernel⟩
  have n2 : BundleName 0xabce 6 9 b!"0000abce.sa9" := ⟨b!"0000abce", b!"sa", by decide +kernel, by decide, rfl, rfl, by decide +kernel, by decide +kernel⟩
  have nil : ∀ b d k, ¬ BundleName b d k [] := by
    rintro b d k ⟨h, x, e, _⟩
    have := congrArg List.length e
    simp at this
  refine ⟨⟨by decide +kernel, ?_, ?_⟩, by decide +kernel⟩
  · intro p hp
    simp only [List.mem_cons, List.not_mem_nil, or_false] at hp
    rcases hp with rfl | rfl | rfl
    · exact .inr ⟨_, _, _, n1⟩
    · exact .inl rfl
    · exact .inr ⟨_, _, _, n2⟩
  · simp only [List.pairwise_cons, List.mem_cons, List.not_mem_nil, or_false, List.Pairwise.nil, and_true]
    refine ⟨?_, ?_, by simp⟩
    · rintro q (rfl | rfl) b d k b' d' k' h h'
      · exact absurd h' (nil _ _ _)
      · rw [bundleName_base h n1, bundleName_base h' n2]; decide
    · rintro q rfl b d k b' d' k' h h'
      exact absurd h (nil _ _ _)

/-- C38 (violated) without the assumption on the form of the last name: with an index edited by hand
the name of an existing archive is chosen. -/
theorem arcname_bad_index : makeArcName false 1000 5 1 [⟨b!"0000abcd.su0", 5000, 0⟩] [b!"0000abcd.xyz"] b!"0000abcd.xyz" =
    .ok (some b!"0000abcd.su0") := by decide +kernel

/-- C47 (violated). Storing the name of a bundle changes the number of netmails received from the
node: 300 becomes 256. -/
theorem arcname_clobbers_count : storeArcName b!"0000abcd.mo1" 300 = (b!"0000abcd.mo1", 256) := by decide +kernel

end Ex

end CM
