import Verif.Model.Toss
import Verif.Props.SafeDelete
import Verif.Lemmas.AreaList
import Verif.Props.Filter
/-! # C57: tossing a directory; C60: the check of the configuration -/

set_option linter.unusedSimpArgs false

namespace CM

/-! ## C57 -/

/-- Oldest first; files of the same age by name without case. -/
def OldestFirst (l : List FileEntry) : Prop :=
  l.Pairwise fun a b => a.date < b.date ∨ (a.date = b.date ∧ ¬ b.name.map lower < a.name.map lower)

/-- `qsort` with `DateCompareFE`: any function that sorts. -/
def SortsFE (sort : List FileEntry → List FileEntry) : Prop :=
  ∀ l, (sort l).Perm l ∧ (sort l).Pairwise fun a b => dateCompareFE a b ≤ 0

theorem dateCompareFE_iff (a b : FileEntry) :
    dateCompareFE a b ≤ 0 ↔ a.date < b.date ∨ (a.date = b.date ∧ ¬ b.name.map lower < a.name.map lower) := by
  unfold dateCompareFE
  rw [← cmpi_iff]
  by_cases h1 : b.date < a.date
  · rw [if_pos h1]; constructor
    · intro h; omega
    · rintro (h | ⟨h, -⟩) <;> omega
  · rw [if_neg h1]
    by_cases h2 : a.date < b.date
    · rw [if_pos h2]; simp [h2]
    · rw [if_neg h2]
      have : a.date = b.date := by omega
      simp [this]

theorem SortsFE.oldest {sort : List FileEntry → List FileEntry} (h : SortsFE sort) (l : List FileEntry) : OldestFirst (sort l) :=
  (h l).2.imp fun {a b} h => (dateCompareFE_iff a b).1 h

theorem tossLoop_prefix {σ : Type} (f : σ → Str → σ × Bool) (ctrlc : σ → Bool) (dir : Str) (es : List FileEntry) (s : σ) :
    ∃ p r, es = p ++ r ∧ (tossLoop f ctrlc dir s es).1 = p.foldl (fun s fe => (f s (makeFullPath dir fe.name 200)).1) s ∧
      (tossLoop f ctrlc dir s es).2.2 <+: p.map (fun fe => makeFullPath dir fe.name 200) ∧
      ((tossLoop f ctrlc dir s es).2.1 = true →
        (tossLoop f ctrlc dir s es).2.2 = p.map (fun fe => makeFullPath dir fe.name 200) ∧
        (r ≠ [] → ctrlc (tossLoop f ctrlc dir s es).1 = true)) ∧ (ctrlc s = true → p = []) := by
  induction es generalizing s with
  | nil => exact ⟨[], [], rfl, rfl, by simp [tossLoop], by simp [tossLoop], fun _ => rfl⟩
  | cons fe es ih =>
    unfold tossLoop
    by_cases hc : ctrlc s = true
    · rw [if_pos hc]
      exact ⟨[], fe :: es, rfl, rfl, by simp, fun _ => ⟨rfl, fun _ => hc⟩, fun _ => rfl⟩
    · rw [if_neg hc]
      dsimp only
      by_cases hf : (f s (makeFullPath dir fe.name 200)).2 = true
      · rw [if_pos hf]
        obtain ⟨p, r, h1, h2, h3, h4, -⟩ := ih (f s (makeFullPath dir fe.name 200)).1
        refine ⟨fe :: p, r, by rw [h1]; rfl, by rw [List.foldl_cons]; exact h2, ?_, fun h => ⟨?_, (h4 h).2⟩, fun h => absurd h hc⟩
        · rw [List.map_cons]
          exact (List.prefix_cons_inj _).2 h3
        · rw [List.map_cons, (h4 h).1]
      · rw [if_neg hf]
        exact ⟨[fe], es, rfl, rfl, by simp, by simp, fun h => absurd h hc⟩

theorem isPkt_length {n : Str} (h : isPkt n = true) : n.length = 12 := by
  unfold isPkt at h
  simp only [Bool.and_eq_true, beq_iff_eq] at h
  omega

theorem isArc_length {n : Str} (h : isArc n = true) : n.length = 12 := by
  unfold isArc at h
  simp only [Bool.and_eq_true, beq_iff_eq] at h
  exact h.1.1.1

theorem isPkt_not_isArc {n : Str} (h : isPkt n = true) (h' : isArc n = true) : False := by
  have := file_classes_disjoint n
  simp [h, h'] at this

theorem tossLoop_ctrlc {σ : Type} (f : σ → Str → σ × Bool) (ctrlc : σ → Bool) (dir : Str) (es : List FileEntry) (s : σ)
    (h : ctrlc s = true) : tossLoop f ctrlc dir s es = (s, true, []) := by
  cases es with
  | nil => rfl
  | cons fe es => unfold tossLoop; rw [if_pos h]

/-- **C57.** Tossing a directory handles first the packets and then the bundles, each kind oldest first
and every file at most once; if everything goes well, every packet and bundle of the directory exactly
once, and these are then the files to delete. This is for every order in which the directory is read,
for every sorting function, and for everything that reading a packet or unpacking a bundle can do. -/
theorem toss_order {σ : Type} (t : Tosser σ) (sort : List FileEntry → List FileEntry) (hs : SortsFE sort) (fs : FS) (dir : Str)
    (hd : dir.length ≤ 99) (pkts arcs : List FileEntry) (hp : DirList fs dir isPkt pkts) (ha : DirList fs dir isArc arcs) (s : σ) :
    ∃ P A, OldestFirst P ∧ OldestFirst A ∧ (∀ e ∈ P, e ∈ pkts) ∧ (∀ e ∈ A, e ∈ arcs) ∧
      ((P ++ A).map fun fe => makeFullPath dir fe.name 200).Nodup ∧
      (tossDir t sort dir pkts arcs s).1 =
        A.foldl (fun s fe => (t.tossBundle s (makeFullPath dir fe.name 200)).1)
          (P.foldl (fun s fe => (t.readPkt s (makeFullPath dir fe.name 200)).1) s) ∧
      (tossDir t sort dir pkts arcs s).2.2 <+: (P ++ A).map (fun fe => makeFullPath dir fe.name 200) ∧
      ((tossDir t sort dir pkts arcs s).2.1 = true →
        (tossDir t sort dir pkts arcs s).2.2 = (P ++ A).map (fun fe => makeFullPath dir fe.name 200) ∧
        (∀ n, (47 : UInt8) ∉ n → n ≠ [] → isPkt n = true → fs (makeFullPath dir n 200) ≠ none → ∃ e ∈ P, e.name = n) ∧
        (∀ n, (47 : UInt8) ∉ n → n ≠ [] → isArc n = true → fs (makeFullPath dir n 200) ≠ none → ∃ e ∈ A, e.name = n)) ∧
      (∀ e ∈ A, ∀ e' ∈ pkts, e' ∈ P) := by
  obtain ⟨P, rp, e1, e2, e3, e4, -⟩ := tossLoop_prefix t.readPkt t.ctrlc dir (sort pkts) s
  -- names
  have np : ∀ e ∈ pkts, e.name.length = 12 ∧ isPkt e.name = true ∧ (47 : UInt8) ∉ e.name := by
    intro e he
    obtain ⟨n, d, h1, h2, h3, h4, -⟩ := hp.1 e he
    have := isPkt_length h4
    rw [List.take_of_length_le (by omega)] at h1
    rw [h1]; exact ⟨this, h4, h2⟩
  have na : ∀ e ∈ arcs, e.name.length = 12 ∧ isArc e.name = true ∧ (47 : UInt8) ∉ e.name := by
    intro e he
    obtain ⟨n, d, h1, h2, h3, h4, -⟩ := ha.1 e he
    have : n.length = 12 := isArc_length h4
    rw [List.take_of_length_le (by omega)] at h1
    rw [h1]; exact ⟨this, h4, h2⟩
  have full : ∀ n : Str, n.length = 12 → makeFullPath dir n 200 = dirPart dir ++ n := fun n h => fullPath_eq dir n hd (by omega)
  have nodup : ∀ {acc : Str → Bool} {es l r : List FileEntry}, DirList fs dir acc es → (∀ e ∈ es, e.name.length = 12) → sort es = l ++ r →
      (l.map fun fe => makeFullPath dir fe.name 200).Nodup := by
    intro acc es l r hdl hlen e
    have h1 : es.Pairwise fun a b => a.name ≠ b.name := by
      have := hdl.2.2
      refine List.Pairwise.imp_of_mem ?_ this
      intro a b ha _ h
      exact h (by rw [hlen a ha]; omega)
    have h2 : (sort es).Pairwise fun a b => a.name ≠ b.name := by
      refine ((hs es).1.pairwise_iff ?_).2 h1
      intro a b h; exact fun e => h e.symm
    rw [e] at h2
    have h3 := (List.pairwise_append.1 h2).1
    rw [List.Nodup, List.pairwise_map]
    refine List.Pairwise.imp_of_mem ?_ h3
    intro a b ha hb h
    have ma : a ∈ es := (hs es).1.mem_iff.1 (by rw [e]; simp [ha])
    have mb : b ∈ es := (hs es).1.mem_iff.1 (by rw [e]; simp [hb])
    rw [full _ (hlen a ma), full _ (hlen b mb)]
    exact fun h' => h (List.append_cancel_left h')
  have op : OldestFirst P := by
    have := hs.oldest pkts
    rw [e1] at this
    exact (List.pairwise_append.1 this).1
  have mp : ∀ e ∈ P, e ∈ pkts := fun e he => (hs pkts).1.mem_iff.1 (by rw [e1]; simp [he])
  have nd1 := nodup hp (fun e he => (np e he).1) e1
  by_cases hok : (tossLoop t.readPkt t.ctrlc dir s (sort pkts)).2.1 = true
  · obtain ⟨A, ra, f1, f2, f3, f4, f5⟩ := tossLoop_prefix t.tossBundle t.ctrlc dir (sort arcs) (tossLoop t.readPkt t.ctrlc dir s (sort pkts)).1
    have td : tossDir t sort dir pkts arcs s =
        ((tossLoop t.tossBundle t.ctrlc dir (tossLoop t.readPkt t.ctrlc dir s (sort pkts)).1 (sort arcs)).1,
          (tossLoop t.tossBundle t.ctrlc dir (tossLoop t.readPkt t.ctrlc dir s (sort pkts)).1 (sort arcs)).2.1 &&
            !t.ctrlc (tossLoop t.tossBundle t.ctrlc dir (tossLoop t.readPkt t.ctrlc dir s (sort pkts)).1 (sort arcs)).1,
          (tossLoop t.readPkt t.ctrlc dir s (sort pkts)).2.2 ++
            (tossLoop t.tossBundle t.ctrlc dir (tossLoop t.readPkt t.ctrlc dir s (sort pkts)).1 (sort arcs)).2.2) := by
      unfold tossDir
      dsimp only
      rw [hok]
      rfl
    have oa : OldestFirst A := by
      have := hs.oldest arcs
      rw [f1] at this
      exact (List.pairwise_append.1 this).1
    have ma : ∀ e ∈ A, e ∈ arcs := fun e he => (hs arcs).1.mem_iff.1 (by rw [f1]; simp [he])
    have nd2 := nodup ha (fun e he => (na e he).1) f1
    obtain ⟨g1, g2⟩ := e4 hok
    -- with Ctrl-C in the first loop, the second does nothing
    have stop : rp ≠ [] → A = [] ∧ t.ctrlc (tossLoop t.tossBundle t.ctrlc dir (tossLoop t.readPkt t.ctrlc dir s (sort pkts)).1 (sort arcs)).1 = true := by
      intro h
      have hc := g2 h
      exact ⟨f5 hc, by rw [tossLoop_ctrlc _ _ _ _ _ hc]; exact hc⟩
    refine ⟨P, A, op, oa, mp, ma, ?_, by rw [td, ← e2]; exact f2, ?_, ?_, ?_⟩
    · rw [List.map_append, List.nodup_append]
      refine ⟨nd1, nd2, ?_⟩
      intro x hx y hy
      obtain ⟨a, h1, rfl⟩ := List.mem_map.1 hx
      obtain ⟨b, h2, rfl⟩ := List.mem_map.1 hy
      rw [full _ (np a (mp a h1)).1, full _ (na b (ma b h2)).1]
      intro h
      have h := List.append_cancel_left h
      have x1 := (np a (mp a h1)).2.1
      have x2 := (na b (ma b h2)).2.1
      rw [h] at x1
      exact isPkt_not_isArc x1 x2
    · rw [td, List.map_append, g1]
      exact (List.prefix_append_right_inj _).2 f3
    · rw [td]
      intro h
      simp only [Bool.and_eq_true, Bool.not_eq_true'] at h
      obtain ⟨g3, g4⟩ := f4 h.1
      have rp0 : rp = [] := by
        by_cases hr : rp = []
        · exact hr
        · have := (stop hr).2
          rw [h.2] at this; cases this
      have ra0 : ra = [] := by
        by_cases hr : ra = []
        · exact hr
        · have := g4 hr
          rw [h.2] at this; cases this
      subst rp0 ra0
      refine ⟨by rw [List.map_append, g1, g3], ?_, ?_⟩
      · intro n h1 h2 h3 h4
        obtain ⟨e, he, h5⟩ := hp.2.1 n h1 h2 h3 h4
        refine ⟨e, ?_, ?_⟩
        · have := (hs pkts).1.mem_iff.2 he
          rw [e1] at this; simpa using this
        · rw [h5, List.take_of_length_le (by have := isPkt_length h3; omega)]
      · intro n h1 h2 h3 h4
        obtain ⟨e, he, h5⟩ := ha.2.1 n h1 h2 h3 h4
        refine ⟨e, ?_, ?_⟩
        · have := (hs arcs).1.mem_iff.2 he
          rw [f1] at this; simpa using this
        · rw [h5, List.take_of_length_le (by have := isArc_length h3; omega)]
    · intro e he e' he'
      by_cases hr : rp = []
      · have := (hs pkts).1.mem_iff.2 he'
        rw [e1, hr] at this; simpa using this
      · rw [(stop hr).1] at he; cases he
  · have td : tossDir t sort dir pkts arcs s =
        ((tossLoop t.readPkt t.ctrlc dir s (sort pkts)).1, false, (tossLoop t.readPkt t.ctrlc dir s (sort pkts)).2.2) := by
      unfold tossDir
      rw [Bool.not_eq_true] at hok
      dsimp only
      rw [hok]
      rfl
    exact ⟨P, [], op, .nil, mp, by simp, by simpa using nd1, by rw [td]; exact e2, by rw [td]; simpa using e3, by rw [td]; simp, by simp⟩

/-- A file to delete was tossed, successfully, in the state left by the files before it. -/
theorem tossLoop_deleted {σ : Type} (f : σ → Str → σ × Bool) (ctrlc : σ → Bool) (dir : Str) (es : List FileEntry) (s : σ) :
    ∀ q ∈ (tossLoop f ctrlc dir s es).2.2, ∃ l fe, l ++ [fe] <+: es ∧ q = makeFullPath dir fe.name 200 ∧
      (f (l.foldl (fun s fe => (f s (makeFullPath dir fe.name 200)).1) s) q).2 = true := by
  induction es generalizing s with
  | nil => intro q hq; cases hq
  | cons fe es ih =>
    intro q hq
    unfold tossLoop at hq
    by_cases hc : ctrlc s = true
    · rw [if_pos hc] at hq; cases hq
    · rw [if_neg hc] at hq
      dsimp only at hq
      by_cases hf : (f s (makeFullPath dir fe.name 200)).2 = true
      · rw [if_pos hf] at hq
        rcases List.mem_cons.1 hq with h | h
        · exact ⟨[], fe, by simp, h, by rw [h]; exact hf⟩
        · obtain ⟨l, fe', h1, h2, h3⟩ := ih _ q h
          exact ⟨fe :: l, fe', (List.prefix_cons_inj _).2 h1, h2, h3⟩
      · rw [if_neg hf] at hq; cases hq

/-- **C57.** No file is scheduled for deletion unless it was tossed successfully, after the files before
it in the order: a packet that cannot be read, and everything after it, stays in the directory. -/
theorem toss_deletes_tossed {σ : Type} (t : Tosser σ) (sort : List FileEntry → List FileEntry) (dir : Str) (pkts arcs : List FileEntry)
    (s : σ) : ∀ q ∈ (tossDir t sort dir pkts arcs s).2.2,
      (∃ l fe, l ++ [fe] <+: sort pkts ∧ q = makeFullPath dir fe.name 200 ∧
        (t.readPkt (l.foldl (fun s fe => (t.readPkt s (makeFullPath dir fe.name 200)).1) s) q).2 = true) ∨
      (∃ P l fe, P <+: sort pkts ∧ l ++ [fe] <+: sort arcs ∧ q = makeFullPath dir fe.name 200 ∧
        (t.tossBundle (l.foldl (fun s fe => (t.tossBundle s (makeFullPath dir fe.name 200)).1)
          (P.foldl (fun s fe => (t.readPkt s (makeFullPath dir fe.name 200)).1) s)) q).2 = true) := by
  intro q hq
  unfold tossDir at hq
  dsimp only at hq
  by_cases h : (!(tossLoop t.readPkt t.ctrlc dir s (sort pkts)).2.1) = true
  · rw [if_pos h] at hq
    exact .inl (tossLoop_deleted _ _ _ _ _ q hq)
  · rw [if_neg h] at hq
    rcases List.mem_append.1 hq with hq | hq
    · exact .inl (tossLoop_deleted _ _ _ _ _ q hq)
    · obtain ⟨P, r, h1, h2, -⟩ := tossLoop_prefix t.readPkt t.ctrlc dir (sort pkts) s
      obtain ⟨l, fe, h3, h4, h5⟩ := tossLoop_deleted _ _ _ _ _ q hq
      rw [h2] at h5
      exact .inr ⟨P, l, fe, ⟨r, h1.symm⟩, h3, h4, h5⟩

theorem bundleLoop_prefix {σ : Type} (f : σ → Str → σ × Bool) (ctrlc : σ → Bool) (dels : List Str) (dir : Str) (es : List FileEntry) (s : σ) :
    ∃ p r, es.filter (fun fe => !dels.contains (makeFullPath dir fe.name 200)) = p ++ r ∧
      (bundleLoop f ctrlc dels dir s es).1 = p.foldl (fun s fe => (f s (makeFullPath dir fe.name 200)).1) s ∧
      (bundleLoop f ctrlc dels dir s es).2.2 <+: p.map (fun fe => makeFullPath dir fe.name 200) ∧
      ((bundleLoop f ctrlc dels dir s es).2.1 = true →
        r = [] ∧ (bundleLoop f ctrlc dels dir s es).2.2 = p.map (fun fe => makeFullPath dir fe.name 200)) := by
  induction es generalizing s with
  | nil => exact ⟨[], [], rfl, rfl, by simp [bundleLoop], by simp [bundleLoop]⟩
  | cons fe es ih =>
    unfold bundleLoop
    by_cases hc : ctrlc s = true
    · rw [if_pos hc]
      exact ⟨[], _, rfl, rfl, by simp, by simp⟩
    · rw [if_neg hc]
      dsimp only
      by_cases hd : dels.contains (makeFullPath dir fe.name 200) = true
      · rw [if_pos hd, List.filter_cons_of_neg (by rw [hd]; decide)]
        exact ih s
      · rw [if_neg hd, List.filter_cons_of_pos (by simpa using hd)]
        by_cases hf : (f s (makeFullPath dir fe.name 200)).2 = true
        · rw [if_pos hf]
          obtain ⟨p, r, h1, h2, h3, h4⟩ := ih (f s (makeFullPath dir fe.name 200)).1
          refine ⟨fe :: p, r, by rw [h1]; rfl, by rw [List.foldl_cons]; exact h2, ?_, fun h => ⟨(h4 h).1, ?_⟩⟩
          · rw [List.map_cons]
            exact (List.prefix_cons_inj _).2 h3
          · rw [List.map_cons, (h4 h).2]
        · rw [if_neg hf]
          exact ⟨[fe], _, rfl, rfl, by simp, by simp⟩

/-- **C57.** The packets of a bundle are tossed oldest first, each at most once, and none of those already
tossed in this run (the files waiting to be deleted); on success all the others were tossed and deleted. -/
theorem bundle_order {σ : Type} (f : σ → Str → σ × Bool) (ctrlc : σ → Bool) (sort : List FileEntry → List FileEntry) (hs : SortsFE sort)
    (fs : FS) (dir : Str) (hd : dir.length ≤ 99) (dels : List Str) (pkts : List FileEntry) (hp : DirList fs dir isPkt pkts) (s : σ) :
    ∃ P, OldestFirst P ∧ (∀ e ∈ P, e ∈ pkts ∧ makeFullPath dir e.name 200 ∉ dels) ∧
      (P.map fun fe => makeFullPath dir fe.name 200).Nodup ∧
      (bundleLoop f ctrlc dels dir s (sort pkts)).1 = P.foldl (fun s fe => (f s (makeFullPath dir fe.name 200)).1) s ∧
      (bundleLoop f ctrlc dels dir s (sort pkts)).2.2 <+: P.map (fun fe => makeFullPath dir fe.name 200) ∧
      ((bundleLoop f ctrlc dels dir s (sort pkts)).2.1 = true →
        (bundleLoop f ctrlc dels dir s (sort pkts)).2.2 = P.map (fun fe => makeFullPath dir fe.name 200) ∧
        ∀ n, (47 : UInt8) ∉ n → n ≠ [] → isPkt n = true → fs (makeFullPath dir n 200) ≠ none →
          makeFullPath dir n 200 ∉ dels → ∃ e ∈ P, e.name = n) := by
  obtain ⟨P, r, h1, h2, h3, h4⟩ := bundleLoop_prefix f ctrlc dels dir (sort pkts) s
  have sub : P.Sublist (sort pkts) := (List.sublist_append_left P r).trans (by rw [← h1]; exact List.filter_sublist)
  have mp : ∀ e ∈ P, e ∈ pkts := fun e he => (hs pkts).1.mem_iff.1 (sub.subset he)
  have np : ∀ e ∈ pkts, e.name.length = 12 := by
    intro e he
    obtain ⟨n, d, h1, h2, h3, h4, -⟩ := hp.1 e he
    have := isPkt_length h4
    rw [List.take_of_length_le (by omega)] at h1
    rw [h1]; exact this
  have full : ∀ n : Str, n.length = 12 → makeFullPath dir n 200 = dirPart dir ++ n := fun n h => fullPath_eq dir n hd (by omega)
  refine ⟨P, (hs.oldest pkts).sublist sub, ?_, ?_, h2, h3, ?_⟩
  · intro e he
    refine ⟨mp e he, ?_⟩
    have : e ∈ (sort pkts).filter (fun fe => !dels.contains (makeFullPath dir fe.name 200)) := by rw [h1]; simp [he]
    simpa using (List.mem_filter.1 this).2
  · have h1 : pkts.Pairwise fun a b => a.name ≠ b.name := by
      refine List.Pairwise.imp_of_mem ?_ hp.2.2
      intro a b ha _ h
      exact h (by rw [np a ha]; omega)
    have h2 : (sort pkts).Pairwise fun a b => a.name ≠ b.name := by
      refine ((hs pkts).1.pairwise_iff ?_).2 h1
      intro a b h; exact fun e => h e.symm
    rw [List.Nodup, List.pairwise_map]
    refine List.Pairwise.imp_of_mem ?_ (h2.sublist sub)
    intro a b ha hb h
    rw [full _ (np a (mp a ha)), full _ (np b (mp b hb))]
    exact fun h' => h (List.append_cancel_left h')
  · intro h
    obtain ⟨g1, g2⟩ := h4 h
    refine ⟨g2, ?_⟩
    intro n h5 h6 h7 h8 h9
    obtain ⟨e, he, h10⟩ := hp.2.1 n h5 h6 h7 h8
    have hn : e.name = n := by rw [h10, List.take_of_length_le (by have := isPkt_length h7; omega)]
    refine ⟨e, ?_, hn⟩
    rw [g1, List.append_nil] at h1
    rw [← h1, List.mem_filter]
    refine ⟨(hs pkts).1.mem_iff.2 he, ?_⟩
    rw [hn]; simpa using h9

namespace Ex

/-- A sort that meets the hypotheses. -/
theorem isort_sortsFE : SortsFE (isort dateCompareFE) := by
  intro l
  refine ⟨isort_perm _ l, isort_sorted dateCompareFE ?_ ?_ l⟩
  · intro a b
    simp only [dateCompareFE_iff]
    by_cases h : a.date = b.date
    · by_cases h' : b.name.map lower < a.name.map lower
      · exact .inr (.inr ⟨h.symm, fun h2 => List.lt_irrefl _ (List.lt_trans h' h2)⟩)
      · exact .inl (.inr ⟨h, h'⟩)
    · rcases Int.lt_or_gt_of_ne h with h | h
      · exact .inl (.inl h)
      · exact .inr (.inl h)
  · intro a b c
    simp only [dateCompareFE_iff]
    rintro (h1 | ⟨h1, h2⟩) (h3 | ⟨h3, h4⟩)
    · exact .inl (by omega)
    · exact .inl (by omega)
    · exact .inl (by omega)
    · exact .inr ⟨by omega, List.not_lt.2 (List.le_trans (List.not_lt.1 h2) (List.not_lt.1 h4))⟩

def tosser : Tosser (List Str) where
  readPkt s p := (s ++ [p], true)
  tossBundle s p := (s ++ [p], true)
  ctrlc _ := false

/-- The newer packet is read after the older one, and the bundle last. -/
example : tossDir tosser (isort dateCompareFE) b!"in" [⟨b!"00000001.pkt", 60, 9⟩, ⟨b!"00000002.pkt", 60, 3⟩] [⟨b!"0000ff3a.mo0", 10, 1⟩] [] =
    ([b!"in/00000002.pkt", b!"in/00000001.pkt", b!"in/0000ff3a.mo0"], true, [b!"in/00000002.pkt", b!"in/00000001.pkt", b!"in/0000ff3a.mo0"]) := by
  decide +kernel

end Ex

/-! ## C60 -/

/-- The pattern can only be used with a nodelist. -/
def NeedsNodelist (p : Pat4) : Prop := p.type = .hub ∨ p.type = .region

/-- What the configuration must be like. -/
structure ConfigOK (cfg : Config) : Prop where
  address : cfg.akas ≠ []
  paths : ∀ (i j : Nat) (a b : Area), i < j → cfg.areas[i]? = some a → cfg.areas[j]? = some b → a.type ≠ .default →
    a.base ≠ none → b.base ≠ none → a.path.map lower ≠ b.path.map lower
  copy : ∀ f ∈ cfg.filters, ∀ tag, Command.copy tag ∈ f.commands → ∃ (i : Nat) (a : Area), cfg.areas[i]? = some a ∧ eqi a.tag tag = true ∧
    a.type = .local ∧ ∀ (j : Nat) (b : Area), j < i → cfg.areas[j]? = some b → eqi b.tag tag = false
  nodelist : cfg.nlConfigured = false → (∀ p ∈ cfg.fileAttachList, ¬ NeedsNodelist p) ∧ (∀ p ∈ cfg.bounceList, ¬ NeedsNodelist p) ∧
    (∀ r ∈ cfg.routes, ¬ NeedsNodelist r.pattern ∧ ¬ NeedsNodelist r.destPat) ∧ (∀ c ∈ cfg.changes, ¬ NeedsNodelist c.pattern) ∧
    ∀ f ∈ cfg.filters, ∀ n p, Command.remap n p ∈ f.commands → ¬ NeedsNodelist p
  filters : ∀ f ∈ cfg.filters, checkFilter cfg f.text = .ok true

theorem check4D_iff (p : Pat4) : check4DPatNodelist p = true ↔ ¬ NeedsNodelist p := by
  unfold check4DPatNodelist NeedsNodelist
  cases p.type <;> simp

theorem checkPaths_iff (l : List Area) : checkPaths l = true ↔
    ∀ (i j : Nat) (a b : Area), i < j → l[i]? = some a → l[j]? = some b → a.type ≠ .default →
    a.base ≠ none → b.base ≠ none → a.path.map lower ≠ b.path.map lower := by
  induction l with
  | nil => simp [checkPaths]
  | cons x l ih =>
    unfold checkPaths
    rw [Bool.and_eq_true, ih]
    constructor
    · rintro ⟨h1, h2⟩ i j a b hij ha hb
      cases j with
      | zero => omega
      | succ j =>
        simp at hb
        cases i with
        | succ i => exact h2 i j a b (by omega) (by simpa using ha) hb
        | zero =>
          simp at ha
          subst ha
          intro t1 t2 t3 hp
          simp only [Bool.or_eq_true, beq_iff_eq, t1, false_or, Option.isNone_iff_eq_none, t2, Bool.not_eq_true', List.any_eq_false] at h1
          have := h1 b (List.mem_of_getElem? hb)
          have hb' : b.base.isSome = true := by cases h : b.base <;> simp_all
          simp only [hb', Bool.true_and] at this
          exact this ((eqi_iff _ _).2 hp)
    · intro h
      refine ⟨?_, fun i j a b hij ha hb => h (i + 1) (j + 1) a b (by omega) (by simpa using ha) (by simpa using hb)⟩
      by_cases t1 : x.type = .default
      · simp [t1]
      · by_cases t2 : x.base = none
        · simp [t2]
        · simp only [Bool.or_eq_true, Bool.not_eq_true', List.any_eq_false]
          right
          intro b hb
          obtain ⟨j, hj⟩ := List.mem_iff_getElem?.1 hb
          intro hc
          simp only [Bool.and_eq_true] at hc
          exact h 0 (j + 1) x b (by omega) rfl (by simpa using hj) t1 t2 (by cases h' : b.base <;> simp_all) ((eqi_iff _ _).1 hc.2)

theorem checkCommand_iff (cfg : Config) (c : Command) : checkCommand cfg c = true ↔
    (∀ tag, c = .copy tag → ∃ (i : Nat) (a : Area), cfg.areas[i]? = some a ∧ eqi a.tag tag = true ∧
      a.type = .local ∧ ∀ (j : Nat) (b : Area), j < i → cfg.areas[j]? = some b → eqi b.tag tag = false) ∧
    (cfg.nlConfigured = false → ∀ n p, c = .remap n p → ¬ NeedsNodelist p) := by
  cases c with
  | copy tag =>
    simp only [checkCommand, Command.copy.injEq, reduceCtorEq, false_imp_iff, implies_true, and_true, forall_eq']
    constructor
    · intro h
      split at h
      · cases h
      · rename_i a ha
        rw [List.find?_eq_some_iff_append] at ha
        obtain ⟨h1, as, bs, h2, h3⟩ := ha
        refine ⟨as.length, a, by rw [h2]; simp, h1, by simpa using h, ?_⟩
        intro j b hj hb
        rw [h2, List.getElem?_append_left hj] at hb
        simpa using h3 b (List.mem_of_getElem? hb)
    · rintro ⟨i, a, h1, h2, h3, h4⟩
      have : cfg.areas.find? (fun a => eqi a.tag tag) = some a := by
        rw [List.find?_eq_some_iff_getElem]
        obtain ⟨hi, he⟩ := List.getElem?_eq_some_iff.1 h1
        refine ⟨h2, i, hi, he, fun j hj => ?_⟩
        rw [h4 j _ hj (List.getElem?_eq_getElem (by omega))]
        rfl
      rw [this]
      simp [h3]
  | remap n p =>
    simp only [checkCommand, Command.remap.injEq, reduceCtorEq, false_imp_iff, implies_true, true_and, Bool.or_eq_true, check4D_iff]
    constructor
    · rintro (h | h) hn n' p' ⟨-, rfl⟩
      · rw [h] at hn; cases hn
      · exact h
    · intro h
      cases hn : cfg.nlConfigured with
      | true => exact .inl rfl
      | false => exact .inr (h hn n p ⟨rfl, rfl⟩)
  | _ => simp [checkCommand]

theorem checkFilters_iff (cfg : Config) (l : List Filter) : checkFilters cfg l = .ok true ↔
    ∀ f ∈ l, checkFilter cfg f.text = .ok true ∧ ∀ c ∈ f.commands, checkCommand cfg c = true := by
  induction l with
  | nil => simp [checkFilters]
  | cons f l ih =>
    unfold checkFilters
    cases hf : checkFilter cfg f.text with
    | error u =>
      simp [bind, Except.bind, hf]
    | ok b =>
      cases b with
      | false => simp [bind, Except.bind, hf, pure, Except.pure]
      | true =>
        by_cases hc : f.commands.all (checkCommand cfg) = true
        · simp only [bind, Except.bind, if_true, hc, ih, List.mem_cons, forall_eq_or_imp, hf, true_and]
          constructor
          · intro h; exact ⟨List.all_eq_true.1 hc, h⟩
          · exact fun h => h.2
        · simp only [bind, Except.bind, if_true, hc, pure, Except.pure]
          constructor
          · intro h; simp at h
          · intro h
            exact absurd (List.all_eq_true.2 (h f (by simp)).2) hc

/-- **C60.** The check of the configuration accepts exactly the configurations that have an address, no two
message areas with the same path (without case), COPY commands only to local areas that exist, no pattern
that needs a nodelist if there is none, and filters that pass the check of filters. -/
theorem checkConfig_iff (cfg : Config) : checkConfig cfg = .ok true ↔ ConfigOK cfg := by
  unfold checkConfig
  by_cases h1 : cfg.akas = []
  · rw [if_pos h1]
    simp only [Except.ok.injEq, Bool.false_eq_true, false_iff]
    exact fun h => h.address h1
  · rw [if_neg h1]
    by_cases h2 : (!cfg.nlConfigured && !(cfg.fileAttachList.all check4DPatNodelist && cfg.bounceList.all check4DPatNodelist &&
        cfg.routes.all (fun r => check4DPatNodelist r.pattern && check4DPatNodelist r.destPat) &&
        cfg.changes.all fun c => check4DPatNodelist c.pattern)) = true
    · rw [if_pos h2]
      simp only [Except.ok.injEq, Bool.false_eq_true, false_iff]
      intro h
      rw [Bool.and_eq_true, Bool.not_eq_true', Bool.not_eq_true'] at h2
      obtain ⟨a, b, c, d, -⟩ := h.nodelist h2.1
      have : (cfg.fileAttachList.all check4DPatNodelist && cfg.bounceList.all check4DPatNodelist &&
        cfg.routes.all (fun r => check4DPatNodelist r.pattern && check4DPatNodelist r.destPat) &&
        cfg.changes.all fun c => check4DPatNodelist c.pattern) = true := by
        simp only [Bool.and_eq_true, List.all_eq_true, check4D_iff]
        exact ⟨⟨⟨a, b⟩, c⟩, d⟩
      rw [this] at h2
      cases h2.2
    · rw [if_neg h2]
      by_cases h3 : checkPaths cfg.areas = true
      · rw [if_neg (by rw [h3]; decide), checkFilters_iff]
        have nl : cfg.nlConfigured = false → (∀ p ∈ cfg.fileAttachList, ¬ NeedsNodelist p) ∧ (∀ p ∈ cfg.bounceList, ¬ NeedsNodelist p) ∧
            (∀ r ∈ cfg.routes, ¬ NeedsNodelist r.pattern ∧ ¬ NeedsNodelist r.destPat) ∧ (∀ c ∈ cfg.changes, ¬ NeedsNodelist c.pattern) := by
          intro hn
          simp only [hn, Bool.not_false, Bool.true_and, Bool.not_eq_true', Bool.not_eq_false, Bool.and_eq_true, List.all_eq_true, check4D_iff] at h2
          exact ⟨h2.1.1.1, h2.1.1.2, h2.1.2, h2.2⟩
        constructor
        · intro h
          refine ⟨h1, (checkPaths_iff _).1 h3, ?_, ?_, fun f hf => (h f hf).1⟩
          · intro f hf tag ht
            exact ((checkCommand_iff cfg _).1 ((h f hf).2 _ ht)).1 tag rfl
          · intro hn
            obtain ⟨a, b, c, d⟩ := nl hn
            exact ⟨a, b, c, d, fun f hf n p hp => ((checkCommand_iff cfg _).1 ((h f hf).2 _ hp)).2 hn n p rfl⟩
        · intro h f hf
          refine ⟨h.filters f hf, fun c hc => (checkCommand_iff cfg c).2 ⟨?_, ?_⟩⟩
          · rintro tag rfl
            exact h.copy f hf tag hc
          · rintro hn n p rfl
            exact (h.nodelist hn).2.2.2.2 f hf n p hc
      · rw [if_pos (by rw [Bool.not_eq_true] at h3; rw [h3]; rfl)]
        simp only [Except.ok.injEq, Bool.false_eq_true, false_iff]
        exact fun h => h3 ((checkPaths_iff _).2 h.paths)

/-- No two message areas of an accepted configuration have the same path, whatever their order, unless one
of them is the area for defaults. -/
theorem checked_paths_differ (cfg : Config) (h : checkConfig cfg = .ok true) (i j : Nat) (a b : Area) (hij : i ≠ j)
    (ha : cfg.areas[i]? = some a) (hb : cfg.areas[j]? = some b) (ta : a.type ≠ .default) (tb : b.type ≠ .default)
    (ma : a.base ≠ none) (mb : b.base ≠ none) : eqi a.path b.path = false := by
  have := ((checkConfig_iff cfg).1 h).paths
  have hne : a.path.map lower ≠ b.path.map lower := by
    rcases Nat.lt_or_gt_of_ne hij with hl | hl
    · exact this i j a b hl ha hb ta ma mb
    · exact fun e => this j i b a hl hb ha tb mb ma e.symm
  cases he : eqi a.path b.path with
  | false => rfl
  | true => exact absurd ((eqi_iff _ _).1 he) hne

namespace Ex

/-- A local area. -/
def saved : Area := { area b!"saved" 0 [] with type := .local, path := b!"saved" }

def copying : Filter := ⟨b!"TYPE=ECHOMAIL", [.copy b!"SAVED"]⟩

/-- An accepted configuration with a COPY command. -/
example : checkConfig { cfg [{ testArea with path := b!"test" }, saved] with filters := [copying] } = .ok true := by decide +kernel

/-- Two areas with the same tag are accepted; the second gets no messages. -/
theorem same_tag_accepted :
    checkConfig (cfg [{ testArea with path := b!"a" }, { testArea with path := b!"b" }]) = .ok true := by decide +kernel

end Ex

end CM
