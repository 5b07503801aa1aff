import Verif.Lemmas.Pattern
/-! # Properties of node patterns, routing and flavour changes (C03, C04, C05, C62) -/

set_option linter.unusedSimpArgs false

namespace CM

/-! ## C03 -/

/-- C03. A pattern component matches a number exactly when it is empty or matches the decimal
rendering of the number. -/
theorem nodeCompare_iff (pat : Str) (num : UInt16) (hp : NoNul pat) :
    nodeCompare pat num = true ↔ pat = [] ∨ CompMatch pat (dec num.toNat) := by
  unfold nodeCompare
  split
  · simp [*]
  · rename_i h
    rw [nodeCompareLoop_iff _ _ (dec_no_nul _) hp]
    simp [h]

/-- C03. If `*` is only used as last character this is shell-style wildcard matching. -/
theorem nodeCompare_iff_shell (pat : Str) (num : UInt16) (hp : NoNul pat) (hne : pat ≠ [])
    (hs : StarLast pat) :
    nodeCompare pat num = true ↔ ShellMatch pat (dec num.toNat) := by
  rw [nodeCompare_iff _ _ hp, compMatch_iff_shell _ _ hs]; simp [hne]

/-- C03 (limits). Anything after a `*` is ignored: `1*5` matches 12, which is not what a wildcard
`*` means. -/
theorem nodeCompare_ignores_after_star :
    nodeCompare b!"1*5" 12 = true ∧ ¬ ShellMatch b!"1*5" (dec 12) := by
  refine ⟨by decide, ?_⟩
  intro h
  have key : ∀ p t, ShellMatch p t → p.getLast? = some 53 → t.getLast? = some 53 := by
    intro p t h
    induction h with
    | nil => simp
    | star p s t _ ih =>
      intro h
      cases p with
      | nil => simp at h
      | cons a p =>
        have := ih (by simpa using h)
        simp [this]
    | any p c t _ ih =>
      intro h
      cases p with
      | nil => simp at h
      | cons a p =>
        have := ih (by simpa using h)
        cases t with
        | nil => simp at this
        | cons x t => simpa using this
    | lit c p t _ _ hm ih =>
      intro h
      cases p with
      | nil => cases hm; simpa using h
      | cons a p =>
        have := ih (by simpa using h)
        cases t with
        | nil => simp at this
        | cons x t => simpa using this
  exact absurd (key _ _ h (by decide)) (by decide)

/-- C03. A number written in decimal matches only itself. -/
theorem nodeCompare_dec (k : UInt16) (num : UInt16) :
    nodeCompare (dec k.toNat) num = true ↔ num = k := by
  rw [nodeCompare_iff _ _ (dec_no_nul _), compMatch_literal _ _ (dec_not_wild _)]
  constructor
  · rintro (h | h)
    · exact absurd h (dec_ne_nil _)
    · exact UInt16.toNat_inj.1 (dec_inj h).symm
  · rintro rfl; exact Or.inr rfl

/-- C03. A component match over a whole 4D pattern: the zone is only checked if the node has one. -/
theorem compare4DPat_pattern_iff (nl : Nodelist) (p : Pat4) (n : Node4D) (ht : p.type = .pattern)
    (h1 : NoNul p.zone) (h2 : NoNul p.net) (h3 : NoNul p.node) (h4 : NoNul p.point) :
    compare4DPat nl p n = true ↔
      (n.zone = 0 ∨ p.zone = [] ∨ CompMatch p.zone (dec n.zone.toNat)) ∧
      (p.net = [] ∨ CompMatch p.net (dec n.net.toNat)) ∧
      (p.node = [] ∨ CompMatch p.node (dec n.node.toNat)) ∧
      (p.point = [] ∨ CompMatch p.point (dec n.point.toNat)) := by
  simp only [compare4DPat, ht, Bool.and_eq_true, Bool.or_eq_true, nodeCompare_iff _ _ h1,
    nodeCompare_iff _ _ h2, nodeCompare_iff _ _ h3, nodeCompare_iff _ _ h4, beq_iff_eq, and_assoc]

/-- C03. An address written out as a pattern matches exactly the addresses that compare equal to
it (for a pattern with nonzero zone). -/
theorem compare4DPat_literal (nl : Nodelist) (a n : Node4D) (ha : a.zone ≠ 0) :
    compare4DPat nl ⟨.pattern, dec a.zone.toNat, dec a.net.toNat, dec a.node.toNat,
      dec a.point.toNat⟩ n = true ↔ compare4D a n = 0 := by
  have e : compare4D a n = 0 ↔ a.net = n.net ∧ a.node = n.node ∧ a.point = n.point ∧
      (a.zone = n.zone ∨ n.zone = 0) := by
    unfold compare4D
    have l : ∀ a b : UInt16, a < b ↔ a.toNat < b.toNat := fun _ _ => Iff.rfl
    simp only [l, ← UInt16.toNat_inj, GT.gt, ne_eq, UInt16.toNat_ofNat] at ha ⊢
    repeat' split
    all_goals (constructor <;> intro h <;> omega)
  rw [e]
  simp only [compare4DPat, Bool.and_eq_true, Bool.or_eq_true, nodeCompare_dec, beq_iff_eq]
  constructor
  · rintro ⟨⟨⟨h1, h2⟩, h3⟩, h4⟩
    exact ⟨h2.symm, h3.symm, h4.symm, h1.elim Or.inr (fun h => Or.inl h.symm)⟩
  · rintro ⟨h1, h2, h3, h4⟩
    exact ⟨⟨⟨h4.elim (fun h => Or.inr h.symm) Or.inl, h1.symm⟩, h2.symm⟩, h3.symm⟩

/-- C03. The node types `NET` and `NODE` ignore the lower components. -/
theorem compare4DPat_net_ignores (nl : Nodelist) (p : Pat4) (n m : Node4D) (ht : p.type = .net)
    (hz : n.zone = m.zone) (hn : n.net = m.net) : compare4DPat nl p n = compare4DPat nl p m := by
  simp [compare4DPat, ht, hz, hn]

/-- A text component of a pattern accepts a number. -/
def CompOk (pat : Str) (k : UInt16) : Prop := pat = [] ∨ CompMatch pat (dec k.toNat)

/-- C03. What each kind of pattern matches: the zone (unless the address has none) and the parts the
kind names; `ZONE` always looks at the zone; `REGION` and `HUB` ask the nodelist about the address
without its point and fail if it has no answer. -/
theorem compare4DPat_iff (nl : Nodelist) (p : Pat4) (n : Node4D)
    (h1 : NoNul p.zone) (h2 : NoNul p.net) (h3 : NoNul p.node) (h4 : NoNul p.point) :
    compare4DPat nl p n = true ↔
      match p.type with
      | .zone => CompOk p.zone n.zone
      | .net => (n.zone = 0 ∨ CompOk p.zone n.zone) ∧ CompOk p.net n.net
      | .node => (n.zone = 0 ∨ CompOk p.zone n.zone) ∧ CompOk p.net n.net ∧ CompOk p.node n.node
      | .pattern => (n.zone = 0 ∨ CompOk p.zone n.zone) ∧ CompOk p.net n.net ∧ CompOk p.node n.node ∧
          CompOk p.point n.point
      | .region => nl.isOpen = true ∧ nl.region ⟨n.zone, n.net, n.node, 0⟩ ≠ -1 ∧
          (n.zone = 0 ∨ CompOk p.zone n.zone) ∧
          CompOk p.net (toU16 (nl.region ⟨n.zone, n.net, n.node, 0⟩))
      | .hub => nl.isOpen = true ∧ nl.hub ⟨n.zone, n.net, n.node, 0⟩ ≠ -1 ∧
          (n.zone = 0 ∨ CompOk p.zone n.zone) ∧ CompOk p.net n.net ∧
          CompOk p.node (toU16 (nl.hub ⟨n.zone, n.net, n.node, 0⟩)) := by
  unfold compare4DPat CompOk
  cases p.type <;> simp only [Bool.and_eq_true, Bool.or_eq_true, nodeCompare_iff _ _ h1,
    nodeCompare_iff _ _ h2, nodeCompare_iff _ _ h3, nodeCompare_iff _ _ h4, beq_iff_eq, and_assoc]
  all_goals
    cases ho : nl.isOpen
    · simp
    · simp only [Bool.not_true, Bool.false_eq_true, if_false, true_and]
      split
      · rename_i h; simp [h]
      · rename_i h; simp [h, nodeCompare_iff _ _ h1, nodeCompare_iff _ _ h2, nodeCompare_iff _ _ h3, and_assoc]

/-- C03. `REGION` and `HUB` patterns never match without an open nodelist. -/
theorem compare4DPat_needs_nodelist (nl : Nodelist) (p : Pat4) (n : Node4D)
    (ht : p.type = .region ∨ p.type = .hub) (hc : nl.isOpen = false) :
    compare4DPat nl p n = false := by
  rcases ht with ht | ht <;> simp [compare4DPat, ht, hc]

example : nodeCompare b!"5?2*" 5020 = true ∧ nodeCompare b!"5?3*" 5020 = false ∧
    NoNul b!"5?2*" ∧ StarLast b!"5?2*" := by
  refine ⟨by decide, by decide, by decide, ?_⟩
  simp [StarLast]

/-! ## C03/C62: parsing patterns -/

/-- C62. A pattern text `[zone:][net/][node.]last` with nonempty parts has the documented meaning:
missing parts are `*`, a missing point is 0. -/
theorem rawParse4DPat_text (ty : PatType) (t : AddrText) (h : t.PatChars) (hs : t.text ≠ b!"*") :
    rawParse4DPat ty t.text = .ok (some (t.patMeaning ty)) := by
  obtain ⟨z, n, f, l⟩ := t
  obtain ⟨hz, hn, hf, hl, hlc⟩ := h
  simp only at hz hn hf hl hlc
  unfold rawParse4DPat
  simp only
  rw [if_neg (by simpa using hs)]
  simp only [AddrText.text]
  cases z with
  | none =>
    cases n with
    | none =>
      cases f with
      | none =>
        simp only [sec, List.nil_append]
        obtain ⟨k, hk⟩ := rpLoop_run { pat := ⟨ty, b!"*", b!"*", b!"*", b!"*"⟩ } l hlc hl rfl
        rw [hk]
        simp [rpFin, useTemp, AddrText.patMeaning, bind, Except.bind, Except.map]
      | some f =>
        obtain ⟨hf, hfc⟩ := hf f rfl
        simp only [sec, List.nil_append, List.append_assoc, List.cons_append]
        rw [rpRunF _ f _ hfc hf rfl rfl]
        obtain ⟨k, hk⟩ := rpLoop_run { pat := ⟨ty, b!"*", b!"*", f.take 9, []⟩, temp := some (f.take 9), gotNode := true } l hlc hl rfl
        rw [hk]
        simp [rpFin, useTemp, AddrText.patMeaning, bind, Except.bind, Except.map]
    | some n =>
      obtain ⟨hn, hnc⟩ := hn n rfl
      cases f with
      | none =>
        simp only [sec, List.nil_append, List.append_nil, List.append_assoc, List.cons_append]
        rw [rpRunN _ n _ hnc hn rfl ⟨rfl, rfl⟩]
        obtain ⟨k, hk⟩ := rpLoop_run { pat := ⟨ty, b!"*", n.take 9, b!"*", b!"*"⟩, temp := some (n.take 9), gotNet := true } l hlc hl rfl
        rw [hk]
        simp [rpFin, useTemp, AddrText.patMeaning, bind, Except.bind, Except.map]
      | some f =>
        obtain ⟨hf, hfc⟩ := hf f rfl
        simp only [sec, List.nil_append, List.append_nil, List.append_assoc, List.cons_append]
        rw [rpRunN _ n _ hnc hn rfl ⟨rfl, rfl⟩, rpRunF _ f _ hfc hf rfl rfl]
        obtain ⟨k, hk⟩ := rpLoop_run { pat := ⟨ty, b!"*", n.take 9, f.take 9, []⟩, temp := some (f.take 9), gotNet := true, gotNode := true } l hlc hl rfl
        rw [hk]
        simp [rpFin, useTemp, AddrText.patMeaning, bind, Except.bind, Except.map]
  | some z =>
    obtain ⟨hz, hzc⟩ := hz z rfl
    cases n with
    | none =>
      cases f with
      | none =>
        simp only [sec, List.nil_append, List.append_nil, List.append_assoc, List.cons_append]
        rw [rpRunZ _ z _ hzc hz rfl ⟨rfl, rfl, rfl⟩]
        obtain ⟨k, hk⟩ := rpLoop_run { pat := ⟨ty, z.take 9, b!"*", b!"*", b!"*"⟩, temp := some (z.take 9), gotZone := true } l hlc hl rfl
        rw [hk]
        simp [rpFin, useTemp, AddrText.patMeaning, bind, Except.bind, Except.map]
      | some f =>
        obtain ⟨hf, hfc⟩ := hf f rfl
        simp only [sec, List.nil_append, List.append_nil, List.append_assoc, List.cons_append]
        rw [rpRunZ _ z _ hzc hz rfl ⟨rfl, rfl, rfl⟩, rpRunF _ f _ hfc hf rfl rfl]
        obtain ⟨k, hk⟩ := rpLoop_run { pat := ⟨ty, z.take 9, b!"*", f.take 9, []⟩, temp := some (f.take 9), gotZone := true, gotNode := true } l hlc hl rfl
        rw [hk]
        simp [rpFin, useTemp, AddrText.patMeaning, bind, Except.bind, Except.map]
    | some n =>
      obtain ⟨hn, hnc⟩ := hn n rfl
      cases f with
      | none =>
        simp only [sec, List.nil_append, List.append_nil, List.append_assoc, List.cons_append]
        rw [rpRunZ _ z _ hzc hz rfl ⟨rfl, rfl, rfl⟩, rpRunN _ n _ hnc hn rfl ⟨rfl, rfl⟩]
        obtain ⟨k, hk⟩ := rpLoop_run { pat := ⟨ty, z.take 9, n.take 9, b!"*", b!"*"⟩, temp := some (n.take 9), gotZone := true, gotNet := true } l hlc hl rfl
        rw [hk]
        simp [rpFin, useTemp, AddrText.patMeaning, bind, Except.bind, Except.map]
      | some f =>
        obtain ⟨hf, hfc⟩ := hf f rfl
        simp only [sec, List.nil_append, List.append_nil, List.append_assoc, List.cons_append]
        rw [rpRunZ _ z _ hzc hz rfl ⟨rfl, rfl, rfl⟩, rpRunN _ n _ hnc hn rfl ⟨rfl, rfl⟩,
          rpRunF _ f _ hfc hf rfl rfl]
        obtain ⟨k, hk⟩ := rpLoop_run { pat := ⟨ty, z.take 9, n.take 9, f.take 9, []⟩, temp := some (f.take 9), gotZone := true, gotNet := true, gotNode := true } l hlc hl rfl
        rw [hk]
        simp [rpFin, useTemp, AddrText.patMeaning, bind, Except.bind, Except.map]

/-- C62 (violated for texts with an empty part). The component buffer is not cleared between
components: `2:` means net 2 of zone 2, and `2:/5` means node 5 of net 2. -/
theorem rawParse4DPat_stale :
    rawParse4DPat .pattern b!"2:" = .ok (some ⟨.pattern, b!"2", b!"2", b!"*", b!"*"⟩) ∧
    rawParse4DPat .pattern b!"2:/5" = .ok (some ⟨.pattern, b!"2", b!"2", b!"5", b!"0"⟩) := by
  decide

/-- C62 (violated). A pattern text whose first part is empty reads an uninitialised buffer. -/
theorem rawParse4DPat_uninit :
    rawParse4DPat .pattern b!":5" = .error .uninit ∧ rawParse4DPat .pattern [] = .error .uninit := by
  decide

/-- C62. Whatever the text, an accepted pattern never overflows its `char[10]` components and is
made of pattern characters. -/
theorem rawParse4DPat_bounds (ty : PatType) (s : Str) (p : Pat4)
    (h : rawParse4DPat ty s = .ok (some p)) :
    p.zone.length ≤ 9 ∧ p.net.length ≤ 9 ∧ p.node.length ≤ 9 ∧ p.point.length ≤ 9 := by
  have inv : ∀ (s : Str) (st st' : RP),
      (st.pat.zone.length ≤ 9 ∧ st.pat.net.length ≤ 9 ∧ st.pat.node.length ≤ 9 ∧
        st.pat.point.length ≤ 9 ∧ (∀ t, st.temp = some t → t.length ≤ 9)) →
      rpLoop st s = .ok (some st') →
      (st'.pat.zone.length ≤ 9 ∧ st'.pat.net.length ≤ 9 ∧ st'.pat.node.length ≤ 9 ∧
        st'.pat.point.length ≤ 9 ∧ (∀ t, st'.temp = some t → t.length ≤ 9)) := by
    intro s
    induction s with
    | nil => intro st st' h e; simp [rpLoop] at e; subst e; exact h
    | cons c s ih =>
      intro st st' h e
      simp only [rpLoop] at e
      obtain ⟨h1, h2, h3, h4, h5⟩ := h
      cases hst : rpStep st c with
      | error x => simp [hst] at e
      | ok o =>
        cases o with
        | none => simp [hst] at e
        | some u =>
          simp only [hst] at e
          refine ih u st' ?_ e
          unfold rpStep at hst
          split at hst
          · split at hst
            · simp at hst
            · cases ht : st.temp with
              | none => simp [useTemp, ht, bind, Except.bind] at hst
              | some t =>
                simp [useTemp, ht, bind, Except.bind] at hst; subst hst
                simpa [h1, h2, h3, h4, ht] using h5 t ht
          split at hst
          · split at hst
            · simp at hst
            · cases ht : st.temp with
              | none => simp [useTemp, ht, bind, Except.bind] at hst
              | some t =>
                simp [useTemp, ht, bind, Except.bind] at hst; subst hst
                simpa [h1, h2, h3, h4, ht] using h5 t ht
          split at hst
          · split at hst
            · simp at hst
            · cases ht : st.temp with
              | none => simp [useTemp, ht, bind, Except.bind] at hst
              | some t =>
                simp [useTemp, ht, bind, Except.bind] at hst; subst hst
                simpa [h1, h2, h3, h4, ht] using h5 t ht
          split at hst
          · split at hst
            · simp at hst; subst hst
              refine ⟨h1, h2, h3, h4, ?_⟩
              intro t ht; simp at ht; subst ht; simp; omega
            · simp at hst; subst hst; exact ⟨h1, h2, h3, h4, h5⟩
          · simp at hst
  unfold rawParse4DPat at h
  simp only at h
  split at h
  · simp at h; subst h; simp
  · cases hl : rpLoop { pat := ⟨ty, b!"*", b!"*", b!"*", b!"*"⟩ } s with
    | error e => simp [hl] at h
    | ok o =>
      cases o with
      | none => simp [hl] at h
      | some st =>
        obtain ⟨h1, h2, h3, h4, h5⟩ := inv s _ st (by simp) hl
        simp only [hl, rpFin] at h
        cases ht : st.temp with
        | none => revert h; simp [useTemp, ht, bind, Except.bind, Except.map]
        | some t =>
          have := h5 t ht
          revert h
          simp only [useTemp, ht, bind, Except.bind]
          split
          · simp [Except.map]; rintro rfl; simp [*]
          · split
            · simp [Except.map]; rintro rfl; simp [*]
            · simp [Except.map]; rintro rfl; simp [*]

/-- A printable pattern: all components it prints are nonempty, at most 9 pattern characters. -/
def Pat4.Printable (p : Pat4) : Prop :=
  let okc (s : Str) := s ≠ [] ∧ s.length ≤ 9 ∧ ∀ c ∈ s, isPatChar c = true
  match p.type with
  | .pattern => okc p.zone ∧ okc p.net ∧ okc p.node ∧ okc p.point
  | .zone => okc p.zone ∧ p.net = [] ∧ p.node = [] ∧ p.point = []
  | .region => okc p.zone ∧ okc p.net ∧ p.node = [] ∧ p.point = []
  | .net => okc p.zone ∧ okc p.net ∧ p.node = [] ∧ p.point = []
  | .hub => okc p.zone ∧ okc p.net ∧ okc p.node ∧ p.point = []
  | .node => okc p.zone ∧ okc p.net ∧ okc p.node ∧ p.point = []

/-- C62. Printing a pattern of any kind and parsing it gives the same pattern. -/
theorem parse4DPat_print4DPat (p : Pat4) (h : p.Printable) :
    parse4DPat (print4DPat p) = .ok (some p) := by
  obtain ⟨ty, z, n, f, pt⟩ := p
  have len1 : ∀ {a b : Str} {c : UInt8}, a ≠ [] → a ++ [c] ++ b ≠ b!"*" := by
    intro a b c ha h
    have := congrArg List.length h
    have := List.length_pos_iff.2 ha
    simp at *; omega
  cases ty with
  | pattern =>
    obtain ⟨⟨z1, z2, z3⟩, ⟨n1, n2, n3⟩, ⟨f1, f2, f3⟩, ⟨p1, p2, p3⟩⟩ := h
    have hz : ∃ a t, z = a :: t := List.exists_cons_of_ne_nil z1
    obtain ⟨a, t, rfl⟩ := hz
    have ha : isPatChar a = true := z3 a (by simp)
    have hal : ∀ x : UInt8, isPatChar x = true → lower x ≠ 122 ∧ lower x ≠ 114 ∧ lower x ≠ 110 ∧ lower x ≠ 104 := by
      decide +kernel
    obtain ⟨l1, l2, l3, l4⟩ := hal a ha
    have e : print4DPat ⟨.pattern, a :: t, n, f, pt⟩ =
        (AddrText.mk (some (a :: t)) (some n) (some f) pt).text := by
      simp [print4DPat, AddrText.text, sec]
    have hne : (AddrText.mk (some (a :: t)) (some n) (some f) pt).text ≠ b!"*" := by
      intro h; have := congrArg List.length h; simp [AddrText.text, sec] at this
    have nn : ∀ (b : Str) (k : Nat) (c : UInt8) , 0 < k → lower a ≠ lower c →
        eqin ((AddrText.mk (some (a :: t)) (some n) (some f) pt).text) (c :: b) k = false := by
      intro b k c hk hl
      obtain ⟨k, rfl⟩ : ∃ k', k = k' + 1 := ⟨k - 1, by omega⟩
      simp [eqin, AddrText.text, sec, hl]
    unfold parse4DPat
    rw [e, nn _ 5 90 (by omega) (by simpa [lower] using l1), nn _ 7 82 (by omega) (by simpa [lower] using l2),
      nn _ 4 78 (by omega) (by simpa [lower] using l3), nn _ 4 72 (by omega) (by simpa [lower] using l4),
      nn _ 5 78 (by omega) (by simpa [lower] using l3)]
    simp only [Bool.false_eq_true, if_false]
    rw [rawParse4DPat_text .pattern _ ⟨by simpa using z3, by simpa using ⟨n1, n3⟩,
      by simpa using ⟨f1, f3⟩, p1, p3⟩ hne]
    simp only [AddrText.patMeaning]
    simp only [List.length_cons] at z2
    simp [List.take_of_length_le n2, List.take_of_length_le f2, List.take_of_length_le p2,
      List.take_of_length_le (show t.length ≤ 8 by omega)]
  | zone =>
    obtain ⟨⟨z1, z2, z3⟩, rfl, rfl, rfl⟩ := h
    have e : parse4DPat (print4DPat ⟨.zone, z, [], [], []⟩) =
        (rawParse4DPat .zone z).map (Option.map fun p =>
          { p with zone := p.node, net := [], node := [], point := [] }) := by
      have : eqin (b!"ZONE " ++ z) b!"ZONE " 5 = true := by simp [eqin]
      simp only [parse4DPat, print4DPat, this, if_true]; simp
    rw [e]
    by_cases hs : z = b!"*"
    · subst hs; rfl
    · have := rawParse4DPat_text .zone ⟨none, none, none, z⟩ ⟨by simp, by simp, by simp, z1, z3⟩
        (by simpa [AddrText.text, sec] using hs)
      simp only [AddrText.text, sec, List.nil_append] at this
      rw [this]
      simp [AddrText.patMeaning, Except.map, List.take_of_length_le z2]
  | region =>
    obtain ⟨⟨z1, z2, z3⟩, ⟨n1, n2, n3⟩, rfl, rfl⟩ := h
    have e : parse4DPat (print4DPat ⟨.region, z, n, [], []⟩) =
        (rawParse4DPat .region (z ++ b!":" ++ n)).map (Option.map fun p =>
          { p with node := [], point := [] }) := by
      have h1 : eqin (b!"REGION " ++ z ++ b!":" ++ n) b!"ZONE " 5 = false := by simp [eqin, lower]
      have h2 : eqin (b!"REGION " ++ z ++ b!":" ++ n) b!"REGION " 7 = true := by simp [eqin]
      simp only [parse4DPat, print4DPat, h1, h2, if_true]; simp
    have := rawParse4DPat_text .region ⟨some z, none, none, n⟩ ⟨by simpa using ⟨z1, z3⟩, by simp, by simp, n1, n3⟩
        (by simpa [AddrText.text, sec] using len1 (a := z) (b := n) (c := 58) z1)
    simp only [AddrText.text, sec, List.append_nil] at this
    rw [e, this]
    simp [AddrText.patMeaning, Except.map, List.take_of_length_le z2, List.take_of_length_le n2]
  | net =>
    obtain ⟨⟨z1, z2, z3⟩, ⟨n1, n2, n3⟩, rfl, rfl⟩ := h
    have e : parse4DPat (print4DPat ⟨.net, z, n, [], []⟩) =
        (rawParse4DPat .net (z ++ b!":" ++ n)).map (Option.map fun p =>
          { p with node := [], point := [] }) := by
      have h1 : eqin (b!"NET " ++ z ++ b!":" ++ n) b!"ZONE " 5 = false := by simp [eqin, lower]
      have h2 : eqin (b!"NET " ++ z ++ b!":" ++ n) b!"REGION " 7 = false := by simp [eqin, lower]
      have h3 : eqin (b!"NET " ++ z ++ b!":" ++ n) b!"NET " 4 = true := by simp [eqin]
      simp only [parse4DPat, print4DPat, h1, h2, h3, if_true]; simp
    have := rawParse4DPat_text .net ⟨some z, none, none, n⟩ ⟨by simpa using ⟨z1, z3⟩, by simp, by simp, n1, n3⟩
        (by simpa [AddrText.text, sec] using len1 (a := z) (b := n) (c := 58) z1)
    simp only [AddrText.text, sec, List.append_nil] at this
    rw [e, this]
    simp [AddrText.patMeaning, Except.map, List.take_of_length_le z2, List.take_of_length_le n2]
  | hub =>
    obtain ⟨⟨z1, z2, z3⟩, ⟨n1, n2, n3⟩, ⟨f1, f2, f3⟩, rfl⟩ := h
    have e : parse4DPat (print4DPat ⟨.hub, z, n, f, []⟩) =
        (rawParse4DPat .hub (z ++ b!":" ++ n ++ b!"/" ++ f)).map (Option.map fun p =>
          { p with point := [] }) := by
      have h1 : eqin (b!"HUB " ++ z ++ b!":" ++ n ++ b!"/" ++ f) b!"ZONE " 5 = false := by simp [eqin, lower]
      have h2 : eqin (b!"HUB " ++ z ++ b!":" ++ n ++ b!"/" ++ f) b!"REGION " 7 = false := by simp [eqin, lower]
      have h3 : eqin (b!"HUB " ++ z ++ b!":" ++ n ++ b!"/" ++ f) b!"NET " 4 = false := by simp [eqin, lower]
      have h4 : eqin (b!"HUB " ++ z ++ b!":" ++ n ++ b!"/" ++ f) b!"HUB " 4 = true := by simp [eqin]
      simp only [parse4DPat, print4DPat, h1, h2, h3, h4, if_true]; simp
    have := rawParse4DPat_text .hub ⟨some z, some n, none, f⟩ ⟨by simpa using ⟨z1, z3⟩, by simpa using ⟨n1, n3⟩, by simp, f1, f3⟩
        (by simpa [AddrText.text, sec] using len1 (a := z) (b := n ++ 47 :: f) (c := 58) z1)
    simp only [AddrText.text, sec, List.append_nil] at this
    rw [e]
    simp only [List.append_assoc] at this ⊢
    rw [this]
    simp [AddrText.patMeaning, Except.map, List.take_of_length_le z2, List.take_of_length_le n2, List.take_of_length_le f2]
  | node =>
    obtain ⟨⟨z1, z2, z3⟩, ⟨n1, n2, n3⟩, ⟨f1, f2, f3⟩, rfl⟩ := h
    have e : parse4DPat (print4DPat ⟨.node, z, n, f, []⟩) =
        (rawParse4DPat .node (z ++ b!":" ++ n ++ b!"/" ++ f)).map (Option.map fun p =>
          { p with point := [] }) := by
      have h1 : eqin (b!"NODE " ++ z ++ b!":" ++ n ++ b!"/" ++ f) b!"ZONE " 5 = false := by simp [eqin, lower]
      have h2 : eqin (b!"NODE " ++ z ++ b!":" ++ n ++ b!"/" ++ f) b!"REGION " 7 = false := by simp [eqin, lower]
      have h3 : eqin (b!"NODE " ++ z ++ b!":" ++ n ++ b!"/" ++ f) b!"NET " 4 = false := by simp [eqin, lower]
      have h4 : eqin (b!"NODE " ++ z ++ b!":" ++ n ++ b!"/" ++ f) b!"HUB " 4 = false := by simp [eqin, lower]
      have h5 : eqin (b!"NODE " ++ z ++ b!":" ++ n ++ b!"/" ++ f) b!"NODE " 5 = true := by simp [eqin]
      simp only [parse4DPat, print4DPat, h1, h2, h3, h4, h5, if_true]; simp
    have := rawParse4DPat_text .node ⟨some z, some n, none, f⟩ ⟨by simpa using ⟨z1, z3⟩, by simpa using ⟨n1, n3⟩, by simp, f1, f3⟩
        (by simpa [AddrText.text, sec] using len1 (a := z) (b := n ++ 47 :: f) (c := 58) z1)
    simp only [AddrText.text, sec, List.append_nil] at this
    rw [e]
    simp only [List.append_assoc] at this ⊢
    rw [this]
    simp [AddrText.patMeaning, Except.map, List.take_of_length_le z2, List.take_of_length_le n2, List.take_of_length_le f2]

example : (Pat4.mk .hub b!"2" b!"50?0" b!"*" []).Printable := by
  simp [Pat4.Printable, isPatChar, isDigit]
example : parse4DPat b!"HUB 2:50?0/*" = .ok (some ⟨.hub, b!"2", b!"50?0", b!"*", []⟩) := by decide

/-! ## C04: routing -/

/-- C04. Which route is used: the first one whose pattern matches. -/
theorem routeNetmail_first_match (nl : Nodelist) (routes : List Route) (changes : List Change)
    (dest d : Node4D) (pri pri' : Pri) (aka : Node4D)
    (h : routeNetmail nl routes changes dest pri = some (d, pri', aka)) :
    ∃ before r after, routes = before ++ r :: after ∧
      (∀ q ∈ before, compare4DPat nl q.pattern dest = false) ∧
      compare4DPat nl r.pattern dest = true ∧ aka = r.aka ∧
      (let hop := if pri = .normal then expandNodePat nl r.destPat dest else dest
       d.zone = hop.zone ∧ d.net = hop.net ∧ d.node = hop.node ∧
       pri' = changeType nl changes hop pri ∧
       d.point = if pri' = .direct ∨ pri' = .crash then 0 else hop.point) := by
  unfold routeNetmail at h
  cases hf : routes.find? (fun r => compare4DPat nl r.pattern dest) with
  | none => simp [hf] at h
  | some r =>
    obtain ⟨hr, before, after, he, hb⟩ := List.find?_eq_some_iff_append.1 hf
    simp only [hf, Option.some.injEq, Prod.mk.injEq] at h
    obtain ⟨rfl, rfl, rfl⟩ := h
    refine ⟨before, r, after, he, by simpa using hb, hr, rfl, ?_⟩
    simp only
    generalize (if pri = .normal then expandNodePat nl r.destPat dest else dest) = hop
    generalize changeType nl changes hop pri = np
    by_cases h1 : hop.point = 0 <;> by_cases h2 : np = .direct ∨ np = .crash <;> simp [h1, h2]

/-- C04. A netmail is unroutable exactly when no route pattern matches its destination. -/
theorem routeNetmail_none_iff (nl : Nodelist) (routes : List Route) (changes : List Change)
    (dest : Node4D) (pri : Pri) :
    routeNetmail nl routes changes dest pri = none ↔
      ∀ r ∈ routes, compare4DPat nl r.pattern dest = false := by
  unfold routeNetmail
  cases hf : routes.find? (fun r => compare4DPat nl r.pattern dest) with
  | none => simpa using hf
  | some r =>
    simp
    exact ⟨r, List.mem_of_find?_eq_some hf, by simpa using List.find?_some hf⟩

/-- C04. Mail is never sent direct or crash to a point. -/
theorem routeNetmail_no_direct_point (nl : Nodelist) (routes : List Route) (changes : List Change)
    (dest d : Node4D) (pri pri' : Pri) (aka : Node4D)
    (h : routeNetmail nl routes changes dest pri = some (d, pri', aka))
    (hp : pri' = .direct ∨ pri' = .crash) : d.point = 0 := by
  obtain ⟨_, _, _, _, _, _, _, _, _, _, _, h⟩ := routeNetmail_first_match nl routes changes dest d pri pri' aka h
  rw [h, if_pos hp]

theorem isWildcard_dec (k : Nat) : isWildcard (dec k) = false := by
  simp only [isWildcard, List.any_eq_false, Bool.or_eq_true, beq_iff_eq, not_or]
  exact fun c hc => dec_not_wild k c hc

theorem atoi16_dec (k : UInt16) : atoi16 (dec k.toNat) = k := by
  have := atoi_dec k.toNat [] (by simp)
  simp only [List.append_nil] at this
  simp only [atoi16, this, toU16]
  apply UInt16.toNat_inj.1
  have := k.toNat_lt
  simp; omega

/-- C04. Each component of the next hop is the written number, or the corresponding component of
the original destination if the pattern has `*` there. -/
theorem expandNodePat_components (nl : Nodelist) (dest : Node4D)
    (z n f p : Option UInt16) :
    let txt (o : Option UInt16) : Str := match o with | none => b!"*" | some k => dec k.toNat
    expandNodePat nl ⟨.pattern, txt z, txt n, txt f, txt p⟩ dest =
      ⟨z.getD dest.zone, n.getD dest.net, f.getD dest.node, p.getD dest.point⟩ := by
  have w : isWildcard b!"*" = true := by decide
  simp only [expandNodePat]
  cases z <;> cases n <;> cases f <;> cases p <;>
    simp [w, isWildcard_dec, atoi16_dec]

/-- C04. The next hop of the keyword destinations: the zone, region or net host, the hub the nodelist
names, or the boss node of the destination. -/
theorem expandNodePat_keywords (nl : Nodelist) (p : Pat4) (d : Node4D) :
    (p.type = .zone → expandNodePat nl p d = ⟨d.zone, d.zone, 0, 0⟩) ∧
    (p.type = .net → expandNodePat nl p d = ⟨d.zone, d.net, 0, 0⟩) ∧
    (p.type = .node → expandNodePat nl p d = ⟨d.zone, d.net, d.node, 0⟩) ∧
    (∀ r : UInt16, p.type = .region → nl.isOpen = true → r ≠ 0 →
      nl.region ⟨d.zone, d.net, d.node, 0⟩ = r.toNat → expandNodePat nl p d = ⟨d.zone, r, 0, 0⟩) ∧
    (∀ r : UInt16, p.type = .hub → nl.isOpen = true →
      nl.hub ⟨d.zone, d.net, d.node, 0⟩ = r.toNat → expandNodePat nl p d = ⟨d.zone, d.net, r, 0⟩) := by
  have e : ∀ r : UInt16, toU16 (r.toNat : Int) = r := by
    intro r
    apply UInt16.toNat_inj.1
    have := r.toNat_lt
    simp [toU16]; omega
  refine ⟨fun h => by simp [expandNodePat, h], fun h => by simp [expandNodePat, h],
    fun h => by simp [expandNodePat, h], ?_, ?_⟩
  · intro r h ho hr hn
    have h0 : (r.toNat : Int) ≠ 0 := by
      intro h; exact hr (UInt16.toNat_inj.1 (by simpa using h))
    have h1 : (r.toNat : Int) ≠ -1 := by omega
    simp [expandNodePat, h, ho, hn, h1, h0, e]
    rw [if_neg (by omega), e]
  · intro r h ho hn
    have h1 : (r.toNat : Int) ≠ -1 := by omega
    simp [expandNodePat, h, ho, hn, h1, e]

/-- C04. Mail for the hub of an unknown node goes to node 0 of its net (and for the region of an
unknown node to the net's host). -/
theorem expandNodePat_unknown (nl : Nodelist) (p : Pat4) (dest : Node4D)
    (h : nl.isOpen = false ∨ nl.region { dest with point := 0 } = -1 ∧ nl.hub { dest with point := 0 } = -1)
    (ht : p.type = .region ∨ p.type = .hub) :
    expandNodePat nl p dest = ⟨dest.zone, dest.net, 0, 0⟩ := by
  have e : toU16 (dest.net.toNat : Int) = dest.net := by
    apply UInt16.toNat_inj.1
    have := dest.net.toNat_lt
    simp [toU16]; omega
  rcases ht with ht | ht <;> rcases h with h | ⟨h1, h2⟩ <;> simp [expandNodePat, ht, *] <;>
    (try split) <;> first | rfl | simp_all

example : routeNetmail ⟨false, fun _ => -1, fun _ => -1⟩
    [⟨⟨.pattern, b!"2", b!"5020", b!"*", b!"*"⟩, ⟨.pattern, b!"2", b!"5020", b!"1", b!"0"⟩, ⟨2,5020,9,0⟩⟩,
     ⟨⟨.pattern, b!"*", b!"*", b!"*", b!"*"⟩, ⟨.node, [], [], [], []⟩, ⟨2,5020,9,0⟩⟩] []
    ⟨2, 5030, 7, 4⟩ .normal = some (⟨2, 5030, 7, 0⟩, .normal, ⟨2, 5020, 9, 0⟩) := by decide

/-! ## C05: flavour changes -/

/-- C05. A CHANGE line is relevant for a message if its pattern matches the next hop and it lists
the message's flavour (echomail counts as normal). -/
def ChangeRelevant (nl : Nodelist) (dest : Node4D) (pri : Pri) (c : Change) : Prop :=
  compare4DPat nl c.pattern dest = true ∧
  ((pri = .echomail ∧ c.normal = true) ∨ (pri = .normal ∧ c.normal = true) ∨
   (pri = .crash ∧ c.crash = true) ∨ (pri = .direct ∧ c.direct = true) ∨
   (pri = .hold ∧ c.hold = true))

/-- C05. Without a relevant CHANGE line the flavour is kept. -/
theorem changeType_none (nl : Nodelist) (cs : List Change) (dest : Node4D) (pri : Pri)
    (h : ∀ c ∈ cs, ¬ ChangeRelevant nl dest pri c) : changeType nl cs dest pri = pri := by
  have gen : ∀ cur, cs.foldl (changeStep nl dest pri) cur = cur := by
    intro cur
    induction cs generalizing cur with
    | nil => rfl
    | cons c cs ih =>
      have hc := h c (by simp)
      have : changeStep nl dest pri cur c = cur := by
        unfold changeStep
        split
        · split
          · rename_i h1 h2
            exfalso; apply hc; refine ⟨h1, ?_⟩
            cases pri <;> simp_all [Change.applies]
          · rfl
        · rfl
      simp only [List.foldl_cons, this]
      exact ih (fun c hc => h c (by simp [hc])) cur
  exact gen pri

/-- C05. Otherwise the last relevant CHANGE line decides (changing echomail to normal leaves it
echomail). -/
theorem changeType_last (nl : Nodelist) (before after : List Change) (c : Change) (dest : Node4D)
    (pri : Pri) (hc : ChangeRelevant nl dest pri c)
    (h : ∀ x ∈ after, ¬ ChangeRelevant nl dest pri x) :
    changeType nl (before ++ c :: after) dest pri =
      if pri = .echomail ∧ c.destPri = .normal then .echomail else c.destPri := by
  have step : ∀ cur, changeStep nl dest pri cur c =
      if pri = .echomail ∧ c.destPri = .normal then .echomail else c.destPri := by
    intro cur
    obtain ⟨h1, h2⟩ := hc
    have ha : c.applies pri = true := by cases pri <;> simp_all [Change.applies]
    simp only [changeStep, h1, ha, if_true]
    split <;> simp_all
  have gen : ∀ (l : List Change) cur, (∀ x ∈ l, ¬ ChangeRelevant nl dest pri x) →
      l.foldl (changeStep nl dest pri) cur = cur := by
    intro l
    induction l with
    | nil => intro cur _; rfl
    | cons x l ih =>
      intro cur hx
      have : changeStep nl dest pri cur x = cur := by
        unfold changeStep
        split
        · split
          · rename_i h1 h2
            exfalso; apply hx x (by simp); refine ⟨h1, ?_⟩
            cases pri <;> simp_all [Change.applies]
          · rfl
        · rfl
      simp only [List.foldl_cons, this]
      exact ih cur (fun c hc => hx c (by simp [hc]))
  simp only [changeType, List.foldl_append, List.foldl_cons, step]
  exact gen _ _ h

example : ChangeRelevant ⟨false, fun _ => -1, fun _ => -1⟩ ⟨2, 5, 6, 0⟩ .echomail
    ⟨⟨.pattern, b!"2", b!"*", b!"*", b!"*"⟩, true, false, false, false, .crash⟩ := by
  refine ⟨by decide, by simp⟩

end CM
