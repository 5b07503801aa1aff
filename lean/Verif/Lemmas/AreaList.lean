import Verif.Lemmas.AreafixCfg
import Verif.Lemmas.Sort
import Verif.Spec.AreaList
/-! # Lemmas about lists of areas -/

set_option linter.unusedSimpArgs false
namespace CM

theorem eqi_refl (a : Str) : eqi a a = true := by simp [eqi]

theorem inj_of_nodup_map {α β : Type} {f : α → β} {l : List α} (h : (l.map f).Nodup) {x y : α} (hx : x ∈ l) (hy : y ∈ l)
    (e : f x = f y) : x = y := by
  induction l with
  | nil => cases hx
  | cons z l ih =>
    rw [List.map_cons, List.nodup_cons] at h
    rcases List.mem_cons.1 hx with h1 | h1 <;> rcases List.mem_cons.1 hy with h2 | h2
    · rw [h1, h2]
    · exact absurd (List.mem_map.2 ⟨y, h2, by rw [← e, h1]⟩) h.1
    · exact absurd (List.mem_map.2 ⟨x, h1, by rw [e, h2]⟩) h.1
    · exact ih h.2 h1 h2

/-! ## The order -/

theorem lower_total (a b : UInt8) : a < b ∨ a = b ∨ b < a := by
  rcases Nat.lt_trichotomy a.toNat b.toNat with h | h | h
  · exact .inl (UInt8.lt_iff_toNat_lt.2 h)
  · exact .inr (.inl (UInt8.toNat_inj.1 h))
  · exact .inr (.inr (UInt8.lt_iff_toNat_lt.2 h))

/-- The comparison is the lexical order on strings in lower case. -/
theorem cmpi_iff (a b : Str) : cmpi a b ≤ 0 ↔ ¬ b.map lower < a.map lower := by
  induction a generalizing b with
  | nil => cases b <;> simp [cmpi]
  | cons x a ih =>
    cases b with
    | nil => simp [cmpi]
    | cons y b =>
      simp only [cmpi, List.map_cons, List.cons_lt_cons_iff]
      have irr : ∀ z : UInt8, ¬ z < z := fun z h => by
        have := UInt8.lt_iff_toNat_lt.1 h; omega
      rcases lower_total (lower x) (lower y) with h | h | h
      · have hn : ¬ lower y < lower x := fun h2 => by
          have := UInt8.lt_iff_toNat_lt.1 h; have := UInt8.lt_iff_toNat_lt.1 h2; omega
        have hne : lower y ≠ lower x := fun e => irr _ (e ▸ h)
        simp [h, hn, hne]
      · rw [h]
        simp only [irr, if_false, false_or, true_and]
        exact ih b
      · have hn : ¬ lower x < lower y := fun h2 => by
          have := UInt8.lt_iff_toNat_lt.1 h; have := UInt8.lt_iff_toNat_lt.1 h2; omega
        simp [h, hn]

theorem compareAreas_iff (a b : ListEntry) : compareAreas a b ≤ 0 ↔ InOrder a b := by
  unfold compareAreas InOrder
  have irr : ∀ z : UInt8, ¬ z < z := fun z h => by
    have := UInt8.lt_iff_toNat_lt.1 h; omega
  rcases lower_total a.group b.group with h | h | h
  · simp [h]
  · rw [if_neg (by rw [h]; exact irr _), if_neg (by rw [h]; exact irr _), cmpi_iff]
    simp [h, irr]
  · have hn : ¬ a.group < b.group := fun h2 => by
      have := UInt8.lt_iff_toNat_lt.1 h; have := UInt8.lt_iff_toNat_lt.1 h2; omega
    have hne : a.group ≠ b.group := fun e => irr _ (e ▸ h)
    simp [h, hn, hne]

theorem inOrder_total (a b : ListEntry) : InOrder a b ∨ InOrder b a := by
  unfold InOrder
  rcases lower_total a.group b.group with h | h | h
  · exact .inl (.inl h)
  · by_cases hl : b.tag.map lower < a.tag.map lower
    · exact .inr (.inr ⟨h.symm, fun h2 => List.lt_irrefl _ (List.lt_trans hl h2)⟩)
    · exact .inl (.inr ⟨h, hl⟩)
  · exact .inr (.inl h)

theorem inOrder_trans (a b c : ListEntry) (h1 : InOrder a b) (h2 : InOrder b c) : InOrder a c := by
  unfold InOrder at *
  rcases h1 with h1 | ⟨h1, k1⟩
  · rcases h2 with h2 | ⟨h2, k2⟩
    · left
      exact UInt8.lt_iff_toNat_lt.2 (Nat.lt_trans (UInt8.lt_iff_toNat_lt.1 h1) (UInt8.lt_iff_toNat_lt.1 h2))
    · exact .inl (h2 ▸ h1)
  · rcases h2 with h2 | ⟨h2, k2⟩
    · exact .inl (h1 ▸ h2)
    · exact .inr ⟨h1.trans h2, List.not_lt.2 (List.le_trans (List.not_lt.1 k1) (List.not_lt.1 k2))⟩

/-! ## The local areas -/

/-- The entry of an area. -/
def entryOf (env : Env) (ci : Nat) (a : Area) : ListEntry :=
  { tag := a.tag
    desc := a.description
    group := a.group
    attached := (a.linkOf ci).isSome
    feed := ((a.linkOf ci).map (·.has TOSSNODE_FEED)).getD false
    kb := env.weekKB a }

theorem linkOf_isSome (a : Area) (ci : Nat) : (a.linkOf ci).isSome = true ↔ IsLinked ci a := by
  unfold IsLinked
  cases h : a.linkOf ci with
  | none => simpa using linkOf_none h
  | some t => simpa using ⟨t, linkOf_some h⟩

theorem entryOf_about (env : Env) (ci : Nat) (a : Area) : About env ci a (entryOf env ci a) := by
  refine ⟨rfl, rfl, rfl, rfl, linkOf_isSome a ci, fun hone => ?_⟩
  unfold entryOf Feeds
  dsimp only
  cases h : a.linkOf ci with
  | none =>
    simp only [Option.map_none, Option.getD_none, Bool.false_eq_true, false_iff]
    rintro ⟨t, ht, e, _⟩
    exact linkOf_none h t ht e
  | some t =>
    simp only [Option.map_some, Option.getD_some]
    obtain ⟨h1, h2⟩ := linkOf_some h
    constructor
    · intro hf; exact ⟨t, h1, h2, hf⟩
    · rintro ⟨u, hu, e, hf⟩
      have : u = t := by
        unfold Area.OneLink at hone
        exact inj_of_nodup_map hone hu h1 (e.trans h2.symm)
      exact this ▸ hf

theorem listLocal_ok {env : Env} {type : ListType} {ci : Nat} {cn : ConfigNode} {as : List Area} {es : List ListEntry}
    {s t : HSt} (h : listLocal env type ci cn as s = .ok es t) :
    es = (as.filter fun a => Listed type ci cn a).map (entryOf env ci) := by
  induction as generalizing s t es with
  | nil => cases h; rfl
  | cons a as ih =>
    unfold listLocal at h
    rw [bind_ok] at h
    obtain ⟨b, u, h1, h⟩ := h
    rw [bind_ok] at h
    obtain ⟨es1, v, h2, h⟩ := h
    have e := ih h2
    have hb : b = true ↔ Listed type ci cn a := by
      unfold Listed
      by_cases ht : a.type = .echomail
      · rw [if_pos ht] at h1
        simp only [ht, true_and]
        cases type with
        | query => cases h1; exact linkOf_isSome a ci
        | unlinked =>
          dsimp only at h1 ⊢
          by_cases hl : (a.linkOf ci).isSome = true
          · rw [if_pos hl] at h1
            cases h1
            simp [(linkOf_isSome a ci).1 hl]
          · rw [if_neg hl] at h1
            have hl2 : ¬ IsLinked ci a := fun x => hl ((linkOf_isSome a ci).2 x)
            simp only [hl2, not_false_eq_true, true_and]
            exact (afAccess_ok h1).1
        | full =>
          dsimp only at h1 ⊢
          by_cases hl : (a.linkOf ci).isSome = true
          · rw [if_pos hl] at h1
            cases h1
            simp [(linkOf_isSome a ci).1 hl]
          · rw [if_neg hl] at h1
            have hl2 : ¬ IsLinked ci a := fun x => hl ((linkOf_isSome a ci).2 x)
            simp only [hl2, false_or]
            exact (afAccess_ok h1).1
      · rw [if_neg ht] at h1
        cases h1
        simp [ht]
    by_cases hL : Listed type ci cn a
    · rw [hb.2 hL] at h
      cases h
      rw [List.filter_cons_of_pos (by simpa using hL), List.map_cons, e]
      rfl
    · have : b = false := by cases b with
        | false => rfl
        | true => exact absurd (hb.1 rfl) hL
      rw [this] at h
      cases h
      rw [List.filter_cons_of_neg (by simpa using hL), e]

/-! ## Areas elsewhere -/

theorem fileTag_eq (l : Str) : fileTag l = tagWord l := by
  unfold fileTag tagWord
  congr 1
  funext c
  revert c
  decide +kernel

theorem fileDesc_eq (l : Str) : fileDesc l = descText l := by
  have e1 : below33 = fun x => decide ¬ (33 ≤ x ∧ x < 128) := by funext c; revert c; decide +kernel
  have e2 : notEol = fun x => decide (x ≠ 13 ∧ x ≠ 10) := by funext c; revert c; decide +kernel
  unfold fileDesc descText
  rw [List.drop_drop, fileTag_eq, e1, e2]

/-- What the loops over the lists of areas have added. -/
structure Adds (areas : List Area) (src : ListEntry → Prop) (es fw : List ListEntry) : Prop where
  source : ∀ e ∈ fw, src e
  new : ∀ e ∈ fw, ∀ a ∈ areas, eqi e.tag a.tag = false
  sep : ∀ e ∈ fw, ∀ x ∈ es, eqi e.tag x.tag = false
  once : fw.Pairwise fun x y => eqi y.tag x.tag = false

theorem Adds.nil (areas : List Area) (src : ListEntry → Prop) (es : List ListEntry) : Adds areas src es [] :=
  ⟨by simp, by simp, by simp, .nil⟩

theorem Adds.mono {areas : List Area} {src src' : ListEntry → Prop} {es fw : List ListEntry} (h : Adds areas src es fw)
    (hs : ∀ e, src e → src' e) : Adds areas src' es fw :=
  ⟨fun e he => hs e (h.source e he), h.new, h.sep, h.once⟩

theorem Adds.append {areas : List Area} {src : ListEntry → Prop} {es f1 f2 : List ListEntry} (h1 : Adds areas src es f1)
    (h2 : Adds areas src (es ++ f1) f2) : Adds areas src es (f1 ++ f2) := by
  refine ⟨fun e he => ?_, fun e he => ?_, fun e he x hx => ?_, ?_⟩
  · rcases List.mem_append.1 he with he | he
    · exact h1.source e he
    · exact h2.source e he
  · rcases List.mem_append.1 he with he | he
    · exact h1.new e he
    · exact h2.new e he
  · rcases List.mem_append.1 he with he | he
    · exact h1.sep e he x hx
    · exact h2.sep e he x (by simp [hx])
  · rw [List.pairwise_append]
    exact ⟨h1.once, h2.once, fun x hx y hy => h2.sep y hy x (by simp [hx])⟩

theorem listFile_ok (areas : List Area) (al : Arealist) (ls : List Str) (es : List ListEntry) :
    ∃ fw, listFile areas al ls es = es ++ fw ∧
      Adds areas (fun e => e.group = al.group ∧ e.attached = false ∧ e.feed = false ∧ e.kb = b!"?" ∧ ∃ l ∈ ls, tagWord l ≠ [] ∧ e.tag = tagWord l ∧
        e.desc = if al.flags &&& 1 ≠ 0 then descText l else [])
        es fw ∧
      ∀ l ∈ ls, tagWord l ≠ [] → (∃ a ∈ areas, eqi (tagWord l) a.tag = true) ∨
        ∃ e ∈ es ++ fw, eqi (tagWord l) e.tag = true := by
  induction ls generalizing es with
  | nil => exact ⟨[], by simp [listFile], Adds.nil _ _ _, by simp⟩
  | cons l ls ih =>
    unfold listFile
    rw [fileTag_eq]
    split
    · rename_i hc
      simp only [Bool.and_eq_true, decide_eq_true_eq, Bool.not_eq_true', List.any_eq_false] at hc
      obtain ⟨⟨c1, c2⟩, c3⟩ := hc
      generalize hE : ({ tag := tagWord l
                         desc := if al.flags &&& AREALIST_DESC != 0 then fileDesc l else []
                         group := al.group } : ListEntry) = E
      have et : E.tag = tagWord l := by rw [← hE]
      obtain ⟨fw, e1, e2, e3⟩ := ih (es ++ [E])
      refine ⟨E :: fw, by rw [e1]; simp, ?_, fun x hx hne => ?_⟩
      · have hE1 : Adds areas (fun e => e.group = al.group ∧ e.attached = false ∧ e.feed = false ∧
            e.kb = b!"?" ∧
            ∃ l' ∈ l :: ls, tagWord l' ≠ [] ∧ e.tag = tagWord l' ∧ e.desc = if al.flags &&& 1 ≠ 0 then descText l' else []) es [E] := by
          refine ⟨?_, ?_, ?_, by simp⟩
          · intro e he
            simp only [List.mem_singleton] at he
            subst he
            exact ⟨by rw [← hE], by rw [← hE], by rw [← hE], by rw [← hE], l, by simp, c1, et, by
              rw [← hE]; dsimp only; rw [fileDesc_eq]; simp only [bne_iff_ne]; rfl⟩
          · intro e he a ha
            simp only [List.mem_singleton] at he
            subst he
            rw [et]; simpa using c2 a ha
          · intro e he a ha
            simp only [List.mem_singleton] at he
            subst he
            rw [et]; simpa using c3 a ha
        refine hE1.append (e2.mono ?_)
        rintro e ⟨a, b, c, d, l', h1, h2⟩
        exact ⟨a, b, c, d, l', by simp [h1], h2⟩
      · rcases List.mem_cons.1 hx with rfl | hx
        · right
          exact ⟨E, by simp, by rw [et]; exact eqi_refl _⟩
        · rcases e3 x hx hne with h | ⟨e, he, h⟩
          · exact .inl h
          · exact .inr ⟨e, by simpa using he, h⟩
    · rename_i hc
      obtain ⟨fw, e1, e2, e3⟩ := ih es
      refine ⟨fw, e1, e2.mono ?_, fun x hx hne => ?_⟩
      · rintro e ⟨a, b, c, d, l', h1, h2⟩
        exact ⟨a, b, c, d, l', by simp [h1], h2⟩
      · rcases List.mem_cons.1 hx with rfl | hx
        · by_cases h1 : areas.any (fun a => eqi (tagWord x) a.tag) = true
          · left
            simpa using h1
          · by_cases h2 : es.any (fun e => eqi (tagWord x) e.tag) = true
            · right
              simp only [List.any_eq_true] at h2
              obtain ⟨e, he, h⟩ := h2
              exact ⟨e, by simp [he], h⟩
            · exact absurd (by simp [hne, h1, h2]) hc
        · exact e3 x hx hne

theorem listForward_ok {env : Env} {areas : List Area} {cn : ConfigNode} {als : List Arealist} {es es' : List ListEntry}
    {s t : HSt} (h : listForward env areas cn als es s = .ok es' t) :
    ∃ fw, es' = es ++ fw ∧
      Adds areas (fun e => ∃ al l, OfferedBy env s.log als cn al l ∧ e.group = al.group ∧ e.tag = tagWord l ∧
          e.desc = (if al.flags &&& 1 ≠ 0 then descText l else []) ∧ e.kb = b!"?" ∧ e.attached = false ∧ e.feed = false) es fw ∧
      ∀ al l, OfferedBy env s.log als cn al l →
        (∃ a ∈ areas, eqi (tagWord l) a.tag = true) ∨ ∃ e ∈ es ++ fw, eqi (tagWord l) e.tag = true := by
  induction als generalizing es s with
  | nil => cases h; exact ⟨[], by simp, Adds.nil _ _ _, fun al l h => absurd h.1 (by simp)⟩
  | cons al als ih =>
    unfold listForward at h
    rw [get_bind, bind_ok] at h
    obtain ⟨b, u, h1, h⟩ := h
    have hb : (b = true ↔ al.flags &&& 2 ≠ 0 ∧ al.group ∈ cn.groups) ∧ u = s := by
      by_cases hf : (al.flags &&& AREALIST_FORWARD != 0) = true
      · rw [if_pos hf] at h1
        obtain ⟨k1, k2⟩ := matchFlags_ok h1
        exact ⟨by rw [k1]; simp only [bne_iff_ne] at hf; exact ⟨fun x => ⟨hf, x⟩, fun x => x.2⟩, k2⟩
      · rw [if_neg hf] at h1
        cases h1
        refine ⟨?_, rfl⟩
        simp only [bne_iff_ne, ne_eq, Decidable.not_not] at hf
        simp only [Bool.false_eq_true, false_iff]
        exact fun x => x.1 hf
    obtain ⟨hb, rfl⟩ := hb
    obtain ⟨fw, e1, e2, e3⟩ := ih h
    by_cases hbt : b = true
    · rw [if_pos hbt] at e1 e2 e3
      obtain ⟨f1, g1, g2, g3⟩ := listFile_ok areas al ((env.areaFile u.log al.file).getD []) es
      rw [g1] at e1 e2 e3
      obtain ⟨b1, b2⟩ := hb.1 hbt
      refine ⟨f1 ++ fw, by rw [e1, List.append_assoc], Adds.append (g2.mono ?_) (e2.mono ?_), ?_⟩
      · rintro e ⟨a, c, d, kb, l, hl, hne, ht, hd⟩
        cases hfl : env.areaFile u.log al.file with
        | none => rw [hfl] at hl; simp at hl
        | some lines =>
          rw [hfl] at hl
          exact ⟨al, l, ⟨by simp, b1, b2, lines, hfl, hl, hne⟩, a, ht, hd, kb, c, d⟩
      · rintro e ⟨al', l, ⟨h1, h2⟩, h3⟩
        exact ⟨al', l, ⟨by simp [h1], h2⟩, h3⟩
      · rintro al' l ⟨h1, h2, h3, lines, h4, h5, h6⟩
        rcases List.mem_cons.1 h1 with rfl | h1
        · rcases g3 l (by rw [h4]; exact h5) h6 with h | ⟨e, he, h⟩
          · exact .inl h
          · exact .inr ⟨e, by rw [← List.append_assoc]; exact List.mem_append_left _ he, h⟩
        · rcases e3 al' l ⟨h1, h2, h3, lines, h4, h5, h6⟩ with h | ⟨e, he, h⟩
          · exact .inl h
          · exact .inr ⟨e, by rw [← List.append_assoc]; exact he, h⟩
    · rw [if_neg hbt] at e1 e2 e3
      refine ⟨fw, e1, e2.mono ?_, ?_⟩
      · rintro e ⟨al', l, ⟨h1, h2⟩, h3⟩
        exact ⟨al', l, ⟨by simp [h1], h2⟩, h3⟩
      · rintro al' l ⟨h1, h2, h3, h4⟩
        rcases List.mem_cons.1 h1 with rfl | h1
        · exact absurd (hb.2 ⟨h2, h3⟩) hbt
        · exact e3 al' l ⟨h1, h2, h3, h4⟩

/-- The entries of a list. -/
theorem listEntries_ok {env : Env} {type : ListType} {ci : Nat} {cn : ConfigNode} {es : List ListEntry} {s t : HSt}
    (h : listEntries env type ci cn s = .ok es t) : t = s ∧ IsList env s.log s.cfg type ci cn es := by
  refine ⟨(listEntries_quiet env type ci cn).noFail h, ?_⟩
  unfold listEntries at h
  rw [get_bind, bind_ok] at h
  obtain ⟨l, u, h1, h⟩ := h
  obtain rfl := (listLocal_quiet env type ci cn _).noFail h1
  have e1 := listLocal_ok h1
  rw [bind_ok] at h
  obtain ⟨l2, v, h2, h⟩ := h
  cases h
  refine ⟨?_, entryOf env ci, ?_⟩
  · have := isort_sorted compareAreas (fun a b => by rw [compareAreas_iff, compareAreas_iff]; exact inOrder_total a b)
      (fun a b c => by rw [compareAreas_iff, compareAreas_iff, compareAreas_iff]; exact inOrder_trans a b c) l2
    exact this.imp fun h => (compareAreas_iff _ _).1 h
  · by_cases hc : (u.cfg.has CFG_INCLUDEFORWARD && type ≠ .query && cn.has NODE_FORWARDREQ) = true
    · rw [if_pos hc] at h2
      obtain ⟨fw, f1, f2, f3⟩ := listForward_ok h2
      simp only [ne_eq, Bool.and_eq_true, decide_eq_true_eq] at hc
      refine ⟨fw, entryOf_about env ci, ?_, fun _ => ⟨?_, f2.new, f2.once, ?_⟩, fun hn => absurd ⟨hc.1.1, hc.1.2, hc.2⟩ hn⟩
      · rw [← e1, ← f1]; exact isort_perm _ _
      · exact f2.source
      · intro al l' h3
        rcases f3 al l' h3 with h | ⟨e, he, h⟩
        · exact .inl h
        · rcases List.mem_append.1 he with he | he
          · left
            rw [e1] at he
            obtain ⟨a, ha, rfl⟩ := List.mem_map.1 he
            exact ⟨a, (List.mem_filter.1 ha).1, h⟩
          · exact .inr ⟨e, he, h⟩
    · rw [if_neg hc] at h2
      cases h2
      simp only [ne_eq, Bool.and_eq_true, decide_eq_true_eq] at hc
      refine ⟨[], entryOf_about env ci, ?_, fun hn => absurd ⟨⟨hn.1, hn.2.1⟩, hn.2.2⟩ hc, fun _ => rfl⟩
      rw [← e1, List.append_nil]; exact isort_perm _ _

/-! ## The lines -/

theorem padR_column (n : Nat) (s : Str) : padR n (s.take n) = inColumn n s := by
  unfold padR inColumn
  congr 2
  rw [List.length_take]
  omega

theorem entryLines_row (type : ListType) (e : ListEntry) : Row type e (entryLines type e) := by
  have hm : listMark type e = entryMark type e := by
    unfold listMark entryMark
    simp
  refine ⟨_, rfl, ?_⟩
  unfold entryLines
  rw [hm, padR_column, padR_column]
  have hk : padL 8 (e.kb.take 8) = List.replicate (8 - e.kb.length) 32 ++ e.kb.take 8 := by
    unfold padL
    congr 2
    rw [List.length_take]
    omega
  rw [hk]
  by_cases h : e.tag.length ≤ 28
  · left
    rw [if_pos h]
    refine ⟨h, ?_⟩
    rw [show padR 28 e.tag = inColumn 28 e.tag by rw [← padR_column, List.take_of_length_le h]]
    simp only [List.cons_append, List.append_assoc]
  · right
    rw [if_neg h]
    refine ⟨by omega, ?_⟩
    rw [show padR 28 [] = List.replicate 28 32 from rfl]
    simp only [List.cons_append, List.append_assoc]

theorem listBody_table {cfg : Config} {type : ListType} {g : Option UInt8} {es : List ListEntry} {ls : List Str}
    (h : listBody cfg type g es = .ok ls) : Table cfg type g es ls := by
  induction es generalizing g ls with
  | nil => cases h; exact .nil _
  | cons e es ih =>
    unfold listBody at h
    simp only [bind, Except.bind] at h
    by_cases hg : g = some e.group
    · rw [if_pos hg] at h
      cases hb : listBody cfg type (some e.group) es with
      | error u => rw [hb] at h; cases h
      | ok rest =>
        rw [hb] at h
        cases h
        subst hg
        exact .same (entryLines_row type e) (ih hb)
    · rw [if_neg hg] at h
      cases hh : groupHead cfg g.isNone e.group with
      | error u => rw [hh] at h; cases h
      | ok head =>
        rw [hh] at h
        dsimp only at h
        cases hb : listBody cfg type (some e.group) es with
        | error u => rw [hb] at h; cases h
        | ok rest =>
          rw [hb] at h
          cases h
          unfold groupHead at hh
          split at hh
          · cases hh
          · cases hh
            rw [List.append_assoc]
            have := Table.head hg (entryLines_row type e) (ih hb)
            cases g with
            | none => exact this
            | some x => exact this

end CM
