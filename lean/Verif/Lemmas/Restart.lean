import Verif.Lemmas.Neat
import Verif.Spec.Restart
import Verif.Props.ReadConfig
/-! # Reading the old and the rewritten configuration file side by side -/
set_option linter.unusedSimpArgs false

namespace CM

/-! ## Words -/

theorem eqi_same {w x : Str} (h : eqi w x = true) (y : Str) : eqi w y = eqi x y := by
  have e := (eqi_iff w x).1 h
  unfold eqi at h ⊢
  rw [e]

theorem eqi_symm {w x : Str} (h : eqi w x = true) : eqi x w = true := by
  rw [eqi_iff] at h ⊢
  exact h.symm

theorem eqi_comm (w x : Str) : eqi w x = eqi x w := by
  cases h : eqi w x with
  | true => exact (eqi_symm h).symm
  | false =>
    cases h' : eqi x w with
    | true => rw [eqi_symm h'] at h; cases h
    | false => rfl

theorem any_same {w x : Str} (h : eqi w x = true) (L : List Str) : L.any (eqi w) = L.any (eqi x) := by
  induction L with
  | nil => rfl
  | cons y L ih => rw [List.any_cons, List.any_cons, ih, eqi_same h]

/-- What is known about a word that is one of these. -/
theorem word_of {w : Str} {L : List Str} (h : L.any (eqi w) = true) (P : Str → Prop) (hP : ∀ x ∈ L, ∀ w, eqi w x = true → P w) : P w := by
  rw [List.any_eq_true] at h
  obtain ⟨x, hx, h⟩ := h
  exact hP x hx w h

theorem areaWord_any (w : Str) : isAreaWord w = [b!"AREA", b!"NETMAIL", b!"LOCALAREA"].any (eqi w) := by
  simp [isAreaWord, Bool.or_assoc]

theorem isAreaWord_same {w x : Str} (h : eqi w x = true) : isAreaWord w = isAreaWord x := by
  rw [areaWord_any, areaWord_any, any_same h]

theorem ne_nil_of_eqi {w x : Str} (h : eqi w x = true) (hx : x ≠ []) : w ≠ [] := by
  rintro rfl
  rw [eqi_iff] at h
  cases x with
  | nil => exact hx rfl
  | cons c r => cases h

theorem areaWord_kw {w : Str} (h : isAreaWord w = true) : nodeKeywords.any (eqi w) = false ∧ eqi w b!"NODE" = false ∧ w ≠ [] ∧
    (areaKeywords.any (eqi w) = true ∨ eqi w b!"LOCALAREA" = true) := by
  rw [areaWord_any] at h
  refine word_of h (fun w => nodeKeywords.any (eqi w) = false ∧ eqi w b!"NODE" = false ∧ w ≠ [] ∧
    (areaKeywords.any (eqi w) = true ∨ eqi w b!"LOCALAREA" = true)) ?_
  intro x hx w hw
  rw [any_same hw, any_same hw, eqi_same hw, eqi_same hw]
  simp only [List.mem_cons, List.not_mem_nil, or_false] at hx
  refine ⟨?_, ?_, ne_nil_of_eqi hw ?_, ?_⟩ <;> (rcases hx with rfl | rfl | rfl <;> decide)

theorem areaCmd_kw {w : Str} (h : areaCmdWords.any (eqi w) = true) : nodeKeywords.any (eqi w) = false ∧ areaKeywords.any (eqi w) = true ∧ w ≠ [] := by
  refine word_of h (fun w => nodeKeywords.any (eqi w) = false ∧ areaKeywords.any (eqi w) = true ∧ w ≠ []) ?_
  intro x hx w hw
  rw [any_same hw, any_same hw]
  have : ∀ x ∈ areaCmdWords, nodeKeywords.any (eqi x) = false ∧ areaKeywords.any (eqi x) = true ∧ x ≠ [] := by decide
  obtain ⟨h1, h2, h3⟩ := this x hx
  exact ⟨h1, h2, ne_nil_of_eqi hw h3⟩

theorem node_kw {w : Str} (h : eqi w b!"NODE" = true) : nodeKeywords.any (eqi w) = true ∧ areaKeywords.any (eqi w) = false ∧ w ≠ [] := by
  rw [any_same h, any_same h]
  exact ⟨by decide, by decide, ne_nil_of_eqi h (by decide)⟩

theorem nodeCmd_kw {w : Str} (h : nodeCmdWords.any (eqi w) = true) : nodeKeywords.any (eqi w) = true ∧ areaKeywords.any (eqi w) = false ∧ w ≠ [] := by
  refine word_of h (fun w => nodeKeywords.any (eqi w) = true ∧ areaKeywords.any (eqi w) = false ∧ w ≠ []) ?_
  intro x hx w hw
  rw [any_same hw, any_same hw]
  have : ∀ x ∈ nodeCmdWords, nodeKeywords.any (eqi x) = true ∧ areaKeywords.any (eqi x) = false ∧ x ≠ [] := by decide
  obtain ⟨h1, h2, h3⟩ := this x hx
  exact ⟨h1, h2, ne_nil_of_eqi hw h3⟩

theorem rest_kw {w : Str} (h1 : isAreaWord w = false) (h2 : areaCmdWords.any (eqi w) = false) (h3 : eqi w b!"NODE" = false)
    (h4 : nodeCmdWords.any (eqi w) = false) : nodeKeywords.any (eqi w) = false ∧ areaKeywords.any (eqi w) = false := by
  constructor
  · rw [Bool.eq_false_iff]
    intro h
    refine word_of h (fun w => eqi w b!"NODE" = false → nodeCmdWords.any (eqi w) = false → False) ?_ h3 h4
    intro x hx w hw a b
    rw [eqi_same hw] at a
    rw [any_same hw] at b
    have : ∀ x ∈ nodeKeywords, eqi x b!"NODE" = false → nodeCmdWords.any (eqi x) = false → False := by decide
    exact this x hx a b
  · rw [Bool.eq_false_iff]
    intro h
    refine word_of h (fun w => isAreaWord w = false → areaCmdWords.any (eqi w) = false → False) ?_ h1 h2
    intro x hx w hw a b
    rw [isAreaWord_same hw] at a
    rw [any_same hw] at b
    have : ∀ x ∈ areaKeywords, isAreaWord x = false → areaCmdWords.any (eqi x) = false → False := by decide
    exact this x hx a b

theorem copyres_of_word {l : Str} (h : keyword l ≠ []) : (jbstrcpy 30 l).2.2 = true := by
  unfold keyword at h
  unfold jbstrcpy at h ⊢
  dsimp only at h ⊢
  rw [Bool.or_eq_true]
  exact .inl (decide_eq_true h)

theorem word_of_copyres {l : Str} (h : (jbstrcpy 30 l).2.2 = false) : keyword l = [] := by
  rw [← Bool.not_eq_true] at h
  cases hk : keyword l with
  | nil => rfl
  | cons c r => exact absurd (copyres_of_word (by rw [hk]; simp)) h

/-! ## Lines -/

theorem rdLine_area {s : RdSt} {l : Str} (hw : isAreaWord (keyword l) = true) {a : Area}
    (h : rdArea s.cfg.akas (keyword l) (jbstrcpy 30 l).2.1 = .ok a) : rdLine s l = .ok (withArea s s.cfg.areas a) := by
  unfold rdLine
  dsimp only
  unfold keyword at hw
  rw [if_pos hw]
  refine ebind_ok.2 ⟨_, h, rfl⟩

theorem rdLine_node {s : RdSt} {l : Str} (hw : isAreaWord (keyword l) = false) (hc : areaCmdWords.any (eqi (keyword l)) = false)
    (hn : eqi (keyword l) b!"NODE" = true) {n : ConfigNode} (h : rdNodeLine s.cfg.packers (jbstrcpy 30 l).2.1 = .ok n) :
    rdLine s l = .ok (withNode s s.cfg.nodes n) := by
  unfold rdLine
  dsimp only
  unfold keyword at hw hc hn
  rw [if_neg (by simp [hw]), if_neg (by simp [hc]), if_pos hn]
  exact ebind_ok.2 ⟨_, h, rfl⟩

theorem rdLine_rest {s : RdSt} {l : Str} (hw : isAreaWord (keyword l) = false) (hc : areaCmdWords.any (eqi (keyword l)) = false)
    (hn : eqi (keyword l) b!"NODE" = false) (hd : nodeCmdWords.any (eqi (keyword l)) = false) :
    rdLine s l = rdRest s (keyword l) (jbstrcpy 30 l).2.1 := by
  unfold rdLine
  dsimp only
  unfold keyword at hw hc hn hd
  rw [if_neg (by simp [hw]), if_neg (by simp [hc]), if_neg (by simp [hn]), if_neg (by simp [hd])]
  rfl

theorem rdLine_lf (s : RdSt) : rdLine s [10] = .ok s := by
  rw [rdLine_rest (by decide) (by decide) (by decide) (by decide)]
  rfl

/-! ## The state when the new file is read -/

/-- What is read instead of an area of the old file. -/
def areaNow (c : Config) (a : Area) : Option Area :=
  match c.areas.find? fun b => eqi a.tag b.tag with
  | none => none
  | some b => some (if b.changed then unmarkA b else a)

/-- What is read instead of the node at this position. -/
def nodeNow (c : Config) (i : Nat) (n : ConfigNode) : ConfigNode :=
  match c.nodes[i]? with
  | none => n
  | some m => if m.changed then unmarkN m else n

/-- The state after the new file. -/
def image (c : Config) (s : RdSt) : RdSt := swap (s.cfg.areas.filterMap (areaNow c)) (s.cfg.nodes.mapIdx (nodeNow c)) s

/-- The area is removed or changed. -/
def Gone (c : Config) (a : Area) : Prop := ∀ b ∈ c.areas, eqi a.tag b.tag = true → b.changed = true

theorem areaNow_key (c : Config) {a b : Area} (h : b.tag = a.tag) (g : Gone c a) : areaNow c b = areaNow c a := by
  unfold areaNow
  rw [h]
  cases hf : c.areas.find? fun b => eqi a.tag b.tag with
  | none => rfl
  | some x =>
    have := g x (List.mem_of_find?_eq_some hf) (by simpa using List.find?_some hf)
    simp [this]

/-- What the whole old file and the configuration in memory have in common. -/
structure Ctx (c : Config) (sf : RdSt) : Prop where
  tags : ∀ k ∈ sf.cfg.areas.map areaKey, (∀ b ∈ c.areas, eqi k.1 b.tag = true → b.changed = true) → k.2.1 ≠ .local
  akaOf : ∀ k ∈ sf.cfg.areas.map areaKey, ∀ b ∈ c.areas, eqi k.1 b.tag = true → b.changed = true → b.aka = k.2.2
  distinct : DistinctTags sf.cfg.areas
  distinct' : DistinctTags c.areas
  nodes : c.nodes.map (·.node) = sf.cfg.nodes.map (·.node)
  akas : c.akas.map (·.node) = sf.cfg.akas.map (·.node)
  packers : c.packers = sf.cfg.packers
  names : ∀ p ∈ c.packers, p.name.length < 10 ∧ 10 ∉ p.name
  ok : Writable c

/-- The two files side by side: `s` was read from the lines of the old file so far, `u` is the state of the
program that rewrites it. -/
structure Sim (c : Config) (ini s : RdSt) (u : Upd) : Prop where
  reads : Reads ini u.out (image c s)
  neat : Neat u.out
  same : SameMarks c u.cfg
  areas : ∀ (i : Nat) b, c.areas[i]? = some b → ∃ m, u.cfg.areas[i]? = some { b with changed := m } ∧
    (m = true ↔ b.changed = true ∧ ∀ a ∈ s.cfg.areas, eqi a.tag b.tag = false)
  nodes : ∀ (i : Nat) n, c.nodes[i]? = some n → ∃ m, u.cfg.nodes[i]? = some { n with changed := m } ∧
    (m = true ↔ n.changed = true ∧ s.cfg.nodes.length ≤ i)
  skipArea : ∀ A a, s.cfg.areas = A ++ [a] → (u.skipArea = true ↔ Gone c a)
  skipNode : ∀ N n, s.cfg.nodes = N ++ [n] → (u.skipNode = true ↔ ∃ m, c.nodes[N.length]? = some m ∧ m.changed = true)

theorem image_nodes {c : Config} {s sf : RdSt} (X : Ctx c sf) (g : Grows s sf) : (image c s).cfg.nodes.map (·.node) = s.cfg.nodes.map (·.node) := by
  apply List.ext_getElem?
  intro i
  simp only [image, swap, List.getElem?_map, List.getElem?_mapIdx, Option.map_map]
  cases hi : s.cfg.nodes[i]? with
  | none => rfl
  | some n =>
    have h1 : (s.cfg.nodes.map (·.node))[i]? = some n.node := by rw [List.getElem?_map, hi]; rfl
    have h2 : (c.nodes.map (·.node))[i]? = some n.node := by
      rw [X.nodes]
      obtain ⟨r, hr⟩ := g.addresses
      rw [← hr, List.getElem?_append_left (List.getElem?_eq_some_iff.1 h1).1, h1]
    rw [List.getElem?_map] at h2
    simp only [Option.map_some, Function.comp, nodeNow]
    cases hc : c.nodes[i]? with
    | none => rfl
    | some m =>
      rw [hc] at h2
      have e : m.node = n.node := Option.some.inj h2
      dsimp only
      split
      · rw [← e]; rfl
      · rfl

theorem find_of_idx {α : Type} {p : α → Bool} {l : List α} :
    (l.findIdx? p = none → l.find? p = none) ∧ ∀ i, l.findIdx? p = some i → ∃ b, l[i]? = some b ∧ p b = true ∧ l.find? p = some b := by
  induction l with
  | nil => simp
  | cons a l ih =>
    rw [List.findIdx?_cons, List.find?_cons]
    cases hp : p a with
    | true => simp [hp]
    | false =>
      simp only [Bool.false_eq_true, if_false, Option.map_eq_none_iff, Option.map_eq_some_iff]
      refine ⟨ih.1, ?_⟩
      rintro i ⟨j, hj, rfl⟩
      obtain ⟨b, h1, h2, h3⟩ := ih.2 j hj
      exact ⟨b, by simpa using h1, h2, h3⟩

theorem pairwise_prefix {α β : Type} {R : β → β → Prop} {f : α → β} {l m : List α} (hp : l.map f <+: m.map f) (h : (m.map f).Pairwise R) :
    (l.map f).Pairwise R := h.sublist hp.sublist

theorem distinctTags_key {l : List Area} : DistinctTags l ↔ (l.map areaKey).Pairwise fun a b => eqi a.1 b.1 = false := by
  unfold DistinctTags
  rw [List.pairwise_map]
  rfl

/-- Tags are compared as strings in lower case. -/
theorem eqi_trans_false {a b c : Str} (h : eqi a b = false) (k : eqi b c = true) : eqi a c = false := by
  rw [Bool.eq_false_iff] at h ⊢
  intro hc
  rw [eqi_iff] at hc k
  exact h ((eqi_iff a b).2 (hc.trans k.symm))

theorem distinctTags_unique {l : List Area} (h : DistinctTags l) {i j : Nat} {a b : Area} (ha : l[i]? = some a) (hb : l[j]? = some b) {t : Str}
    (ea : eqi t a.tag = true) (eb : eqi t b.tag = true) : i = j := by
  obtain ⟨hi, rfl⟩ := List.getElem?_eq_some_iff.1 ha
  obtain ⟨hj, rfl⟩ := List.getElem?_eq_some_iff.1 hb
  have e : eqi l[i].tag l[j].tag = true := by rw [← eqi_same ea]; exact eb
  rcases Nat.lt_trichotomy i j with h1 | h1 | h1
  · have := List.pairwise_iff_getElem.1 h i j hi hj h1
    rw [e] at this; cases this
  · exact h1
  · have := List.pairwise_iff_getElem.1 h j i hj hi h1
    rw [eqi_symm e] at this; cases this

theorem Reads.whole {s t u : RdSt} {x l : Str} (h : Reads s x t) (hl : ∃ y, l = y ++ [10] ∧ 10 ∉ y) (h' : rdLine t l = .ok u) : Reads s (x ++ l) u := by
  obtain ⟨y, rfl, hy⟩ := hl
  exact h.append (.line hy h')

/-- The state of the program after the first line of an area. -/
theorem updArea_cases {c : Config} {ini s : RdSt} {u : Upd} (S : Sim c ini s u) {rest tag : Str}
    (hr : jbstrcpy 100 rest = (tag, (jbstrcpy 100 rest).2.1, true)) (hd : ∀ a ∈ s.cfg.areas, eqi a.tag tag = false) {u' : Upd} (hu : updArea u rest = .ok u') :
    ((∀ b ∈ c.areas, eqi tag b.tag = false) ∧ u' = { u with skipArea := true }) ∨
    (∃ b ∈ c.areas, eqi tag b.tag = true ∧ c.areas.find? (fun b => eqi tag b.tag) = some b ∧ b.changed = false ∧ u' = { u with skipArea := false }) ∨
    (∃ i b txt, c.areas[i]? = some b ∧ eqi tag b.tag = true ∧ c.areas.find? (fun b => eqi tag b.tag) = some b ∧ b.changed = true ∧ areaText c b = .ok txt ∧
      u' = { u with
        cfg := { u.cfg with areas := u.cfg.areas.modify i fun a => { a with changed := false } }
        skipArea := true
        out := u.out ++ txt ++ [10] }) := by
  unfold updArea at hu
  rw [hr] at hu
  dsimp only at hu
  rw [if_pos rfl] at hu
  have hl : u.cfg.areas.map (·.tag) = c.areas.map (·.tag) := by
    have := congrArg (List.map (·.tag)) S.same.areas
    simpa [List.map_map, Function.comp_def] using this
  have e : (u.cfg.areas.findIdx? fun a => eqi tag a.tag) = c.areas.findIdx? fun a => eqi tag a.tag := by
    have h1 : ∀ L : List Area, (L.findIdx? fun a => eqi tag a.tag) = (L.map (·.tag)).findIdx? (eqi tag) := by
      intro L; rw [List.findIdx?_map]; rfl
    rw [h1, h1, hl]
  rw [e] at hu
  cases hf : c.areas.findIdx? fun a => eqi tag a.tag with
  | none =>
    rw [hf] at hu
    refine .inl ⟨?_, (Except.ok.inj hu).symm⟩
    simpa [List.findIdx?_eq_none_iff] using hf
  | some i =>
    rw [hf] at hu
    obtain ⟨b, hb, hp, hfi⟩ := find_of_idx.2 i hf
    obtain ⟨m, hm, hmi⟩ := S.areas i b hb
    dsimp only at hu
    rw [hm] at hu
    dsimp only at hu
    have hseen : ∀ a ∈ s.cfg.areas, eqi a.tag b.tag = false := fun a ha => eqi_trans_false (hd a ha) hp
    have hmb : m = b.changed := by
      rw [Bool.eq_iff_iff, hmi]
      exact ⟨fun h => h.1, fun h => ⟨h, hseen⟩⟩
    rcases iteq.1 hu with ⟨hc, hu⟩ | ⟨hc, hu⟩
    · obtain ⟨txt, ht, hu⟩ := ebind_ok.1 hu
      rw [epure_ok] at hu
      rw [areaText_same S.same] at ht
      exact .inr (.inr ⟨i, b, txt, hb, hp, hfi, by rw [← hmb]; exact hc, ht, hu.symm⟩)
    · refine .inr (.inl ⟨b, List.mem_of_getElem? hb, hp, hfi, ?_, (Except.ok.inj hu).symm⟩)
      rw [← hmb]
      exact Bool.eq_false_iff.2 hc

theorem updCopy_drop {u : Upd} {r : Bool} {w l : Str} (h : dontWrite u.skipArea u.skipNode r w = true) : updCopy u r w l = u := by
  unfold updCopy; rw [if_pos h]

theorem updCopy_keep {u : Upd} {r : Bool} {w l : Str} (h : dontWrite u.skipArea u.skipNode r w = false) :
    updCopy u r w l = { u with out := u.out ++ l } := by
  unfold updCopy; rw [if_neg (by simp [h])]

/-- A line of the text. -/
structure TextLine (l : Str) : Prop where
  whole : ∃ y, l = y ++ [10] ∧ 10 ∉ y
  neat : Neat l

theorem rdArea_tag {akas : List Aka} {w rest : Str} {a : Area} (h : rdArea akas w rest = .ok a) :
    (jbstrcpy 80 rest).2.2 = true ∧ a.tag = (jbstrcpy 80 rest).1 ∧ a.type = .local ∨
    (jbstrcpy 80 rest).2.2 = true ∧ a.tag = (jbstrcpy 80 rest).1 ∧ eqi w b!"LOCALAREA" = false := by
  unfold rdArea at h
  obtain ⟨tag, h1, h⟩ := ebind_ok.1 h
  obtain ⟨adr, h2, h⟩ := ebind_ok.1 h
  obtain ⟨n, h3, h⟩ := ebind_ok.1 h
  have e : (jbstrcpy 80 rest).2.2 = true ∧ tag = ((jbstrcpy 80 rest).1, (jbstrcpy 80 rest).2.1) := by
    unfold rdArg at h1
    dsimp only at h1
    rcases iteq.1 h1 with ⟨hc, h1⟩ | ⟨-, h1⟩
    · exact ⟨hc, (Except.ok.inj h1).symm⟩
    · cases h1
  obtain ⟨e1, rfl⟩ := e
  cases hk : akas.findIdx? fun k => compare4D n k.node == 0 with
  | none => rw [hk] at h; cases h
  | some i =>
    rw [hk] at h
    obtain ⟨b, h4, h⟩ := ebind_ok.1 h
    obtain ⟨ty, h5, h⟩ := ebind_ok.1 h
    rw [epure_ok] at h; subst h
    cases hw : eqi w b!"LOCALAREA" with
    | false => exact .inr ⟨e1, rfl, rfl⟩
    | true =>
      refine .inl ⟨e1, rfl, ?_⟩
      unfold rdAreaType at h5
      rw [if_neg (by rw [eqi_same hw]; decide), if_pos hw] at h5
      rcases iteq.1 h5 with ⟨-, h5⟩ | ⟨-, h5⟩
      · cases h5
      · exact (Except.ok.inj h5).symm

end CM
