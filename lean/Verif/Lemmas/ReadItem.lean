import Verif.Lemmas.ReadBack
import Verif.Spec.ReadBack
/-! # Reading what was written: areas and nodes -/
set_option linter.unusedSimpArgs false

namespace CM

/-! ## Lookup -/

theorem find_address {l : List Node4D} (hd : Distinct4D l) {i : Nat} {n : Node4D} (h : l[i]? = some n) :
    l.findIdx? (fun k => compare4D n k == 0) = some i := by
  obtain ⟨hi, rfl⟩ := List.getElem?_eq_some_iff.1 h
  rw [List.findIdx?_eq_some_iff_getElem]
  refine ⟨hi, by simp [compare4D_self], fun j hj => ?_⟩
  have := List.pairwise_iff_getElem.1 hd j i (by omega) hi hj
  intro hc
  rw [beq_iff_eq] at hc
  rw [compare4D_antisymm] at hc
  exact this (by omega)

theorem rdKnown_node {nodes : List ConfigNode} (hd : Distinct4D (nodes.map (·.node))) {i : Nat} {n : ConfigNode}
    (h : nodes[i]? = some n) : rdKnown nodes n.node = .ok i := by
  have h1 : nodes.findIdx? (fun c => compare4D n.node c.node == 0) = some i := by
    have := find_address hd (i := i) (n := n.node) (by simp [h])
    rw [List.findIdx?_map] at this
    exact this
  unfold rdKnown
  rw [h1]

theorem mapM_eq {α β ε : Type} {f : α → Except ε β} {g : α → β} : ∀ {l : List α}, (∀ x ∈ l, f x = .ok (g x)) → l.mapM f = .ok (l.map g) := by
  intro l
  induction l with
  | nil => intro _; rfl
  | cons x l ih =>
    intro h
    rw [List.mapM_cons, h x (by simp), ih fun y hy => h y (by simp [hy])]
    rfl

/-- The address of the node at a position. -/
def addrAt (nodes : List ConfigNode) (i : Nat) : Node4D := (nodes[i]?.map (·.node)).getD ⟨0, 0, 0, 0⟩

theorem addrAt_prefix {n1 n2 : List ConfigNode} (h : n1.map (·.node) <+: n2.map (·.node)) {i : Nat} (hi : i < n1.length) :
    ∃ x y, n1[i]? = some x ∧ n2[i]? = some y ∧ x.node = y.node := by
  obtain ⟨t, ht⟩ := h
  have h1 : (n1.map (·.node))[i]? = some (n1[i].node) := by simp [hi]
  have h2 : (n2.map (·.node))[i]? = some (n1[i].node) := by
    rw [← ht, List.getElem?_append_left (by simpa using hi), h1]
  rw [List.getElem?_map] at h2
  cases hy : n2[i]? with
  | none => rw [hy] at h2; cases h2
  | some y =>
    rw [hy] at h2
    simp only [Option.map_some, Option.some.injEq] at h2
    exact ⟨n1[i], y, by simp [hi], rfl, h2.symm⟩

/-! ## Commands of an area -/

/-- The state with this area at the end of the list. -/
def withArea (s : RdSt) (A : List Area) (a : Area) : RdSt := { s with cfg := { s.cfg with areas := A ++ [a] } }

theorem rdLine_areaCmd {s : RdSt} {A : List Area} {a b : Area} {l w rest : Str} {ok : Bool} (hl : jbstrcpy 30 l = (w, rest, ok))
    (h1 : isAreaWord w = false) (h2 : areaCmdWords.any (eqi w) = true) (h3 : rdAreaCmd s.cfg.nodes w rest a = .ok b) :
    rdLine (withArea s A a) l = .ok (withArea s A b) := by
  unfold rdLine
  rw [hl]
  dsimp only
  rw [if_neg (by rw [h1]; decide), if_pos h2]
  have e : (withArea s A a).cfg.areas.getLast? = some a := by simp [withArea]
  rw [e]
  dsimp only
  have e2 : rdAreaCmd (withArea s A a).cfg.nodes w rest a = .ok b := h3
  rw [e2]
  show Except.ok _ = _
  simp [withArea]

/-- The word of an EXPORT line for one link. -/
def linkWord (nodes : List ConfigNode) (t : TossNode) : Str :=
  (if t.has TOSSNODE_READONLY then [33] else []) ++ (if t.has TOSSNODE_WRITEONLY then [64] else []) ++
    (if t.has TOSSNODE_FEED then [37] else []) ++ writeNode4D (addrAt nodes t.node)

theorem writeNode4D_head (n : Node4D) : ∃ c r, writeNode4D n = c :: r ∧ isDigit c = true := by
  unfold writeNode4D
  cases hd : dec n.zone.toNat with
  | nil => exact absurd hd (dec_ne_nil _)
  | cons c r =>
    refine ⟨c, _, rfl, dec_digits n.zone.toNat c (by rw [hd]; simp)⟩

theorem exportMark_linkWord (nodes : List ConfigNode) (t : TossNode) (h : t.flags = 0 ∨ t.flags = 1 ∨ t.flags = 2 ∨ t.flags = 4) :
    exportMark (linkWord nodes t) = (t.flags, writeNode4D (addrAt nodes t.node)) := by
  obtain ⟨c, r, hc, hd⟩ := writeNode4D_head (addrAt nodes t.node)
  have h1 : c ≠ 33 := by rintro rfl; revert hd; decide
  have h2 : c ≠ 64 := by rintro rfl; revert hd; decide
  have h3 : c ≠ 37 := by rintro rfl; revert hd; decide
  unfold linkWord TossNode.has
  rw [hc]
  have e1 : (1 : UInt16) &&& 1 = 1 ∧ (1 : UInt16) &&& 2 = 0 ∧ (1 : UInt16) &&& 4 = 0 := by decide
  have e2 : (2 : UInt16) &&& 1 = 0 ∧ (2 : UInt16) &&& 2 = 2 ∧ (2 : UInt16) &&& 4 = 0 := by decide
  have e3 : (4 : UInt16) &&& 1 = 0 ∧ (4 : UInt16) &&& 2 = 0 ∧ (4 : UInt16) &&& 4 = 4 := by decide
  rcases h with h | h | h | h <;> rw [h] <;>
    simp [exportMark, e1, e2, e3, TOSSNODE_READONLY, TOSSNODE_WRITEONLY, TOSSNODE_FEED, h1, h2, h3]

theorem linkWord_plain (nodes : List ConfigNode) (t : TossNode) : PlainWord (linkWord nodes t) ∧ (linkWord nodes t).length < 100 := by
  have hl := writeNode4D_length (addrAt nodes t.node)
  obtain ⟨p1, p2, p3⟩ := writeNode4D_plain (addrAt nodes t.node)
  unfold linkWord
  refine ⟨⟨by simp [p1], ?_, ?_⟩, ?_⟩
  · split <;> split <;> split <;> simp_all
  · intro c hc
    simp only [List.mem_append] at hc
    rcases hc with ((hc | hc) | hc) | hc
    · split at hc <;> simp at hc; subst hc; decide
    · split at hc <;> simp at hc; subst hc; decide
    · split at hc <;> simp at hc; subst hc; decide
    · exact p3 c hc
  · simp only [List.length_append]
    have : ∀ (b : Bool) (x : UInt8), (if b = true then [x] else []).length ≤ 1 := by intro b x; cases b <;> simp
    have h1 := this (t.has TOSSNODE_READONLY) 33
    have h2 := this (t.has TOSSNODE_WRITEONLY) 64
    have h3 := this (t.has TOSSNODE_FEED) 37
    omega

theorem rdExport_words (nodes : List ConfigNode) (hd : Distinct4D (nodes.map (·.node))) : ∀ (ts : List TossNode) (tpl : Node4D),
    (∀ t ∈ ts, t.node < nodes.length ∧ (t.flags = 0 ∨ t.flags = 1 ∨ t.flags = 2 ∨ t.flags = 4)) →
    rdExport nodes tpl (ts.map (linkWord nodes)) = .ok ts := by
  intro ts
  induction ts with
  | nil => intro _ _; rfl
  | cons t ts ih =>
    intro tpl h
    obtain ⟨h1, h2⟩ := h t (by simp)
    have hn : nodes[t.node]? = some nodes[t.node] := by simp [h1]
    have ha : addrAt nodes t.node = nodes[t.node].node := by simp [addrAt, hn]
    rw [List.map_cons, rdExport, exportMark_linkWord nodes t h2]
    dsimp only
    rw [parse4DTemplate_writeNode4D]
    dsimp only
    rw [ha, rdKnown_node hd hn, ih _ fun x hx => h x (by simp [hx])]
    rfl

theorem rdBanned_words (nodes : List ConfigNode) (hd : Distinct4D (nodes.map (·.node))) : ∀ (bs : List Nat),
    (∀ b ∈ bs, b < nodes.length) → rdBanned nodes (bs.map fun b => writeNode4D (addrAt nodes b)) = .ok bs := by
  intro bs
  induction bs with
  | nil => intro _; rfl
  | cons b bs ih =>
    intro h
    have h1 := h b (by simp)
    have hn : nodes[b]? = some nodes[b] := by simp [h1]
    have ha : addrAt nodes b = nodes[b].node := by simp [addrAt, hn]
    rw [List.map_cons, rdBanned, rdNode_write, ih fun x hx => h x (by simp [hx])]
    show (do let i ← rdKnown nodes (addrAt nodes b); _) = _
    rw [ha, rdKnown_node hd hn]
    rfl

theorem jbstrcpy_words (kw w : Str) (ws : List Str) (h : PlainWord kw) (hl : kw.length < 30) :
    jbstrcpy 30 (kw ++ (w :: ws).flatMap (fun w => 32 :: w) ++ [10]) = (kw, w ++ (ws.flatMap (fun w => 32 :: w) ++ [10]), true) := by
  have : kw ++ (w :: ws).flatMap (fun w => 32 :: w) ++ [10] = kw ++ 32 :: (w ++ (ws.flatMap (fun w => 32 :: w) ++ [10])) := by
    simp
  rw [this, jbstrcpy_word_sp 30 kw _ h hl]

theorem reads_export (s : RdSt) (A : List Area) (hd : Distinct4D (s.cfg.nodes.map (·.node))) (ts : List TossNode)
    (h : ∀ t ∈ ts, t.node < s.cfg.nodes.length ∧ (t.flags = 0 ∨ t.flags = 1 ∨ t.flags = 2 ∨ t.flags = 4)) (a : Area)
    (ha : a.type = .echomail ∨ a.type = .default) :
    Reads (withArea s A a) (tenLoop b!"EXPORT" 0 (ts.map (linkWord s.cfg.nodes))) (withArea s A { a with tossNodes := a.tossNodes ++ ts }) := by
  refine reads_tenLoop (withArea s A) (fun a => a.type = .echomail ∨ a.type = .default)
    (fun a ts => { a with tossNodes := a.tossNodes ++ ts }) (linkWord s.cfg.nodes) b!"EXPORT"
    (fun t => t.node < s.cfg.nodes.length ∧ (t.flags = 0 ∨ t.flags = 1 ∨ t.flags = 2 ∨ t.flags = 4))
    ?_ ?_ ?_ (by decide) ?_ ?_ ts.length ts (Nat.le_refl _) h a ha
  · intro a; simp
  · intro a x y; simp
  · intro a x h; exact h
  · intro t _; exact plain_oneLine (linkWord_plain _ t).1
  · intro a t ts ha hG
    refine rdLine_areaCmd (jbstrcpy_words b!"EXPORT" _ _ (by decide) (by decide)) (by decide) (by decide) ?_
    have e : rdWords 100 (linkWord s.cfg.nodes t ++ ((ts.map (linkWord s.cfg.nodes)).flatMap (fun w => 32 :: w) ++ [10])) =
        (t :: ts).map (linkWord s.cfg.nodes) := by
      rw [rdWords_plain' 100 _ _ ?_]; rfl
      intro v hv
      rw [← List.map_cons] at hv
      obtain ⟨x, _, rfl⟩ := List.mem_map.1 hv
      exact linkWord_plain _ x
    unfold rdAreaCmd
    rw [if_neg (by decide), if_neg (by decide), if_neg (by decide), if_neg (by decide), if_neg (by decide), if_pos (by decide),
      if_neg (by rcases ha with ha | ha <;> simp [ha]), e, rdExport_words _ hd _ _ hG]
    rfl

theorem reads_banned (s : RdSt) (A : List Area) (hd : Distinct4D (s.cfg.nodes.map (·.node))) (bs : List Nat)
    (h : ∀ t ∈ bs, t < s.cfg.nodes.length) (a : Area) :
    Reads (withArea s A a) (tenLoop b!"BANNED" 0 (bs.map fun b => writeNode4D (addrAt s.cfg.nodes b)))
      (withArea s A { a with banned := a.banned ++ bs }) := by
  refine reads_tenLoop (withArea s A) (fun _ => True)
    (fun a ts => { a with banned := a.banned ++ ts }) (fun b => writeNode4D (addrAt s.cfg.nodes b)) b!"BANNED"
    (fun t => t < s.cfg.nodes.length)
    ?_ ?_ ?_ (by decide) ?_ ?_ bs.length bs (Nat.le_refl _) h a trivial
  · intro a; simp
  · intro a x y; simp
  · intro a x h; exact h
  · intro t _; exact plain_oneLine (writeNode4D_plain _)
  · intro a t ts ha hG
    refine rdLine_areaCmd (jbstrcpy_words b!"BANNED" _ _ (by decide) (by decide)) (by decide) (by decide) ?_
    have e : rdWords 100 (writeNode4D (addrAt s.cfg.nodes t) ++ ((ts.map fun b => writeNode4D (addrAt s.cfg.nodes b)).flatMap (fun w => 32 :: w) ++ [10])) =
        (t :: ts).map fun b => writeNode4D (addrAt s.cfg.nodes b) := by
      rw [rdWords_plain' 100 _ _ ?_]; rfl
      intro v hv
      rcases List.mem_cons.1 hv with rfl | hv
      · exact ⟨writeNode4D_plain _, by have := writeNode4D_length (addrAt s.cfg.nodes t); omega⟩
      · obtain ⟨x, _, rfl⟩ := List.mem_map.1 hv
        exact ⟨writeNode4D_plain _, by have := writeNode4D_length (addrAt s.cfg.nodes x); omega⟩
    unfold rdAreaCmd
    rw [if_neg (by decide), if_neg (by decide), if_neg (by decide), if_neg (by decide), if_neg (by decide), if_neg (by decide),
      if_neg (by decide), if_pos (by decide), e, rdBanned_words _ hd _ hG]
    rfl

/-! ## The other lines of an area -/

theorem reads_description (s : RdSt) (A : List Area) (a : Area) {d out : Str} (h : writeSafely d = .ok out) (h1 : 10 ∉ d) (h2 : d.length < 80) :
    Reads (withArea s A a) (b!"DESCRIPTION " ++ out ++ [10]) (withArea s A { a with description := d }) := by
  have ho := writeSafely_oneLine h h1
  refine .line (l := b!"DESCRIPTION " ++ out) (by simp [ho]) ?_
  have e : b!"DESCRIPTION " ++ out ++ [10] = b!"DESCRIPTION" ++ 32 :: (out ++ [10]) := by simp
  rw [e]
  refine rdLine_areaCmd (jbstrcpy_word_sp 30 b!"DESCRIPTION" _ (by decide) (by decide)) (by decide) (by decide) ?_
  unfold rdAreaCmd
  rw [if_neg (by decide), if_neg (by decide), if_neg (by decide), if_neg (by decide), if_neg (by decide), if_neg (by decide),
    if_neg (by decide), if_neg (by decide), if_pos (by decide)]
  unfold rdArg
  rw [jbstrcpy_writeSafely 80 d [10] out h1 h2 h]
  rfl

theorem letter_plain : ∀ g : UInt8, 65 ≤ g → g ≤ 90 → PlainWord [g] ∧ rdGroup [g] = .ok g ∧ g ≠ 10 := by decide +kernel

theorem reads_group (s : RdSt) (A : List Area) (a : Area) {g : UInt8} (h1 : 65 ≤ g) (h2 : g ≤ 90) :
    Reads (withArea s A a) (b!"GROUP " ++ [g, 10]) (withArea s A { a with group := g }) := by
  obtain ⟨p, r, n⟩ := letter_plain g h1 h2
  have e : b!"GROUP " ++ [g, 10] = b!"GROUP " ++ [g] ++ [10] := by simp
  rw [e]
  refine .line (l := b!"GROUP " ++ [g]) (by simp [Ne.symm n]) ?_
  have e : b!"GROUP " ++ [g] ++ [10] = b!"GROUP" ++ 32 :: ([g] ++ 10 :: []) := by simp
  rw [e]
  refine rdLine_areaCmd (jbstrcpy_word_sp 30 b!"GROUP" _ (by decide) (by decide)) (by decide) (by decide) ?_
  unfold rdAreaCmd
  rw [if_neg (by decide), if_neg (by decide), if_neg (by decide), if_neg (by decide), if_neg (by decide), if_neg (by decide),
    if_neg (by decide), if_neg (by decide), if_neg (by decide), if_pos (by decide)]
  unfold rdArg
  rw [jbstrcpy_word_lf 30 [g] [] p (by simp)]
  show (do let g ← rdGroup [g]; _) = _
  rw [r]
  rfl

theorem dec32_back (v : UInt32) : UInt32.ofInt (atol (dec v.toNat)) = v := by
  have h1 : atoi (dec v.toNat) = (v.toNat : Int) := by
    have := atoi_dec v.toNat [] (by simp)
    rwa [List.append_nil] at this
  have hv := v.toNat_lt
  rw [atol_of_atoi (by omega) (by omega), h1]
  unfold UInt32.ofInt
  apply UInt32.toNat.inj
  rw [UInt32.toNat_ofNat']
  omega

theorem rdArg_dec (v : UInt32) : rdArg 30 (dec v.toNat ++ [10]) = .ok (dec v.toNat, [10]) := by
  have hl : (dec v.toNat).length ≤ 10 := dec_length_le (by omega) (by have := v.toNat_lt; omega)
  unfold rdArg
  rw [jbstrcpy_word_lf 30 _ [] (dec_plain _) (by omega)]
  rfl

theorem reads_keepNum (s : RdSt) (A : List Area) (a : Area) (v : UInt32) :
    Reads (withArea s A a) (b!"KEEPNUM " ++ dec v.toNat ++ [10]) (withArea s A { a with keepNum := v }) := by
  refine .line (l := b!"KEEPNUM " ++ dec v.toNat) (by have := plain_oneLine (dec_plain v.toNat); simp [this]) ?_
  have e : b!"KEEPNUM " ++ dec v.toNat ++ [10] = b!"KEEPNUM" ++ 32 :: (dec v.toNat ++ [10]) := by simp
  rw [e]
  refine rdLine_areaCmd (jbstrcpy_word_sp 30 b!"KEEPNUM" _ (by decide) (by decide)) (by decide) (by decide) ?_
  unfold rdAreaCmd
  rw [if_neg (by decide), if_neg (by decide), if_neg (by decide), if_neg (by decide), if_neg (by decide), if_neg (by decide),
    if_neg (by decide), if_neg (by decide), if_neg (by decide), if_neg (by decide), if_pos (by decide), rdArg_dec]
  show Except.ok { a with keepNum := UInt32.ofInt (atol (dec v.toNat)) } = _
  rw [dec32_back]

theorem reads_keepDays (s : RdSt) (A : List Area) (a : Area) (v : UInt32) :
    Reads (withArea s A a) (b!"KEEPDAYS " ++ dec v.toNat ++ [10]) (withArea s A { a with keepDays := v }) := by
  refine .line (l := b!"KEEPDAYS " ++ dec v.toNat) (by have := plain_oneLine (dec_plain v.toNat); simp [this]) ?_
  have e : b!"KEEPDAYS " ++ dec v.toNat ++ [10] = b!"KEEPDAYS" ++ 32 :: (dec v.toNat ++ [10]) := by simp
  rw [e]
  refine rdLine_areaCmd (jbstrcpy_word_sp 30 b!"KEEPDAYS" _ (by decide) (by decide)) (by decide) (by decide) ?_
  unfold rdAreaCmd
  rw [if_neg (by decide), if_neg (by decide), if_neg (by decide), if_neg (by decide), if_neg (by decide), if_neg (by decide),
    if_neg (by decide), if_neg (by decide), if_neg (by decide), if_neg (by decide), if_neg (by decide), rdArg_dec]
  show Except.ok { a with keepDays := UInt32.ofInt (atol (dec v.toNat)) } = _
  rw [dec32_back]

theorem reads_areaFlag (s : RdSt) (A : List Area) (a : Area) (w : Str) (m : UInt8) (hp : PlainWord w ∧ w.length < 30)
    (h1 : isAreaWord w = false) (h2 : areaCmdWords.any (eqi w) = true)
    (h3 : ∀ nodes rest a, rdAreaCmd nodes w rest a = .ok { a with flags := a.flags ||| m }) (c : Prop) [Decidable c] :
    Reads (withArea s A a) (if c then w ++ [10] else []) (withArea s A { a with flags := if c then a.flags ||| m else a.flags }) := by
  refine .ite (fun hc => ?_) fun hc => ?_
  · rw [if_pos hc]
    exact .line (plain_oneLine hp.1) (rdLine_areaCmd (jbstrcpy_word_lf 30 w [] hp.1 hp.2) h1 h2 (h3 _ _ _))
  · rw [if_neg hc]

theorem areaFlags_back : ∀ f : UInt8, f &&& 31 = f →
    (let f1 := if (f &&& 1 != 0) = true then (0 : UInt8) ||| 1 else 0
     let f2 := if (f &&& 2 != 0) = true then f1 ||| 2 else f1
     let f3 := if (f &&& 4 != 0) = true then f2 ||| 4 else f2
     let f4 := if (f &&& 8 != 0) = true then f3 ||| 8 else f3
     if (f &&& 16 != 0) = true then f4 ||| 16 else f4) = f := by decide +kernel

theorem reads_areaRest (s : RdSt) (A : List Area) (a b : Area) {txt : Str} (h : areaRest a = .ok txt)
    (h1 : 10 ∉ a.description) (h2 : a.description.length < 80) (h3 : GroupLetter a.group) (h4 : a.flags &&& 31 = a.flags)
    (hb : b.description = [] ∧ b.group = 0 ∧ b.keepNum = 0 ∧ b.keepDays = 0 ∧ b.flags = 0) :
    Reads (withArea s A b) txt (withArea s A { b with
      description := a.description, group := a.group, keepNum := a.keepNum, keepDays := a.keepDays, flags := a.flags }) := by
  obtain ⟨b1, b2, b3, b4, b5⟩ := hb
  obtain ⟨d, r1, rfl⟩ : ∃ d, Reads (withArea s A b) d (withArea s A { b with description := a.description }) ∧
      txt = d ++ (if a.group = 0 then [] else b!"GROUP " ++ [a.group, 10]) ++
        (if a.keepNum = 0 then [] else b!"KEEPNUM " ++ dec a.keepNum.toNat ++ [10]) ++
        (if a.keepDays = 0 then [] else b!"KEEPDAYS " ++ dec a.keepDays.toNat ++ [10]) ++
        (if a.has AREA_UNCONFIRMED then b!"UNCONFIRMED\n" else []) ++
        (if a.has AREA_MANDATORY then b!"MANDATORY\n" else []) ++
        (if a.has AREA_DEFREADONLY then b!"DEFREADONLY\n" else []) ++
        (if a.has AREA_IGNOREDUPES then b!"IGNOREDUPES\n" else []) ++
        (if a.has AREA_IGNORESEENBY then b!"IGNORESEENBY\n" else []) := by
    unfold areaRest at h
    dsimp only at h
    by_cases hc : a.description = []
    · rw [if_pos hc] at h
      refine ⟨[], ?_, (epure_ok.1 h).symm⟩
      have e : ({ b with description := [] } : Area) = b := by rw [← b1]
      rw [hc, e]
      exact .nil _
    · rw [if_neg hc] at h
      obtain ⟨o, ho, h⟩ := ebind_ok.1 h
      exact ⟨_, reads_description s A b ho h1 h2, (epure_ok.1 h).symm⟩
  refine .append (.append (.append (.append (.append (.append (.append (.append r1
    (u := withArea s A { b with description := a.description, group := a.group }) ?_)
    (u := withArea s A { b with description := a.description, group := a.group, keepNum := a.keepNum }) ?_)
    (u := withArea s A { b with description := a.description, group := a.group, keepNum := a.keepNum, keepDays := a.keepDays }) ?_)
    (reads_areaFlag s A _ b!"UNCONFIRMED" 1 (by decide) (by decide) (by decide) (fun _ _ _ => rfl) _))
    (reads_areaFlag s A _ b!"MANDATORY" 2 (by decide) (by decide) (by decide) (fun _ _ _ => rfl) _))
    (reads_areaFlag s A _ b!"DEFREADONLY" 4 (by decide) (by decide) (by decide) (fun _ _ _ => rfl) _))
    (reads_areaFlag s A _ b!"IGNOREDUPES" 8 (by decide) (by decide) (by decide) (fun _ _ _ => rfl) _)) ?_
  · by_cases hg : a.group = 0
    · rw [if_pos hg, hg, ← b2]; exact .nil _
    · rw [if_neg hg]
      rcases h3 with h3 | h3
      · exact absurd h3 hg
      · exact reads_group s A _ h3.1 h3.2
  · by_cases hg : a.keepNum = 0
    · rw [if_pos hg, hg, ← b3]; exact .nil _
    · rw [if_neg hg]; exact reads_keepNum s A _ _
  · by_cases hg : a.keepDays = 0
    · rw [if_pos hg, hg, ← b4]; exact .nil _
    · rw [if_neg hg]; exact reads_keepDays s A _ _
  · have := reads_areaFlag s A { b with
        description := a.description, group := a.group, keepNum := a.keepNum, keepDays := a.keepDays,
        flags :=
          let f1 := if (a.flags &&& 1 != 0) = true then b.flags ||| 1 else b.flags
          let f2 := if (a.flags &&& 2 != 0) = true then f1 ||| 2 else f1
          let f3 := if (a.flags &&& 4 != 0) = true then f2 ||| 4 else f2
          if (a.flags &&& 8 != 0) = true then f3 ||| 8 else f3 }
      b!"IGNORESEENBY" 16 (by decide) (by decide) (by decide) (fun _ _ _ => rfl) ((a.flags &&& 16 != 0) = true)
    have e := areaFlags_back a.flags h4
    rw [b5] at this ⊢
    dsimp only at this e
    rw [e] at this
    exact this

/-! ## The first line of an area -/

theorem akaAt_prefix {n1 n2 : List Aka} (h : n1.map (·.node) <+: n2.map (·.node)) {i : Nat} (hi : i < n1.length) :
    ∃ y, n2[i]? = some y ∧ (n1.map (·.node))[i]? = some y.node := by
  obtain ⟨t, ht⟩ := h
  have h1 : (n1.map (·.node))[i]? = some (n1[i].node) := by simp [hi]
  have h2 : (n2.map (·.node))[i]? = some (n1[i].node) := by
    rw [← ht, List.getElem?_append_left (by simpa using hi), h1]
  rw [List.getElem?_map] at h2
  cases hy : n2[i]? with
  | none => rw [hy] at h2; cases h2
  | some y =>
    rw [hy] at h2
    simp only [Option.map_some, Option.some.injEq] at h2
    exact ⟨y, rfl, by rw [h1, h2]⟩

/-- The word an area begins with. -/
def areaWord (a : Area) : Str := if a.type = .local then b!"LOCALAREA" else b!"AREA"

theorem rdAreaType_back {a : Area} (hk : KindOk a) (hn : a.type ≠ .netmail) :
    rdAreaType (areaWord a) a.tag a.path a.base = .ok a.type := by
  unfold KindOk at hk
  unfold rdAreaType areaWord
  cases ht : a.type <;> rw [ht] at hk <;> dsimp only at hk
  case netmail => exact absurd ht hn
  case «local» =>
    rw [if_pos rfl, if_neg (by decide), if_pos (by decide), if_neg]
    intro h; exact hk.1 (Option.isNone_iff_eq_none.1 h)
  case bad =>
    rw [if_neg (by decide), if_neg (by decide), if_pos (show eqi a.tag b!"BAD" = true from hk.1), if_neg hk.2.1]
  case default =>
    have : ¬ eqi a.tag b!"BAD" = true := by
      have hd := hk.1
      unfold DefaultTag at hd
      intro hb
      rw [eqi_iff] at hb
      have hl := congrArg List.length hb
      simp only [List.length_map] at hl
      rcases hd with hd | hd
      · rw [eqi_iff] at hd
        rw [hb] at hd
        revert hd; decide
      · unfold eqin at hd
        rw [List.take_of_length_le (by rw [hl]; decide), beq_iff_eq, hb] at hd
        revert hd; decide
    rw [if_neg (by decide), if_neg (by decide), if_neg this, if_pos]
    rcases hk.1 with h | h <;> simp [h]
  case echomail =>
    rw [if_neg (by decide), if_neg (by decide), if_neg (show ¬ eqi a.tag b!"BAD" = true from hk.1), if_neg]
    intro h
    rw [Bool.or_eq_true] at h
    exact hk.2.1 h

theorem rdBase_back {a : Area} {base : Str} (h : (match a.base with
      | some b => do pure ([32] ++ baseName b ++ [32] ++ (← writeSafely a.path))
      | none => pure [] : Except UB Str) = .ok base) (hb : a.base = none ∨ a.base = some 0 ∨ a.base = some 1)
    (h1 : a.base = none → a.path = []) (h2 : 10 ∉ a.path) (h3 : a.path.length < 80) :
    10 ∉ base ∧ (∃ x y, base ++ [10] = x :: y ∧ tokStop false x = true ∧ rdBase (skipSep (x :: y)) = .ok (a.base, a.path)) := by
  rcases hb with hb | hb | hb
  · rw [hb] at h
    have := epure_ok.1 h
    subst this
    refine ⟨by simp, 10, [], rfl, by decide, ?_⟩
    rw [hb, h1 hb]
    rfl
  · rw [hb] at h
    obtain ⟨o, ho, h⟩ := ebind_ok.1 h
    have := epure_ok.1 h
    subst this
    have hoo := writeSafely_oneLine ho h2
    refine ⟨by simp [hoo, baseName], 32, b!"MSG" ++ 32 :: (o ++ [10]), by simp [baseName], by decide, ?_⟩
    have e : skipSep (32 :: (b!"MSG" ++ 32 :: (o ++ [10]))) = b!"MSG" ++ 32 :: (o ++ [10]) := rfl
    unfold rdBase
    rw [e, jbstrcpy_word_sp 200 b!"MSG" _ (by decide) (by decide)]
    dsimp only
    rw [if_pos rfl]
    show (do let p ← rdArg 80 (o ++ [10]); pure (some 0, p.1)) = _
    unfold rdArg
    rw [jbstrcpy_writeSafely 80 a.path [10] o h2 h3 ho, hb]
    rfl
  · rw [hb] at h
    obtain ⟨o, ho, h⟩ := ebind_ok.1 h
    have := epure_ok.1 h
    subst this
    have hoo := writeSafely_oneLine ho h2
    refine ⟨by simp [hoo, baseName], 32, b!"JAM" ++ 32 :: (o ++ [10]), by simp [baseName], by decide, ?_⟩
    have e : skipSep (32 :: (b!"JAM" ++ 32 :: (o ++ [10]))) = b!"JAM" ++ 32 :: (o ++ [10]) := rfl
    unfold rdBase
    rw [e, jbstrcpy_word_sp 200 b!"JAM" _ (by decide) (by decide)]
    dsimp only
    rw [if_pos rfl]
    show (do let p ← rdArg 80 (o ++ [10]); pure (some 1, p.1)) = _
    unfold rdArg
    rw [jbstrcpy_writeSafely 80 a.path [10] o h2 h3 ho, hb]
    rfl

theorem reads_areaHead (s : RdSt) (cfg : Config) (a : Area) {txt : Str} (h : areaHead cfg a = .ok txt) (nodes : Nat)
    (ok : AreaOk s.cfg.akas.length nodes a) (hn : a.type ≠ .netmail)
    (hd : Distinct4D (s.cfg.akas.map (·.node))) (hp : s.cfg.akas.map (·.node) <+: cfg.akas.map (·.node)) :
    Reads s txt (withArea s s.cfg.areas { tag := a.tag, aka := a.aka, base := a.base, path := a.path, type := a.type }) := by
  obtain ⟨i, hi, hlt⟩ := ok.aka
  obtain ⟨k, hk, hs⟩ := akaAt_prefix hp hlt
  unfold areaHead at h
  rw [hi] at h
  dsimp only [Option.bind_some] at h
  rw [hk] at h
  dsimp only at h
  obtain ⟨x, hx, h⟩ := ebind_ok.1 h
  have := epure_ok.1 hx; subst this
  obtain ⟨tag, ht, h⟩ := ebind_ok.1 h
  obtain ⟨base, hb, e⟩ : ∃ base, (match a.base with
      | some b => do pure ([32] ++ baseName b ++ [32] ++ (← writeSafely a.path))
      | none => pure [] : Except UB Str) = .ok base ∧ areaKeyword a ++ tag ++ [32] ++ writeNode4D k.node ++ base ++ [10] = txt := by
    cases hb : a.base with
    | none => rw [hb] at h; exact ⟨_, rfl, epure_ok.1 h⟩
    | some b =>
      rw [hb] at h
      dsimp only at h ⊢
      obtain ⟨o, ho, h⟩ := ebind_ok.1 h
      rw [ho]
      exact ⟨_, rfl, epure_ok.1 h⟩
  subst e
  obtain ⟨o1, c, y, e1, hc, e2⟩ := rdBase_back hb ok.base ok.passThru ok.oneLine.2.2 ok.path
  have e0 : areaKeyword a = areaWord a ++ [32] := by
    unfold areaKeyword areaWord
    rw [if_neg hn]
    split <;> rfl
  have pw : PlainWord (areaWord a) ∧ (areaWord a).length < 30 ∧ isAreaWord (areaWord a) = true := by
    unfold areaWord; split <;> decide
  refine .line (l := areaKeyword a ++ tag ++ [32] ++ writeNode4D k.node ++ base) ?_ ?_
  · rw [e0]
    have h1 := plain_oneLine pw.1
    have h2 := writeSafely_oneLine ht ok.oneLine.1
    have h3 := plain_oneLine (writeNode4D_plain k.node)
    simp [h1, h2, h3, o1]
  · have e : areaKeyword a ++ tag ++ [32] ++ writeNode4D k.node ++ base ++ [10] =
        areaWord a ++ 32 :: (tag ++ 32 :: (writeNode4D k.node ++ c :: y)) := by
      rw [e0, ← e1]; simp
    rw [e]
    have key : rdArea s.cfg.akas (areaWord a) (tag ++ 32 :: (writeNode4D k.node ++ c :: y)) =
        .ok { tag := a.tag, aka := a.aka, base := a.base, path := a.path, type := a.type } := by
      unfold rdArea
      rw [show rdArg 80 (tag ++ 32 :: (writeNode4D k.node ++ c :: y)) = .ok (a.tag, 32 :: (writeNode4D k.node ++ c :: y)) by
        unfold rdArg; rw [jbstrcpy_writeSafely 80 a.tag _ tag ok.oneLine.1 ok.tag ht]; rfl]
      show (do let adr ← rdArg 200 (32 :: (writeNode4D k.node ++ c :: y)); _) = _
      rw [show rdArg 200 (32 :: (writeNode4D k.node ++ c :: y)) = .ok (writeNode4D k.node, skipSep (c :: y)) by
        unfold rdArg
        rw [jbstrcpy_sp, jbstrcpy_plain 200 _ c y (writeNode4D_plain _) (by have := writeNode4D_length k.node; omega) hc]; rfl]
      show (do let n ← rdNode (writeNode4D k.node); _) = _
      rw [rdNode_write]
      have hf : s.cfg.akas.findIdx? (fun x => compare4D k.node x.node == 0) = some i := by
        have := find_address hd hs
        rw [List.findIdx?_map] at this
        exact this
      show (match s.cfg.akas.findIdx? (fun x => compare4D k.node x.node == 0) with | none => _ | some i => _) = _
      rw [hf]
      dsimp only
      rw [e2]
      show (do let ty ← rdAreaType (areaWord a) a.tag a.path a.base; _) = _
      rw [rdAreaType_back ok.kind hn, hi]
      rfl
    unfold rdLine
    rw [jbstrcpy_word_sp 30 (areaWord a) _ pw.1 pw.2.1]
    dsimp only
    rw [if_pos pw.2.2, key]
    rfl

theorem reads_area (s : RdSt) (cfg : Config) (a : Area) {txt : Str} (h : areaText cfg a = .ok txt)
    (ok : AreaOk s.cfg.akas.length s.cfg.nodes.length a) (hn : a.type ≠ .netmail)
    (hd : Distinct4D (s.cfg.akas.map (·.node))) (hp : s.cfg.akas.map (·.node) <+: cfg.akas.map (·.node))
    (hd' : Distinct4D (s.cfg.nodes.map (·.node))) (hp' : s.cfg.nodes.map (·.node) <+: cfg.nodes.map (·.node)) :
    Reads s txt (withArea s s.cfg.areas a) := by
  unfold areaText at h
  obtain ⟨hh, h1, h⟩ := ebind_ok.1 h
  obtain ⟨ll, h2, h⟩ := ebind_ok.1 h
  obtain ⟨bb, h3, h⟩ := ebind_ok.1 h
  obtain ⟨rr, h4, h⟩ := ebind_ok.1 h
  have := epure_ok.1 h
  subst this
  have ei : a.importNodes = [] := by
    have := ok.kind
    unfold KindOk at this
    cases ht : a.type <;> rw [ht] at this <;> dsimp only at this
    · exact absurd ht hn
    · exact this.2.2
    · exact this.2
    · exact this.2.2.2
    · exact this.2.2
  have hadr : ∀ i, i < s.cfg.nodes.length → nodeAddr cfg i = .ok (addrAt s.cfg.nodes i) := by
    intro i hi
    obtain ⟨x, y, hx, hy, e⟩ := addrAt_prefix hp' hi
    unfold nodeAddr addrAt
    rw [hy, hx]
    simp [e]
  have r2 : Reads (withArea s s.cfg.areas { tag := a.tag, aka := a.aka, base := a.base, path := a.path, type := a.type }) ll
      (withArea s s.cfg.areas { tag := a.tag, aka := a.aka, base := a.base, path := a.path, type := a.type, tossNodes := a.tossNodes }) := by
    unfold areaLinks at h2
    rw [if_neg hn] at h2
    rcases iteq.1 h2 with ⟨ht, h2⟩ | ⟨ht, h2⟩
    · obtain ⟨ws, hw, h2⟩ := ebind_ok.1 h2
      have := epure_ok.1 h2
      subst this
      have hw' : a.tossNodes.mapM (exportWord cfg) = .ok (a.tossNodes.map (linkWord s.cfg.nodes)) := by
        apply mapM_eq
        intro t htm
        unfold exportWord
        rw [hadr _ (ok.links t htm).1]
        rfl
      rw [hw'] at hw
      cases hw
      exact reads_export s s.cfg.areas hd' a.tossNodes ok.links _ (by simpa using ht)
    · cases h2
      have : a.tossNodes = [] := by
        have := ok.kind
        unfold KindOk at this
        cases hty : a.type <;> rw [hty] at this ht <;> dsimp only at this
        · exact absurd hty hn
        · simp at ht
        · simp at ht
        · exact this.2.2.1
        · exact this.2.1
      rw [this]
      exact .nil _
  have r3 : Reads (withArea s s.cfg.areas { tag := a.tag, aka := a.aka, base := a.base, path := a.path, type := a.type, tossNodes := a.tossNodes })
      (tenLoop b!"BANNED" 0 (bb.map writeNode4D))
      (withArea s s.cfg.areas { tag := a.tag, aka := a.aka, base := a.base, path := a.path, type := a.type, tossNodes := a.tossNodes, banned := a.banned }) := by
    have hw' : a.banned.mapM (nodeAddr cfg) = .ok (a.banned.map (addrAt s.cfg.nodes)) :=
      mapM_eq fun b hb => hadr b (ok.banned b hb)
    rw [hw'] at h3
    cases h3
    rw [List.map_map]
    exact reads_banned s s.cfg.areas hd' a.banned ok.banned _
  have r4 := reads_areaRest s s.cfg.areas a { tag := a.tag, aka := a.aka, base := a.base, path := a.path, type := a.type, tossNodes := a.tossNodes, banned := a.banned } h4
    ok.oneLine.2.1 ok.description ok.group ok.flags ⟨rfl, rfl, rfl, rfl, rfl⟩
  have e : ({ tag := a.tag, aka := a.aka, base := a.base, path := a.path, type := a.type, tossNodes := a.tossNodes, banned := a.banned, description := a.description, group := a.group, keepNum := a.keepNum, keepDays := a.keepDays, flags := a.flags } : Area) = a := by
    have := ok.unmarked
    cases a
    simp_all
  have r := ((reads_areaHead s cfg a h1 _ ok hn hd hp).append r2).append r3 |>.append r4
  dsimp only at r
  rw [e] at r
  exact r

end CM
