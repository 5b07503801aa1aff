import Verif.Model.JbList
/-! # C06: linked lists behave like sequences -/
set_option linter.unusedSimpArgs false

namespace CM

/-! ## Specification: which sequence a list structure holds -/

/-- Following `Next` from `p` visits exactly `xs`, in order, and arrives at `q`. -/
def Seg (h : Heap) : Option Ptr → List Ptr → Option Ptr → Prop
  | p, [], q => p = q
  | p, x :: xs, q => p = some x ∧ ∃ n, h x = some n ∧ Seg h n xs q

/-- The list structure `l` on heap `h` holds exactly the distinct nodes `xs`. -/
def Holds (h : Heap) (l : JbList) (xs : List Ptr) : Prop :=
  Seg h l.first xs none ∧ l.last = xs.getLast? ∧ xs.Nodup

/-! ## Lemmas -/

theorem Seg.congr {h h' : Heap} {p q : Option Ptr} {xs : List Ptr} (hc : Seg h p xs q)
    (e : ∀ x ∈ xs, h' x = h x) : Seg h' p xs q := by
  induction xs generalizing p with
  | nil => exact hc
  | cons x xs ih =>
    obtain ⟨rfl, n, h1, h2⟩ := hc
    exact ⟨rfl, n, by rw [e x (by simp), h1], ih h2 (fun y hy => e y (by simp [hy]))⟩

theorem Seg.append {h : Heap} {p r : Option Ptr} {xs ys : List Ptr} :
    Seg h p (xs ++ ys) r ↔ ∃ q, Seg h p xs q ∧ Seg h q ys r := by
  induction xs generalizing p with
  | nil => simp [Seg]
  | cons x xs ih =>
    simp only [List.cons_append, Seg, ih]
    constructor
    · rintro ⟨rfl, n, h1, q, h2, h3⟩; exact ⟨q, ⟨rfl, n, h1, h2⟩, h3⟩
    · rintro ⟨q, ⟨rfl, n, h1, h2⟩, h3⟩; exact ⟨rfl, n, h1, q, h2, h3⟩

theorem Seg.alloc {h : Heap} {p r : Option Ptr} {xs : List Ptr} (hs : Seg h p xs r) :
    ∀ x ∈ xs, h x ≠ none := by
  induction xs generalizing p with
  | nil => simp
  | cons x xs ih =>
    obtain ⟨rfl, n, h1, h2⟩ := hs
    intro y hy
    rcases List.mem_cons.1 hy with rfl | hy
    · simp [h1]
    · exact ih h2 y hy

/-- Redirecting the `Next` field of the last node of a segment moves the end of the segment. -/
theorem Seg.redirect {h : Heap} {p q : Option Ptr} {xs : List Ptr} {l : Ptr}
    (hs : Seg h p (xs ++ [l]) q) (hl : l ∉ xs) (q' : Option Ptr) :
    Seg (fun a => if a = l then some q' else h a) p (xs ++ [l]) q' := by
  obtain ⟨r, h1, h2⟩ := Seg.append.1 hs
  refine Seg.append.2 ⟨r, h1.congr ?_, ?_⟩
  · intro x hx; simp [show x ≠ l from fun e => hl (e ▸ hx)]
  · obtain ⟨rfl, n, _, _⟩ := h2
    exact ⟨rfl, q', by simp, rfl⟩

theorem eq_append_getLast {xs : List Ptr} (h : xs ≠ []) : ∃ ys l, xs = ys ++ [l] :=
  ⟨xs.dropLast, xs.getLast h, (List.dropLast_concat_getLast h).symm⟩

theorem unlink_spec {h : Heap} {l : JbList} {as bs : List Ptr} {t : Ptr}
    (H : Holds h l (as ++ t :: bs)) :
    ∃ h' l', jbUnlink h l as.getLast? (some t) (decide (as = [])) = .ok (h', l') ∧
      Holds h' l' (as ++ bs) ∧ h' t = none ∧ (∀ q, q ∉ as ++ t :: bs → h' q = h q) := by
  obtain ⟨hs, hl, hn⟩ := H
  obtain ⟨q, ha, hq⟩ := Seg.append.1 hs
  obtain ⟨rfl, n, ht, hb⟩ := hq
  have hn' := hn
  rw [List.nodup_append] at hn'
  obtain ⟨na, ntb, dis⟩ := hn'
  rw [List.nodup_cons] at ntb
  have hta : t ∉ as := fun hm => dis t hm t (by simp) rfl
  have nab : (as ++ bs).Nodup := by
    rw [List.nodup_append]
    exact ⟨na, ntb.2, fun a ha b hb => dis a ha b (by simp [hb])⟩
  have nnone : n = none ↔ bs = [] := by
    cases bs with
    | nil => simp [Seg] at hb; simp [hb]
    | cons b bs => obtain ⟨rfl, _⟩ := hb; simp
  have lastb : bs ≠ [] → (as ++ t :: bs).getLast? = (as ++ bs).getLast? := by
    intro hne
    cases bs with
    | nil => exact absurd rfl hne
    | cons b bs => simp [List.getLast?_append, List.getLast?_cons_cons]
  by_cases hae : as = []
  · subst hae
    refine ⟨fun q => if q = t then none else h q, ⟨n, if n = none then none else l.last⟩, ?_, ?_, by simp, ?_⟩
    · simp [jbUnlink, rdNext, ht, osFree, bind, Except.bind]
    · refine ⟨?_, ?_, by simpa using nab⟩
      · exact hb.congr fun x hx => by simp [show x ≠ t from fun e => ntb.1 (e ▸ hx)]
      · by_cases hbe : bs = []
        · simp [nnone.2 hbe, hbe]
        · simp only [show ¬ n = none from fun e => hbe (nnone.1 e), if_false, hl]; exact lastb hbe
    · intro q hq; simp at hq; simp [hq.1]
  · obtain ⟨ys, o, rfl⟩ := eq_append_getLast hae
    have hot : o ≠ t := fun e => hta (by simp [e])
    have hoy : o ∉ ys := by
      rw [List.nodup_append] at na
      exact fun hm => na.2.2 o hm o (by simp) rfl
    obtain ⟨on, ho⟩ : ∃ on, h o = some on := by
      have := ha.alloc o (by simp)
      cases hh : h o with
      | none => exact absurd hh this
      | some v => exact ⟨v, rfl⟩
    refine ⟨fun q => if q = t then none else if q = o then some n else h q,
      ⟨l.first, if n = none then some o else l.last⟩, ?_, ?_, by simp, ?_⟩
    · simp [jbUnlink, rdNext, wrNext, ht, ho, osFree, bind, Except.bind, hot.symm]
    · refine ⟨Seg.append.2 ⟨n, ?_, ?_⟩, ?_, nab⟩
      · refine (ha.redirect hoy n).congr fun x hx => ?_
        simp only [show x ≠ t from fun e => hta (e ▸ hx), if_false]
      · refine hb.congr fun x hx => ?_
        have h1 : x ≠ t := fun e => ntb.1 (e ▸ hx)
        have h2 : x ≠ o := fun e => dis o (by simp) x (by simp [hx]) e.symm
        simp [h1, h2]
      · by_cases hbe : bs = []
        · simp [nnone.2 hbe, hbe]
        · simp only [show ¬ n = none from fun e => hbe (nnone.1 e), if_false, hl]; exact lastb hbe
    · intro q hq
      simp only [List.mem_append, List.mem_cons, List.mem_singleton, not_or] at hq
      simp [hq.1.2, hq.2.1]

theorem numLoop_run {h : Heap} {p q : Option Ptr} {as : List Ptr} (hs : Seg h p as q) (old : Option Ptr) :
    jbNumLoop h as.length old p = .ok (as.getLast?.or old, q, true) := by
  induction as generalizing p old with
  | nil => simp [Seg] at hs; simp [jbNumLoop, hs]
  | cons a as ih =>
    obtain ⟨rfl, n, h1, h2⟩ := hs
    simp only [List.length_cons, jbNumLoop, rdNext, h1, bind, Except.bind, ih h2]
    cases as with
    | nil => simp
    | cons b as => simp [List.getLast?_cons]

theorem numLoop_short {h : Heap} {p : Option Ptr} {xs : List Ptr} (hs : Seg h p xs none)
    (old : Option Ptr) (k : Nat) (hk : xs.length < k) :
    ∃ o, jbNumLoop h k old p = .ok (o, none, false) := by
  induction xs generalizing p old k with
  | nil =>
    simp [Seg] at hs
    obtain ⟨k, rfl⟩ : ∃ m, k = m + 1 := ⟨k - 1, by simp at hk; omega⟩
    exact ⟨old, by simp [jbNumLoop, hs]⟩
  | cons a as ih =>
    obtain ⟨rfl, n, h1, h2⟩ := hs
    obtain ⟨k, rfl⟩ : ∃ m, k = m + 1 := ⟨k - 1, by simp at hk; omega⟩
    obtain ⟨o, ho⟩ := ih h2 (if k = 0 then some a else old) k (by simp at hk; omega)
    exact ⟨o, by simp only [jbNumLoop, rdNext, h1, bind, Except.bind, ho]⟩

theorem nodeLoop_miss {h : Heap} {p : Option Ptr} {xs : List Ptr} {node : Ptr}
    (hs : Seg h p xs none) (hx : node ∉ xs) (f : Nat) (hf : xs.length ≤ f) (old : Option Ptr) :
    jbNodeLoop h node f old p = .ok (some (old, none)) := by
  induction xs generalizing p f with
  | nil => simp [Seg] at hs; subst hs; cases f <;> simp [jbNodeLoop]
  | cons a as ih =>
    obtain ⟨rfl, n, h1, h2⟩ := hs
    obtain ⟨f, rfl⟩ : ∃ m, f = m + 1 := ⟨f - 1, by simp at hf; omega⟩
    simp only [List.mem_cons, not_or] at hx
    have hnn : n ≠ some node := by
      rintro rfl
      cases as with
      | nil => simp [Seg] at h2
      | cons b bs => obtain ⟨e, _⟩ := h2; simp at e; simp [e] at hx
    simp only [jbNodeLoop, rdNext, h1, bind, Except.bind, hnn, if_false, Ne.symm hx.1,
      ih h2 hx.2 f (by simpa using hf)]

theorem nodeLoop_hit {h : Heap} {p : Option Ptr} {as bs : List Ptr} {node : Ptr}
    (hs : Seg h p (as ++ node :: bs) none) (hx : node ∉ as) (hy : node ∉ bs) (f : Nat)
    (hf : as.length < f) (old : Option Ptr) :
    jbNodeLoop h node f old p = .ok (some (as.getLast?.or old, some node)) := by
  induction as generalizing p f old with
  | nil =>
    obtain ⟨rfl, n, h1, h2⟩ := hs
    obtain ⟨f, rfl⟩ : ∃ m, f = m + 1 := ⟨f - 1, by simp at hf; omega⟩
    have hnn : n ≠ some node := by
      rintro rfl
      cases bs with
      | nil => simp [Seg] at h2
      | cons b bs => obtain ⟨e, _⟩ := h2; simp at e; simp [e] at hy
    simp [jbNodeLoop, rdNext, h1, bind, Except.bind, hnn]
  | cons a as ih =>
    obtain ⟨rfl, n, h1, h2⟩ := hs
    obtain ⟨f, rfl⟩ : ∃ m, f = m + 1 := ⟨f - 1, by simp at hf; omega⟩
    simp only [List.mem_cons, not_or] at hx
    have := ih h2 hx.2 f (by simpa using hf) (if n = some node then some a else old)
    simp only [jbNodeLoop, rdNext, h1, bind, Except.bind, Ne.symm hx.1, if_false, this]
    cases as with
    | nil => obtain ⟨rfl, _⟩ := h2; simp
    | cons b as =>
      obtain ⟨rfl, _⟩ := h2
      have : b ≠ node := fun e => hx.2 (by simp [e])
      simp [List.getLast?_cons]

theorem holds_split {h : Heap} {l : JbList} {xs : List Ptr} (H : Holds h l xs) {x : Ptr}
    (hx : x ∈ xs) : ∃ as bs, xs = as ++ x :: bs ∧ x ∉ as ∧ x ∉ bs := by
  obtain ⟨as, bs, rfl⟩ := List.append_of_mem hx
  have hn := H.2.2
  rw [List.nodup_append, List.nodup_cons] at hn
  exact ⟨as, bs, rfl, fun hm => hn.2.2 x hm x (by simp) rfl, hn.2.1.1⟩

theorem holds_first_eq {h : Heap} {l : JbList} {as bs : List Ptr} {x : Ptr}
    (H : Holds h l (as ++ x :: bs)) (hx : x ∉ as) : (some x = l.first) ↔ as = [] := by
  have hs := H.1
  cases as with
  | nil => obtain ⟨e, _⟩ := hs; simp [e]
  | cons a as =>
    obtain ⟨e, _⟩ := hs
    simp only [List.mem_cons, not_or] at hx
    simp [e, hx.1]

/-! ## Theorems -/

/-- A new list is empty on every heap. -/
theorem jbNewList_holds (h : Heap) : Holds h jbNewList [] := by
  simp [Holds, Seg, jbNewList]

/-- Adding an allocated node that is not in the list appends it at the end, and touches no node
outside the list. -/
theorem jbAddNode_appends {h : Heap} {l : JbList} {xs : List Ptr} {node : Ptr}
    (H : Holds h l xs) (hx : node ∉ xs) (ha : h node ≠ none) :
    ∃ h' l', jbAddNode h l node = .ok (h', l') ∧ Holds h' l' (xs ++ [node]) ∧
      (∀ q, q ∉ xs → q ≠ node → h' q = h q) := by
  obtain ⟨hs, hl, hn⟩ := H
  obtain ⟨w, hw⟩ : ∃ w, h node = some w := by
    cases hh : h node with
    | none => exact absurd hh ha
    | some v => exact ⟨v, rfl⟩
  have nd : (xs ++ [node]).Nodup := by
    rw [List.nodup_append]
    exact ⟨hn, by simp, fun a ha b hb e => hx (by simp at hb; exact hb ▸ e ▸ ha)⟩
  by_cases hxe : xs = []
  · subst hxe
    simp [Seg] at hs
    refine ⟨fun q => if q = node then some none else h q, ⟨some node, some node⟩, ?_, ?_, ?_⟩
    · simp [jbAddNode, hs, wrNext, hw, bind, Except.bind]
    · simp [Holds, Seg]
    · intro q _ hq; simp [hq]
  · obtain ⟨ys, o, rfl⟩ := eq_append_getLast hxe
    have hon : o ≠ node := fun e => hx (by simp [e])
    have hoy : o ∉ ys := by
      rw [List.nodup_append] at hn
      exact fun hm => hn.2.2 o hm o (by simp) rfl
    obtain ⟨v, ho⟩ : ∃ v, h o = some v := by
      have := hs.alloc o (by simp)
      cases hh : h o with
      | none => exact absurd hh this
      | some v => exact ⟨v, rfl⟩
    obtain ⟨f, hf⟩ : ∃ f, l.first = some f := by
      cases ys with
      | nil => exact ⟨_, hs.1⟩
      | cons y ys => exact ⟨_, hs.1⟩
    have hl' : l.last = some o := by simp [hl]
    refine ⟨fun q => if q = node then some none else if q = o then some (some node) else h q,
      ⟨l.first, some node⟩, ?_, ?_, ?_⟩
    · simp [jbAddNode, hf, hl', wrNext, ho, hw, bind, Except.bind, Ne.symm hon]
    · refine ⟨Seg.append.2 ⟨some node, ?_, ?_⟩, by simp, nd⟩
      · refine (hs.redirect hoy (some node)).congr fun x hm => ?_
        simp only [show x ≠ node from fun e => hx (e ▸ hm), if_false]
      · exact ⟨rfl, none, by simp, rfl⟩
    · intro q hq hqn
      simp only [List.mem_append, List.mem_singleton, not_or] at hq
      simp [hqn, hq.2]

/-- Removing a node of the list leaves the others in order, frees exactly that node, and touches
nothing outside the list. -/
theorem jbFreeNode_removes {h : Heap} {l : JbList} {xs : List Ptr} {node : Ptr}
    (H : Holds h l xs) (hx : node ∈ xs) (fuel : Nat) (hf : xs.length ≤ fuel) :
    ∃ h' l', jbFreeNode fuel h l node = .ok (some (h', l')) ∧ Holds h' l' (xs.filter (· ≠ node)) ∧
      h' node = none ∧ (∀ q, q ∉ xs → h' q = h q) := by
  obtain ⟨as, bs, rfl, h1, h2⟩ := holds_split H hx
  obtain ⟨h', l', e, H', hn, fr⟩ := unlink_spec H
  have hfl : (as ++ node :: bs).filter (· ≠ node) = as ++ bs := by
    rw [List.filter_append, List.filter_cons]
    simp only [ne_eq, not_true_eq_false, decide_false, Bool.false_eq_true, if_false]
    rw [List.filter_eq_self.2 (by intro a ha; simp; rintro rfl; exact h1 ha),
      List.filter_eq_self.2 (by intro a ha; simp; rintro rfl; exact h2 ha)]
  refine ⟨h', l', ?_, hfl ▸ H', hn, fr⟩
  have hlen : as.length < fuel := by simp at hf; omega
  have hd : decide (some node = l.first) = decide (as = []) := by
    simp only [holds_first_eq H h1]
  simp only [jbFreeNode, nodeLoop_hit H.1 h1 h2 fuel hlen none, bind, Except.bind, Option.or_none,
    if_true, hd, e]

/-- Removing a node that is not in the list changes nothing. -/
theorem jbFreeNode_absent {h : Heap} {l : JbList} {xs : List Ptr} {node : Ptr}
    (H : Holds h l xs) (hx : node ∉ xs) (fuel : Nat) (hf : xs.length ≤ fuel) :
    jbFreeNode fuel h l node = .ok (some (h, l)) := by
  simp [jbFreeNode, nodeLoop_miss H.1 hx fuel hf none, bind, Except.bind]

/-- Removing by position removes exactly that position. -/
theorem jbFreeNum_removes {h : Heap} {l : JbList} {xs : List Ptr} (H : Holds h l xs) (num : Nat)
    (hn : num < xs.length) :
    ∃ h' l', jbFreeNum h l num = .ok (h', l') ∧ Holds h' l' (xs.take num ++ xs.drop (num + 1)) ∧
      h' xs[num] = none ∧ (∀ q, q ∉ xs → h' q = h q) := by
  have hxs : xs = xs.take num ++ xs[num] :: xs.drop (num + 1) := by
    rw [List.getElem_cons_drop, List.take_append_drop]
  have H0 := H
  rw [hxs] at H
  obtain ⟨h', l', e, H', hf, fr⟩ := unlink_spec H
  refine ⟨h', l', ?_, H', hf, fun q hq => fr q (by rw [← hxs]; exact hq)⟩
  obtain ⟨q, ha, hq⟩ := Seg.append.1 H.1
  have := numLoop_run ha none
  rw [List.length_take, Nat.min_eq_left (Nat.le_of_lt hn)] at this
  have hq1 := hq.1
  have hd : decide (num = 0) = decide (xs.take num = []) := by
    simp only [List.take_eq_nil_iff]
    by_cases h0 : num = 0
    · simp [h0]
    · simp [h0]; rintro rfl; simp at hn
  simp only [jbFreeNum, this, bind, Except.bind, Option.or_none, if_true, hq1, hd, e]

/-- Position equal to the length: the code dereferences the null pointer. -/
theorem jbFreeNum_at_length {h : Heap} {l : JbList} {xs : List Ptr} (H : Holds h l xs) :
    jbFreeNum h l xs.length = .error .nullDeref := by
  have := numLoop_run H.1 none
  simp only [jbFreeNum, this, bind, Except.bind, if_true, Option.or_none, jbUnlink, rdNext]
  cases xs.getLast? <;> simp

/-- Position beyond the length: nothing happens. -/
theorem jbFreeNum_beyond {h : Heap} {l : JbList} {xs : List Ptr} (H : Holds h l xs) (num : Nat)
    (hn : xs.length < num) : jbFreeNum h l num = .ok (h, l) := by
  obtain ⟨o, ho⟩ := numLoop_short H.1 none num hn
  simp [jbFreeNum, ho, bind, Except.bind]

theorem freeLoop_spec {h : Heap} {p : Option Ptr} {xs : List Ptr} (hs : Seg h p xs none)
    (hn : xs.Nodup) (f : Nat) (hf : xs.length ≤ f) :
    jbFreeLoop f h p = .ok (some fun q => if q ∈ xs then none else h q) := by
  induction xs generalizing h p f with
  | nil => simp [Seg] at hs; subst hs; cases f <;> simp [jbFreeLoop]
  | cons a as ih =>
    obtain ⟨rfl, n, h1, h2⟩ := hs
    obtain ⟨f, rfl⟩ : ∃ m, f = m + 1 := ⟨f - 1, by simp at hf; omega⟩
    rw [List.nodup_cons] at hn
    have h2' : Seg (fun q => if q = a then none else h q) n as none :=
      h2.congr fun x hx => by simp [show x ≠ a from fun e => hn.1 (e ▸ hx)]
    simp only [jbFreeLoop, rdNext, h1, osFree, bind, Except.bind, ih h2' hn.2 f (by simpa using hf)]
    congr 2
    funext q
    by_cases hq : q = a <;> by_cases hq2 : q ∈ as <;> simp [hq, hq2]

/-- Freeing a list frees each of its nodes exactly once, nothing else, and leaves an empty list. -/
theorem jbFreeList_frees {h : Heap} {l : JbList} {xs : List Ptr} (H : Holds h l xs) (fuel : Nat)
    (hf : xs.length ≤ fuel) :
    jbFreeList fuel h l = .ok (some (fun q => if q ∈ xs then none else h q, jbNewList)) := by
  simp [jbFreeList, freeLoop_spec H.1 H.2.2 fuel hf, bind, Except.bind]

/-! ### Every history of operations -/

/-- Operations of the API; `add` first allocates the node. -/
inductive ListOp where
  | add (p : Ptr)
  | freeNode (p : Ptr)
  | freeNum (n : Nat)
  | freeAll

/-- The same operation on a plain sequence. `none`: the operation is a misuse (adding a node already
in the list, or removing at position = length). -/
def ListOp.abs (xs : List Ptr) : ListOp → Option (List Ptr)
  | .add p => if p ∈ xs then none else some (xs ++ [p])
  | .freeNode p => some (xs.filter (· ≠ p))
  | .freeNum n => if n = xs.length then none else some (xs.eraseIdx n)
  | .freeAll => some []

/-- The operation on the heap (fuel large enough for every list, see `jbFreeList_frees`). -/
def ListOp.run (fuel : Nat) (h : Heap) (l : JbList) : ListOp → Except UB (Option (Heap × JbList))
  | .add p => (jbAddNode (fun q => if q = p then some ((h p).getD none) else h q) l p).map some
  | .freeNode p => jbFreeNode fuel h l p
  | .freeNum n => (jbFreeNum h l n).map some
  | .freeAll => jbFreeList fuel h l

def absAll : List Ptr → List ListOp → Option (List Ptr)
  | xs, [] => some xs
  | xs, o :: os => (o.abs xs).bind fun ys => absAll ys os

def runAll (fuel : Nat) : Heap → JbList → List ListOp → Except UB (Option (Heap × JbList))
  | h, l, [] => .ok (some (h, l))
  | h, l, o :: os =>
    match o.run fuel h l with
    | .error e => .error e
    | .ok none => .ok none
    | .ok (some (h', l')) => runAll fuel h' l' os

theorem ListOp.abs_length {xs ys : List Ptr} {o : ListOp} (h : o.abs xs = some ys) :
    ys.length ≤ xs.length + 1 := by
  cases o with
  | add p => simp only [abs] at h; split at h <;> simp at h; subst h; simp
  | freeNode p =>
    simp only [abs, Option.some.injEq] at h; subst h
    have := List.length_filter_le (fun x => decide (x ≠ p)) xs; omega
  | freeNum n =>
    simp only [abs] at h; split at h <;> simp at h; subst h
    have := List.length_eraseIdx_le xs n; omega
  | freeAll => simp only [abs, Option.some.injEq] at h; subst h; simp

/-- One operation on the heap follows the same operation on the sequence. -/
theorem jbList_step {h : Heap} {l : JbList} {xs ys : List Ptr} (H : Holds h l xs) (o : ListOp)
    (ho : o.abs xs = some ys) (fuel : Nat) (hf : xs.length ≤ fuel) :
    ∃ h' l', o.run fuel h l = .ok (some (h', l')) ∧ Holds h' l' ys := by
  cases o with
  | add p =>
    simp only [ListOp.abs] at ho
    split at ho
    · simp at ho
    · rename_i hp
      simp only [Option.some.injEq] at ho; subst ho
      have H' : Holds (fun q => if q = p then some ((h p).getD none) else h q) l xs :=
        ⟨H.1.congr fun x hx => by simp [show x ≠ p from fun e => hp (e ▸ hx)], H.2⟩
      obtain ⟨h', l', e, H'', _⟩ := jbAddNode_appends H' hp (by simp)
      exact ⟨h', l', by simp only [ListOp.run, e, Except.map], H''⟩
  | freeNode p =>
    simp only [ListOp.abs, Option.some.injEq] at ho; subst ho
    by_cases hp : p ∈ xs
    · obtain ⟨h', l', e, H', _⟩ := jbFreeNode_removes H hp fuel hf
      exact ⟨h', l', e, H'⟩
    · refine ⟨h, l, jbFreeNode_absent H hp fuel hf, ?_⟩
      rwa [List.filter_eq_self.2]
      intro a ha; simp; rintro rfl; exact hp ha
  | freeNum n =>
    simp only [ListOp.abs] at ho
    split at ho
    · simp at ho
    · rename_i hn
      simp only [Option.some.injEq] at ho; subst ho
      by_cases hlt : n < xs.length
      · obtain ⟨h', l', e, H', _⟩ := jbFreeNum_removes H n hlt
        refine ⟨h', l', by simp only [ListOp.run, e, Except.map], ?_⟩
        rwa [List.eraseIdx_eq_take_drop_succ]
      · refine ⟨h, l, by simp only [ListOp.run, jbFreeNum_beyond H n (by omega), Except.map], ?_⟩
        rwa [List.eraseIdx_of_length_le (by omega)]
  | freeAll =>
    simp only [ListOp.abs, Option.some.injEq] at ho; subst ho
    exact ⟨_, _, jbFreeList_frees H fuel hf, jbNewList_holds _⟩

/-- Every history without misuse: the list behaves exactly like the sequence, and no undefined
behaviour occurs. -/
theorem jbList_refines_sequence {h : Heap} {l : JbList} {xs ys : List Ptr} (os : List ListOp)
    (H : Holds h l xs) (ho : absAll xs os = some ys) (fuel : Nat)
    (hf : xs.length + os.length ≤ fuel) :
    ∃ h' l', runAll fuel h l os = .ok (some (h', l')) ∧ Holds h' l' ys := by
  induction os generalizing h l xs with
  | nil => simp only [absAll, Option.some.injEq] at ho; subst ho; exact ⟨h, l, rfl, H⟩
  | cons o os ih =>
    simp only [absAll, Option.bind_eq_some_iff] at ho
    obtain ⟨zs, h1, h2⟩ := ho
    simp only [List.length_cons] at hf
    obtain ⟨h', l', e, H'⟩ := jbList_step H o h1 fuel (by omega)
    have := ListOp.abs_length h1
    obtain ⟨h'', l'', e', H''⟩ := ih H' h2 (by omega)
    exact ⟨h'', l'', by simp only [runAll, e, e'], H''⟩

/-- Non-vacuity: a three-node list on a concrete heap. -/
example : Holds (fun q => if q = 7 then some (some 3) else if q = 3 then some (some 9)
    else if q = 9 then some none else none) ⟨some 7, some 9⟩ [7, 3, 9] := by
  simp [Holds, Seg]

example : absAll [] [.add 7, .add 3, .add 9, .freeNode 3, .freeNum 1, .add 3] = some [7, 3] := by
  decide

/-- The misuse is real: removing at position 1 of a one-node list dereferences null. -/
example : jbFreeNum (fun q => if q = 7 then some none else none) ⟨some 7, some 7⟩ 1
    = .error .nullDeref :=
  jbFreeNum_at_length (xs := [7]) (by simp [Holds, Seg])

end CM
