import Verif.Spec.CrashExport
import Verif.Lemmas.RestartBase
import Verif.Lemmas.ReadItem
import Verif.Lemmas.Restart
/-! # CrashExport and CrashMail read the same areas -/
set_option linter.unusedSimpArgs false

namespace CM

/-! ## Words with other limits -/

theorem tokLoop_rest (q : Bool) (m m' d d' : Nat) (s : Str) : (tokLoop q m' d' s).2 = (tokLoop q m d s).2 := by
  fun_induction tokLoop q m d s generalizing d' with
  | case1 d => rw [tokLoop]
  | case2 d c r hs => rw [tokLoop.eq_def]; dsimp only; rw [if_pos hs]
  | case3 d hs => rw [tokLoop.eq_def]; dsimp only; rw [if_neg hs, if_pos rfl]
  | case4 d r hs => rw [tokLoop.eq_def]; dsimp only; rw [if_neg hs, if_pos rfl, if_pos rfl]
  | case5 d x r hs hd hx ih =>
    rw [tokLoop.eq_def]; dsimp only
    rw [if_neg hs, if_pos rfl, if_neg (by assumption)]
    split <;> exact ih _
  | case6 d x r hs hx hd ih =>
    rw [tokLoop.eq_def]; dsimp only
    rw [if_neg hs, if_pos rfl, if_neg (by assumption)]
    split <;> exact ih _
  | case7 d c r hs hc hd ih =>
    rw [tokLoop.eq_def]; dsimp only
    rw [if_neg hs, if_neg hc]
    split <;> exact ih _
  | case8 d c r hs hc hd ih =>
    rw [tokLoop.eq_def]; dsimp only
    rw [if_neg hs, if_neg hc]
    split <;> exact ih _

theorem jbstrcpy_rest (m m' : Nat) (s : Str) : (jbstrcpy m' s).2.1 = (jbstrcpy m s).2.1 := by
  unfold jbstrcpy
  dsimp only
  rw [tokLoop_rest _ m m' 0 0]

theorem rdArg_word {m m' : Nat} {s : Str} {r : Str × Str} (h : rdArg m s = .ok r) (hl : r.1.length < m - 1) (h' : m ≤ m') :
    jbstrcpy m' s = (r.1, r.2, true) := by
  unfold rdArg at h
  dsimp only at h
  rcases iteq.1 h with ⟨c, h⟩ | ⟨-, h⟩
  · cases h
    rw [jbstrcpy_limit m m' s hl (by dsimp only at hl; omega)]
    exact Prod.ext rfl (Prod.ext rfl c)
  · cases h

theorem rdArg_eq {m : Nat} {s : Str} {r : Str × Str} (h : rdArg m s = .ok r) : jbstrcpy m s = (r.1, r.2, true) := by
  unfold rdArg at h
  dsimp only at h
  rcases iteq.1 h with ⟨c, h⟩ | ⟨-, h⟩
  · cases h
    exact Prod.ext rfl (Prod.ext rfl c)
  · cases h

/-! ## What a line does not take away from an area -/

structure Later (a b : Area) : Prop where
  tag : b.tag = a.tag
  type : b.type = a.type
  path : b.path = a.path
  base : b.base = a.base
  aka : b.aka = a.aka
  toss : a.tossNodes <+: b.tossNodes

theorem Later.refl (a : Area) : Later a a := ⟨rfl, rfl, rfl, rfl, rfl, List.prefix_refl _⟩

theorem Later.trans {a b c : Area} (h : Later a b) (k : Later b c) : Later a c :=
  ⟨k.tag.trans h.tag, k.type.trans h.type, k.path.trans h.path, k.base.trans h.base, k.aka.trans h.aka, h.toss.trans k.toss⟩

theorem rdAreaCmd_later {N : List ConfigNode} {w rest : Str} {a b : Area} (h : rdAreaCmd N w rest a = .ok b) : Later a b := by
  unfold rdAreaCmd at h
  rcases iteq.1 h with ⟨-, h⟩ | ⟨-, h⟩
  · cases h; exact ⟨rfl, rfl, rfl, rfl, rfl, List.prefix_refl _⟩
  rcases iteq.1 h with ⟨-, h⟩ | ⟨-, h⟩
  · cases h; exact ⟨rfl, rfl, rfl, rfl, rfl, List.prefix_refl _⟩
  rcases iteq.1 h with ⟨-, h⟩ | ⟨-, h⟩
  · cases h; exact ⟨rfl, rfl, rfl, rfl, rfl, List.prefix_refl _⟩
  rcases iteq.1 h with ⟨-, h⟩ | ⟨-, h⟩
  · cases h; exact ⟨rfl, rfl, rfl, rfl, rfl, List.prefix_refl _⟩
  rcases iteq.1 h with ⟨-, h⟩ | ⟨-, h⟩
  · cases h; exact ⟨rfl, rfl, rfl, rfl, rfl, List.prefix_refl _⟩
  rcases iteq.1 h with ⟨-, h⟩ | ⟨-, h⟩
  · rcases iteq.1 h with ⟨-, h⟩ | ⟨-, h⟩
    · cases h
    · obtain ⟨t, -, h⟩ := ebind_ok.1 h
      rw [epure_ok] at h; subst h
      exact ⟨rfl, rfl, rfl, rfl, rfl, List.prefix_append _ _⟩
  rcases iteq.1 h with ⟨-, h⟩ | ⟨-, h⟩
  · rcases iteq.1 h with ⟨-, h⟩ | ⟨-, h⟩
    · cases h
    · obtain ⟨t, -, h⟩ := ebind_ok.1 h
      rw [epure_ok] at h; subst h
      exact ⟨rfl, rfl, rfl, rfl, rfl, List.prefix_refl _⟩
  rcases iteq.1 h with ⟨-, h⟩ | ⟨-, h⟩
  · obtain ⟨t, -, h⟩ := ebind_ok.1 h
    rw [epure_ok] at h; subst h
    exact ⟨rfl, rfl, rfl, rfl, rfl, List.prefix_refl _⟩
  rcases iteq.1 h with ⟨-, h⟩ | ⟨-, h⟩
  · obtain ⟨t, -, h⟩ := ebind_ok.1 h
    rw [epure_ok] at h; subst h
    exact ⟨rfl, rfl, rfl, rfl, rfl, List.prefix_refl _⟩
  rcases iteq.1 h with ⟨-, h⟩ | ⟨-, h⟩
  · obtain ⟨t, -, h⟩ := ebind_ok.1 h
    obtain ⟨t, -, h⟩ := ebind_ok.1 h
    rw [epure_ok] at h; subst h
    exact ⟨rfl, rfl, rfl, rfl, rfl, List.prefix_refl _⟩
  rcases iteq.1 h with ⟨-, h⟩ | ⟨-, h⟩
  · obtain ⟨t, -, h⟩ := ebind_ok.1 h
    rw [epure_ok] at h; subst h
    exact ⟨rfl, rfl, rfl, rfl, rfl, List.prefix_refl _⟩
  obtain ⟨t, -, h⟩ := ebind_ok.1 h
  rw [epure_ok] at h; subst h
  exact ⟨rfl, rfl, rfl, rfl, rfl, List.prefix_refl _⟩

/-- The areas of a later state. -/
def AreasLater (A B : List Area) : Prop := ∀ (i : Nat) (a : Area), A[i]? = some a → ∃ b, B[i]? = some b ∧ Later a b

theorem AreasLater.refl (A : List Area) : AreasLater A A := fun _ a h => ⟨a, h, .refl a⟩

theorem AreasLater.trans {A B C : List Area} (h : AreasLater A B) (k : AreasLater B C) : AreasLater A C := by
  intro i a ha
  obtain ⟨b, hb, l1⟩ := h i a ha
  obtain ⟨c, hc, l2⟩ := k i b hb
  exact ⟨c, hc, l1.trans l2⟩

theorem rdLine_later {s t : RdSt} {l : Str} (h0 : rdLine s l = .ok t) : AreasLater s.cfg.areas t.cfg.areas := by
  rcases rdLine_cases h0 with ⟨a, -, h, rfl⟩ | ⟨A, a, b, -, -, hA, h, rfl⟩ | ⟨n, -, -, -, h, rfl⟩ | ⟨N, m, n, -, -, -, -, hN, h, rfl⟩ |
    ⟨-, -, -, -, h⟩
  · intro i x hx
    refine ⟨x, ?_, .refl x⟩
    simp only [withArea]
    rw [List.getElem?_append_left (by have := List.getElem?_eq_some_iff.1 hx; exact this.1)]
    exact hx
  · intro i x hx
    rw [hA] at hx
    simp only [withArea]
    by_cases hi : i < A.length
    · rw [List.getElem?_append_left hi] at hx ⊢
      exact ⟨x, hx, .refl x⟩
    · rw [List.getElem?_append_right (by omega)] at hx ⊢
      cases hk : i - A.length with
      | zero =>
        rw [hk] at hx
        simp only [List.getElem?_cons_zero, Option.some.injEq] at hx
        subst hx
        exact ⟨b, rfl, rdAreaCmd_later h⟩
      | succ k => rw [hk] at hx; simp at hx
  · exact .refl _
  · exact .refl _
  · obtain ⟨e1, -, -, -⟩ := rdRest_apart s _ _ t h
    rw [e1]; exact .refl _

theorem rdLines_later {s t : RdSt} : ∀ {ls : List Str}, rdLines s ls = .ok t → AreasLater s.cfg.areas t.cfg.areas := by
  intro ls
  induction ls generalizing s with
  | nil => intro h; cases h; exact .refl _
  | cons l ls ih =>
    intro h
    obtain ⟨u, h1, h2⟩ := rdLines_cons h
    exact (rdLine_later h1).trans (ih h2)

/-! ## The nodes of an area -/

theorem spaced_cons2 (w x : Str) (ws : List Str) : spaced (w :: x :: ws) = w ++ 32 :: spaced (x :: ws) := rfl

theorem spaced_snoc (ws : List Str) (w : Str) (h : ws ≠ []) : spaced (ws ++ [w]) = spaced ws ++ b!" " ++ w := by
  induction ws with
  | nil => exact absurd rfl h
  | cons x ws ih =>
    cases ws with
    | nil => simp [spaced]
    | cons y ws =>
      have := ih (by simp)
      rw [List.cons_append] at this
      rw [List.cons_append, List.cons_append, spaced_cons2, spaced_cons2, this]
      simp

theorem spaced_length (ws : List Str) (k : Nat) (h : ∀ w ∈ ws, w.length ≤ k) : (spaced ws).length ≤ (k + 1) * ws.length := by
  induction ws with
  | nil => simp [spaced]
  | cons x ws ih =>
    have hx := h x (List.mem_cons_self ..)
    have := ih fun w hw => h w (List.mem_cons_of_mem _ hw)
    cases ws with
    | nil => simp [spaced]; omega
    | cons y ws =>
      rw [spaced_cons2]
      simp only [List.length_append, List.length_cons] at this ⊢
      rw [Nat.mul_add (k + 1) (ws.length + 1) 1]
      omega

theorem print4D_ne (n : Node4D) : print4D n ≠ [] := by
  unfold print4D
  split <;> simp

theorem spaced_ne (ns : List Node4D) : spaced (ns.map print4D) = [] ↔ ns = [] := by
  cases ns with
  | nil => simp [spaced]
  | cons n ns =>
    cases ns with
    | nil => simp [spaced, print4D_ne]
    | cons m ns => simp [spaced, print4D_ne]

theorem NodeAddrs.snoc {N : List Node4D} {ts : List TossNode} {ns : List Node4D} (h : NodeAddrs N ts ns) {t : TossNode} {n m : Node4D}
    (hm : N[t.node]? = some m) (e : SameAddr n m) : NodeAddrs N (ts ++ [t]) (ns ++ [n]) := by
  induction h with
  | nil => exact .cons m hm e .nil
  | cons m' h' e' _ ih => exact .cons m' h' e' ih

theorem NodeAddrs.length {N : List Node4D} {ts : List TossNode} {ns : List Node4D} (h : NodeAddrs N ts ns) : ns.length = ts.length := by
  induction h with
  | nil => rfl
  | cons _ _ _ _ ih => simp [ih]

theorem exportMark_plain {w : Str} (h : (exportMark w).1 = 0) : (exportMark w).2 = w ∧ w.head? ≠ some 33 ∧ w.head? ≠ some 37 ∧ w.head? ≠ some 64 := by
  unfold exportMark at h ⊢
  dsimp only at h ⊢
  by_cases h1 : w.head? = some 33
  · rw [if_pos h1] at h
    by_cases h2 : w.tail.head? = some 64
    · rw [if_pos h2] at h
      dsimp only at h
      split at h <;> (dsimp only at h; exact absurd h (by decide))
    · rw [if_neg h2] at h
      dsimp only at h
      split at h <;> (dsimp only at h; exact absurd h (by decide))
  · rw [if_neg h1] at h ⊢
    dsimp only at h ⊢
    by_cases h2 : w.head? = some 64
    · rw [if_pos h2] at h
      dsimp only at h
      split at h <;> (dsimp only at h; exact absurd h (by decide))
    · rw [if_neg h2] at h ⊢
      dsimp only at h ⊢
      by_cases h3 : w.head? = some 37
      · rw [if_pos h3] at h; dsimp only at h; exact absurd h (by decide)
      · rw [if_neg h3]; exact ⟨rfl, h1, h3, h2⟩

theorem rdKnown_addr {nodes : List ConfigNode} {n : Node4D} {i : Nat} (h : rdKnown nodes n = .ok i) :
    ∃ m, (nodes.map (·.node))[i]? = some m ∧ SameAddr n m := by
  unfold rdKnown at h
  cases hf : nodes.findIdx? fun c => compare4D n c.node == 0 with
  | none => rw [hf] at h; cases h
  | some j =>
    rw [hf] at h
    cases h
    obtain ⟨hi, hp, -⟩ := List.findIdx?_eq_some_iff_getElem.1 hf
    refine ⟨nodes[i].node, ?_, (compare4D_beq _ _).1 hp⟩
    rw [List.getElem?_map, List.getElem?_eq_getElem hi]; rfl

theorem prefix_getElem? {α : Type} {l r : List α} (h : l <+: r) {i : Nat} {x : α} (hx : l[i]? = some x) : r[i]? = some x := by
  obtain ⟨t, rfl⟩ := h
  rw [List.getElem?_append_left (List.getElem?_eq_some_iff.1 hx).1]
  exact hx

theorem cxAddrs_ok {nodes : List ConfigNode} {N : List Node4D} (hN : nodes.map (·.node) <+: N) :
    ∀ (ws : List Str) (tpl : Node4D) (new old : List TossNode) (ns : List Node4D), rdExport nodes tpl ws = .ok new → NodeAddrs N old ns →
      (∀ t ∈ new, t.flags = 0) → (old ++ new).length ≤ 40 →
      ∃ ms tpl', ws.foldlM cxAddr (spaced (ns.map print4D), tpl) = .ok (spaced (ms.map print4D), tpl') ∧ NodeAddrs N (old ++ new) ms := by
  intro ws
  induction ws with
  | nil =>
    intro tpl new old ns h ha _ _
    cases h
    exact ⟨ns, tpl, rfl, by simpa using ha⟩
  | cons w ws ih =>
    intro tpl new old ns h ha hf hl
    rw [rdExport] at h
    cases hp : parse4DTemplate (exportMark w).2 tpl with
    | none => rw [hp] at h; cases h
    | some n =>
      rw [hp] at h
      obtain ⟨i, hi, h⟩ := ebind_ok.1 h
      obtain ⟨r, hr, h⟩ := ebind_ok.1 h
      rw [epure_ok] at h
      subst h
      have hm : (exportMark w).1 = 0 := hf _ (List.mem_cons_self ..)
      obtain ⟨e2, p1, p2, p3⟩ := exportMark_plain hm
      obtain ⟨m, hmi, hsa⟩ := rdKnown_addr hi
      have ha' := ha.snoc (t := ⟨i, (exportMark w).1⟩) (prefix_getElem? hN hmi) hsa
      have hlen := ha.length
      simp only [List.length_append, List.length_cons] at hl
      obtain ⟨ms, tpl', g1, g2⟩ := ih { n with point := 0 } r _ _ hr ha' (fun t ht => hf t (List.mem_cons_of_mem _ ht))
        (by simp only [List.length_append, List.length_cons, List.length_nil]; omega)
      refine ⟨ms, tpl', ?_, by simpa using g2⟩
      rw [List.foldlM_cons]
      have hs := spaced_length (ns.map print4D) 23 (by
        intro x hx
        obtain ⟨y, -, rfl⟩ := List.mem_map.1 hx
        exact print4D_length y)
      rw [List.length_map, hlen] at hs
      have hstep : cxAddr (spaced (ns.map print4D), tpl) w = .ok (spaced ((ns ++ [n]).map print4D), { n with point := 0 }) := by
        have hj : (if spaced (ns.map print4D) ≠ [] then spaced (ns.map print4D) ++ b!" " else spaced (ns.map print4D)) ++ print4D n =
            spaced ((ns ++ [n]).map print4D) := by
          rw [List.map_append, List.map_cons, List.map_nil]
          by_cases hn : ns = []
          · subst hn; simp [spaced]
          · rw [if_pos (by rw [ne_eq, spaced_ne]; exact hn), spaced_snoc _ _ (by simpa using hn)]
        have hl2 : (spaced ((ns ++ [n]).map print4D)).length < 1000 := by
          have := spaced_length ((ns ++ [n]).map print4D) 23 (by
            intro x hx
            obtain ⟨y, -, rfl⟩ := List.mem_map.1 hx
            exact print4D_length y)
          simp only [List.length_map, List.length_append, List.length_cons, List.length_nil] at this
          omega
        have hmk : ¬ (w.head? = some 33 ∨ w.head? = some 37 ∨ w.head? = some 64) :=
          fun h => h.elim p1 fun h => h.elim p2 p3
        unfold cxAddr
        dsimp only
        rw [if_neg (fun h => hmk h.1), if_neg hmk]
        rw [e2] at hp
        rw [hp]
        dsimp only
        rw [if_pos (by omega), hj, if_pos hl2]
      rw [hstep]
      exact g1

/-! ## One area -/

/-- CrashExport's variables hold the area. -/
structure Cur (N K : List Node4D) (a : Area) (x : CxSt) : Prop where
  tag : x.tag = a.tag
  type : x.type = a.type
  path : x.path = a.path
  base : baseOf x.base = a.base
  nobase : a.base = none → x.base = []
  aka : AddressOf K a x.aka
  group : upper x.group = a.group
  unconf : x.unconfirmed = a.has AREA_UNCONFIRMED
  exports : ∃ ns, NodeAddrs N a.tossNodes ns ∧ x.exports = spaced (ns.map print4D)
  desc : a.description.length < 79 → x.desc = a.description

/-- Behind the last word there is no other. -/
theorem jbstrcpy_noWord {m m' : Nat} {s : Str} (hm : ¬ (jbstrcpy (m + 2) s).2.2 = true) : (jbstrcpy m' (jbstrcpy (m + 2) s).2.1).1 = [] := by
  have key : s.dropWhile isBlank = [] ∨ ∃ r, s.dropWhile isBlank = 10 :: r := by
    cases hd : s.dropWhile isBlank with
    | nil => exact .inl rfl
    | cons c r =>
      have hb : isBlank c = false := by
        have := List.head_dropWhile_not isBlank (l := s) (by rw [hd]; simp)
        simpa [hd] using this
      refine .inr ⟨r, ?_⟩
      unfold jbstrcpy at hm
      dsimp only at hm
      rw [hd] at hm
      rw [List.head?_cons, Bool.not_eq_true, Bool.or_eq_false_iff] at hm
      obtain ⟨h1, h3⟩ := hm
      rw [h3] at h1
      simp only [Bool.false_eq_true, if_false] at h1
      have h1 : (tokLoop false (m + 2) 0 (c :: r)).1 = [] := by
        simpa using h1
      rw [tokLoop.eq_def] at h1
      dsimp only at h1
      by_cases hs : tokStop false c = true
      · unfold tokStop at hs
        unfold isBlank at hb
        simp only [Bool.false_eq_true, if_false, Bool.or_eq_true, hb, or_false, beq_iff_eq] at hs
        rw [hs]
      · rw [if_neg hs] at h1
        by_cases hc : c = 92
        · rw [if_pos hc] at h1
          cases r with
          | nil => simp at h1
          | cons e r' => 
            dsimp only at h1
            split at h1 <;> simp at h1
        · rw [if_neg hc] at h1
          simp at h1
  have hr : (jbstrcpy (m + 2) s).2.1 = s.dropWhile isBlank := by
    unfold jbstrcpy
    dsimp only
    rcases key with k | ⟨r, k⟩
    · rw [k]; simp [tokLoop, skipSep]
    · rw [k]; simp [tokLoop.eq_def, tokStop, skipSep]
  rw [hr]
  unfold jbstrcpy
  dsimp only
  rcases key with k | ⟨r, k⟩
  · rw [k]; simp [tokLoop]
  · rw [k]; simp [tokLoop.eq_def, tokStop, isBlank]

/-- The first byte of a word does not depend on the limit. -/
theorem jbstrcpy_head (m m' : Nat) (s : Str) : (jbstrcpy (m + 2) s).1.headD 0 = (jbstrcpy (m' + 2) s).1.headD 0 := by
  have h : ∀ (q : Bool) (t : Str), (tokLoop q (m + 2) 0 t).1.headD 0 = (tokLoop q (m' + 2) 0 t).1.headD 0 := by
    intro q t
    cases t with
    | nil => simp [tokLoop]
    | cons c r =>
      rw [tokLoop.eq_def, tokLoop.eq_def q (m' + 2)]
      dsimp only
      split
      · rfl
      · split
        · cases r with
          | nil => simp
          | cons e r' => dsimp only; split <;> simp
        · simp
  exact h _ _

theorem rdBase_cx {s : Str} {r : Option Nat × Str} (h : rdBase s = .ok r) (hl : r.2.length < 79) :
    baseOf (jbstrcpy 10 s).1 = r.1 ∧ (r.1 = none → (jbstrcpy 10 s).1 = []) ∧ (jbstrcpy 100 (jbstrcpy 10 s).2.1).1 = r.2 := by
  unfold rdBase at h
  dsimp only at h
  rcases iteq.1 h with ⟨c, h⟩ | ⟨c, h⟩
  · cases hb : baseOf (jbstrcpy 200 s).1 with
    | none => rw [hb] at h; cases h
    | some b =>
      rw [hb] at h
      obtain ⟨p, hp, h⟩ := ebind_ok.1 h
      rw [epure_ok] at h
      subst h
      have hlen : (jbstrcpy 200 s).1.length = 3 := by
        unfold baseOf at hb
        rcases iteq.1 hb with ⟨e, -⟩ | ⟨-, hb⟩
        · have := congrArg List.length ((eqi_iff _ _).1 e); simpa using this
        rcases iteq.1 hb with ⟨e, -⟩ | ⟨-, hb⟩
        · have := congrArg List.length ((eqi_iff _ _).1 e); simpa using this
        · cases hb
      rw [jbstrcpy_limit 200 10 s (by omega) (by omega)]
      refine ⟨hb, (by simp), ?_⟩
      rw [rdArg_word hp (by dsimp only at hl; omega) (by omega)]
  · cases h
    have hnil : (jbstrcpy 200 s).1 = [] := by
      unfold jbstrcpy at c ⊢
      dsimp only at c ⊢
      simp only [ne_eq, Bool.or_eq_true, decide_eq_true_eq, not_or, Decidable.not_not] at c
      exact c.1
    have e10 : jbstrcpy 10 s = jbstrcpy 200 s := jbstrcpy_limit 200 10 s (by rw [hnil]; decide) (by rw [hnil]; decide)
    rw [e10, hnil]
    refine ⟨rfl, fun _ => rfl, ?_⟩
    rw [jbstrcpy_noWord c]

theorem rdArea_cx {fmt : XFormat} {grp : Option Str} {N K : List Node4D} {akas : List Aka} (hK : akas.map (·.node) <+: K) {w rest : Str} {a : Area}
    {x : CxSt} (h : rdArea akas w rest = .ok a) (ht : a.tag.length < 79) (hp : a.path.length < 79)
    (hw : (jbstrcpy 200 (jbstrcpy 80 rest).2.1).1.length < 49) : Cur N K a (cxArea fmt grp x w rest) := by
  unfold rdArea at h
  obtain ⟨tag, h1, h⟩ := ebind_ok.1 h
  obtain ⟨adr, h2, h⟩ := ebind_ok.1 h
  obtain ⟨n, h3, h⟩ := ebind_ok.1 h
  cases hf : akas.findIdx? fun k => compare4D n k.node == 0 with
  | none => rw [hf] at h; cases h
  | some i =>
    rw [hf] at h
    obtain ⟨b, h4, h⟩ := ebind_ok.1 h
    obtain ⟨ty, h5, h⟩ := ebind_ok.1 h
    rw [epure_ok] at h
    subst h
    have e1 := rdArg_word h1 (m' := 100) (by dsimp only at ht; omega) (by omega)
    rw [rdArg_eq h1] at hw
    rw [rdArg_eq h2] at hw
    dsimp only at hw hp ht
    have e2 : jbstrcpy 50 tag.2 = (adr.1, adr.2, true) := by
      rw [jbstrcpy_limit 200 50 tag.2 (by rw [rdArg_eq h2]; dsimp only; omega) (by rw [rdArg_eq h2]; dsimp only; omega)]
      exact rdArg_eq h2
    obtain ⟨b1, b2, b3⟩ := rdBase_cx h4 hp
    unfold cxArea
    rw [e1]
    dsimp only
    rw [e2]
    dsimp only
    refine ⟨rfl, ?_, b3, b1, b2, ?_, rfl, (by simp [Area.has]), ⟨[], .nil, rfl⟩, fun _ => rfl⟩
    · dsimp only
      unfold rdAreaType at h5
      rcases iteq.1 h5 with ⟨c, h⟩ | ⟨c, h5⟩
      · rw [if_pos c]
        rcases iteq.1 h with ⟨-, h⟩ | ⟨-, h⟩ <;> cases h
        rfl
      rw [if_neg c]
      rcases iteq.1 h5 with ⟨c, h⟩ | ⟨c, h5⟩
      · rw [if_pos c]
        rcases iteq.1 h with ⟨-, h⟩ | ⟨-, h⟩ <;> cases h
        rfl
      rw [if_neg c]
      rcases iteq.1 h5 with ⟨c, h⟩ | ⟨c, h5⟩
      · rw [if_pos c]
        rcases iteq.1 h with ⟨-, h⟩ | ⟨-, h⟩ <;> cases h
        rfl
      rw [if_neg c]
      rcases iteq.1 h5 with ⟨c, h⟩ | ⟨c, h5⟩
      · rw [if_pos c]; cases h; rfl
      rw [if_neg c]; cases h5; rfl
    · obtain ⟨hi, hq, -⟩ := List.findIdx?_eq_some_iff_getElem.1 hf
      refine ⟨n, i, akas[i].node, ?_, rfl, prefix_getElem? hK ?_, (compare4D_beq _ _).1 hq⟩
      · unfold rdNode at h3
        cases hp4 : parse4D adr.1 with
        | none => rw [hp4] at h3; cases h3
        | some k => rw [hp4] at h3; cases h3; rfl
      · rw [List.getElem?_map, List.getElem?_eq_getElem hi]; rfl

theorem flag_other {f m : UInt8} (hm : m &&& AREA_UNCONFIRMED = 0) : ((f ||| m) &&& AREA_UNCONFIRMED != 0) = (f &&& AREA_UNCONFIRMED != 0) := by
  rw [and_or8, hm, UInt8.or_zero]

/-- A line of an area. -/
theorem rdAreaCmd_cx {fmt : XFormat} {grp : Option Str} {N K : List Node4D} {nodes : List ConfigNode} (hN : nodes.map (·.node) <+: N) {l : Str}
    {a b : Area} {x : CxSt} (hA : isAreaWord (keyword l) = false) (h : rdAreaCmd nodes (keyword l) (jbstrcpy 30 l).2.1 a = .ok b)
    (hc : Cur N K a x) (hm : ∀ t ∈ b.tossNodes, t.flags = 0) (hl : b.tossNodes.length ≤ 40) :
    ∃ y, cxLine fmt grp x l = .ok y ∧ Cur N K b y ∧ y.out = x.out := by
  unfold cxLine
  dsimp only
  rw [show (jbstrcpy 30 l).1 = keyword l from rfl, if_neg (by rw [hA]; decide)]
  generalize keyword l = w at h hA
  generalize (jbstrcpy 30 l).2.1 = rest at h
  have no : ∀ {k : Str}, eqi w k = true → ∀ y : Str, eqi k y = false → ¬ eqi w y = true := by
    intro k hk y hy hw
    rw [eqi_same hk, hy] at hw
    cases hw
  have same : ∀ (b : Area), a.tag = b.tag → a.type = b.type → a.path = b.path → a.base = b.base → a.aka = b.aka → a.group = b.group →
      b.has AREA_UNCONFIRMED = a.has AREA_UNCONFIRMED → a.tossNodes = b.tossNodes → a.description = b.description → Cur N K b x := by
    intro b e1 e2 e3 e4 e5 e6 e7 e8 e9
    obtain ⟨c1, c2, c3, c4, c5, c6, c7, c8, c9, c10⟩ := hc
    refine ⟨by rw [c1, e1], by rw [c2, e2], by rw [c3, e3], by rw [c4, e4], by rw [← e4]; exact c5, ?_, by rw [c7, e6], by rw [c8, e7],
      by rw [← e8]; exact c9, by rw [← e9]; exact c10⟩
    obtain ⟨n, k, m, q1, q2, q3⟩ := c6
    exact ⟨n, k, m, q1, by rw [← e5]; exact q2, q3⟩
  unfold rdAreaCmd at h
  rcases iteq.1 h with ⟨c, h⟩ | ⟨c1, h⟩
  · cases h
    rw [if_neg (no c _ (by decide)), if_pos c]
    obtain ⟨q1, q2, q3, q4, q5, q6, q7, q8, q9, q10⟩ := hc
    refine ⟨_, rfl, ⟨q1, q2, q3, q4, q5, q6, q7, ?_, q9, q10⟩, rfl⟩
    dsimp only [Area.has]
    rw [and_or8, show AREA_UNCONFIRMED &&& AREA_UNCONFIRMED = 1 from by decide]
    have : ∀ y : UInt8, ((y ||| 1) != 0) = true := by
      intro y
      rw [bne_iff_ne]
      intro e
      rw [UInt8.or_eq_zero_iff] at e
      exact absurd e.2 (by decide)
    exact (this _).symm
  have skip : eqi w b!"EXPORT" = false → eqi w b!"DESCRIPTION" = false → eqi w b!"GROUP" = false → ∀ (b : Area), a.tag = b.tag → a.type = b.type →
      a.path = b.path → a.base = b.base → a.aka = b.aka → a.group = b.group →
      b.has AREA_UNCONFIRMED = a.has AREA_UNCONFIRMED → a.tossNodes = b.tossNodes → a.description = b.description →
      ∃ y, (if eqi w b!"EXPORT" = true then (do
          let r ← (rdWords 100 rest).foldlM cxAddr (x.exports, ⟨0, 0, 0, 0⟩)
          pure { x with exports := r.1 } : Except CxErr CxSt)
        else if eqi w b!"UNCONFIRMED" = true then .ok { x with unconfirmed := true }
        else if eqi w b!"DESCRIPTION" = true then .ok { x with desc := (jbstrcpy 100 rest).1 }
        else if eqi w b!"GROUP" = true then
          .ok (if (jbstrcpy 100 rest).2.2 = true then { x with group := (jbstrcpy 100 rest).1.headD 0 } else x)
        else .ok x) = .ok y ∧ Cur N K b y ∧ y.out = x.out := by
    intro n1 n2 n3 b e1 e2 e3 e4 e5 e6 e7 e8 e9
    rw [if_neg (by rw [n1]; decide), if_neg c1, if_neg (by rw [n2]; decide), if_neg (by rw [n3]; decide)]
    exact ⟨x, rfl, same b e1 e2 e3 e4 e5 e6 e7 e8 e9, rfl⟩
  have f : ∀ {k : Str}, eqi w k = true → ∀ y : Str, eqi k y = false → eqi w y = false := fun hk y hy => Bool.eq_false_iff.2 (no hk y hy)
  rcases iteq.1 h with ⟨c, h⟩ | ⟨-, h⟩
  · cases h
    exact skip (f c _ (by decide)) (f c _ (by decide)) (f c _ (by decide)) _ rfl rfl rfl rfl rfl rfl (flag_other (by decide)) rfl rfl
  rcases iteq.1 h with ⟨c, h⟩ | ⟨-, h⟩
  · cases h
    exact skip (f c _ (by decide)) (f c _ (by decide)) (f c _ (by decide)) _ rfl rfl rfl rfl rfl rfl (flag_other (by decide)) rfl rfl
  rcases iteq.1 h with ⟨c, h⟩ | ⟨-, h⟩
  · cases h
    exact skip (f c _ (by decide)) (f c _ (by decide)) (f c _ (by decide)) _ rfl rfl rfl rfl rfl rfl (flag_other (by decide)) rfl rfl
  rcases iteq.1 h with ⟨c, h⟩ | ⟨-, h⟩
  · cases h
    exact skip (f c _ (by decide)) (f c _ (by decide)) (f c _ (by decide)) _ rfl rfl rfl rfl rfl rfl (flag_other (by decide)) rfl rfl
  rcases iteq.1 h with ⟨c, h⟩ | ⟨cE, h⟩
  · rcases iteq.1 h with ⟨-, h⟩ | ⟨-, h⟩
    · cases h
    · obtain ⟨t, ht, h⟩ := ebind_ok.1 h
      rw [epure_ok] at h; subst h
      rw [if_pos c]
      obtain ⟨q1, q2, q3, q4, q5, q6, q7, q8, ⟨ns, q9, q9'⟩, q10⟩ := hc
      obtain ⟨ms, tpl', g1, g2⟩ := cxAddrs_ok hN (rdWords 100 rest) _ t a.tossNodes ns ht q9
        (fun y hy => hm y (List.mem_append_right _ hy)) hl
      rw [q9', g1]
      exact ⟨_, rfl, ⟨q1, q2, q3, q4, q5, q6, q7, q8, ⟨ms, g2, rfl⟩, q10⟩, rfl⟩
  rcases iteq.1 h with ⟨c, h⟩ | ⟨-, h⟩
  · rcases iteq.1 h with ⟨-, h⟩ | ⟨-, h⟩
    · cases h
    · obtain ⟨t, -, h⟩ := ebind_ok.1 h
      rw [epure_ok] at h; subst h
      exact skip (f c _ (by decide)) (f c _ (by decide)) (f c _ (by decide)) _ rfl rfl rfl rfl rfl rfl rfl rfl rfl
  rcases iteq.1 h with ⟨c, h⟩ | ⟨-, h⟩
  · obtain ⟨t, -, h⟩ := ebind_ok.1 h
    rw [epure_ok] at h; subst h
    exact skip (f c _ (by decide)) (f c _ (by decide)) (f c _ (by decide)) _ rfl rfl rfl rfl rfl rfl rfl rfl rfl
  rcases iteq.1 h with ⟨c, h⟩ | ⟨cD, h⟩
  · obtain ⟨t, ht, h⟩ := ebind_ok.1 h
    rw [epure_ok] at h; subst h
    rw [if_neg cE, if_neg c1, if_pos c]
    obtain ⟨q1, q2, q3, q4, q5, q6, q7, q8, q9, q10⟩ := hc
    refine ⟨_, rfl, ⟨q1, q2, q3, q4, q5, q6, q7, q8, q9, ?_⟩, rfl⟩
    intro hlen
    dsimp only at hlen ⊢
    rw [rdArg_word ht (by omega) (by omega)]
  rcases iteq.1 h with ⟨c, h⟩ | ⟨cG, h⟩
  · obtain ⟨t, ht, h⟩ := ebind_ok.1 h
    obtain ⟨g, hg, h⟩ := ebind_ok.1 h
    rw [epure_ok] at h; subst h
    rw [if_neg cE, if_neg c1, if_neg cD, if_pos c]
    obtain ⟨q1, q2, q3, q4, q5, q6, q7, q8, q9, q10⟩ := hc
    have e30 := rdArg_eq ht
    have hh : t.1.headD 0 = (jbstrcpy 100 rest).1.headD 0 := by
      have := jbstrcpy_head 28 98 rest
      rwa [e30] at this
    have hu : upper (t.1.headD 0) = g := by
      unfold rdGroup at hg
      dsimp only at hg
      rcases iteq.1 hg with ⟨-, hg⟩ | ⟨-, hg⟩
      · cases hg
        cases ht1 : t.1 with
        | nil => rfl
        | cons y r =>
          rw [correctFlags]
          split <;> rfl
      · cases hg
    refine ⟨_, rfl, ?_, by split <;> rfl⟩
    by_cases hb : (jbstrcpy 100 rest).2.2 = true
    · rw [if_pos hb]
      exact ⟨q1, q2, q3, q4, q5, q6, by dsimp only; rw [← hh]; exact hu, q8, q9, q10⟩
    · exfalso
      have n100 : (jbstrcpy 100 rest).1 = [] ∧ ((rest.dropWhile isBlank).head? == some 34) = false := by
        unfold jbstrcpy at hb ⊢
        dsimp only at hb ⊢
        simp only [ne_eq, Bool.or_eq_true, decide_eq_true_eq, not_or, Decidable.not_not, Bool.not_eq_true] at hb
        exact hb
      have e := jbstrcpy_limit 100 30 rest (by rw [n100.1]; decide) (by rw [n100.1]; decide)
      rw [e30] at e
      rw [← e] at hb
      exact hb rfl
  rcases iteq.1 h with ⟨c, h⟩ | ⟨-, h⟩
  · obtain ⟨t, -, h⟩ := ebind_ok.1 h
    rw [epure_ok] at h; subst h
    exact skip (f c _ (by decide)) (f c _ (by decide)) (f c _ (by decide)) _ rfl rfl rfl rfl rfl rfl rfl rfl rfl
  obtain ⟨t, -, h⟩ := ebind_ok.1 h
  rw [epure_ok] at h; subst h
  exact skip (Bool.eq_false_iff.2 cE) (Bool.eq_false_iff.2 cD) (Bool.eq_false_iff.2 cG) _ rfl rfl rfl rfl rfl rfl rfl rfl rfl

/-- Lines that are not about areas. -/
theorem cxLine_skip (fmt : XFormat) (grp : Option Str) (x : CxSt) (l : Str) (hw : isAreaWord (keyword l) = false)
    (hc : areaCmdWords.any (eqi (keyword l)) = false) : cxLine fmt grp x l = .ok x := by
  rw [List.any_eq_false] at hc
  unfold cxLine
  dsimp only
  rw [show (jbstrcpy 30 l).1 = keyword l from rfl, if_neg (by rw [hw]; decide), if_neg (hc _ (by decide)), if_neg (hc _ (by decide)),
    if_neg (hc _ (by decide)), if_neg (hc _ (by decide))]

/-! ## What is written -/

theorem upper_upper (c : UInt8) : upper (upper c) = upper c := by
  revert c; decide +kernel

theorem cxCheckFlags_iff (g : UInt8) (s : Str) : cxCheckFlags g s = true ↔ ∃ c ∈ s, upper c = upper g := by
  unfold cxCheckFlags
  rw [List.any_eq_true]
  constructor
  · rintro ⟨c, h, e⟩
    exact ⟨c, h, (beq_iff_eq.1 e).symm⟩
  · rintro ⟨c, h, e⟩
    exact ⟨c, h, beq_iff_eq.2 e.symm⟩

theorem Cur.row {fmt : XFormat} {grp : Option Str} {N K : List Node4D} {a : Area} {x : CxSt} (h : Cur N K a x)
    (hd : a.description.length < 79) :
    (InList grp a → ExportLine fmt K N a (if x.tag ≠ [] then cxWrite fmt grp x else [])) ∧
    (¬ InList grp a → (if x.tag ≠ [] then cxWrite fmt grp x else []) = []) := by
  obtain ⟨c1, c2, c3, c4, c5, c6, c7, c8, ⟨ns, c9, c9'⟩, c10⟩ := h
  have c10 := c10 hd
  have hg : cxOther grp x.group = true ↔ ¬ ∀ g, grp = some g → ∃ c ∈ g, upper c = a.group := by
    unfold cxOther
    cases grp with
    | none => simp
    | some g =>
      dsimp only
      have := cxCheckFlags_iff x.group g
      rw [c7] at this
      rw [Bool.not_eq_true', Bool.eq_false_iff, ne_eq, this]
      simp
  constructor
  · intro hi
    rw [if_pos (by rw [c1]; exact hi.named)]
    unfold cxWrite
    rw [if_neg (by rw [c8, hi.confirmed]; decide), if_neg (by rw [c2]; exact hi.real), if_neg (fun e => hg.1 e hi.group)]
    have hb : ∀ {α : Type} (p q r : α), (if eqi x.base b!"MSG" = true then p else if eqi x.base b!"JAM" = true then q else r) =
        (if a.base = some 0 then p else if a.base = none then r else q) := by
      intro α p q r
      rw [← c4]
      unfold baseOf
      by_cases h1 : eqi x.base b!"MSG" = true
      · rw [if_pos h1, if_pos (by rw [if_pos h1])]
      · rw [if_neg h1, if_neg h1]
        by_cases h2 : eqi x.base b!"JAM" = true
        · rw [if_pos h2, if_pos h2]; simp
        · rw [if_neg h2, if_neg h2]; simp
    have hb1 : a.base = none ∨ a.base = some 0 ∨ a.base = some 1 := by
      cases hx : a.base with
      | none => exact .inl rfl
      | some b =>
        rw [hx] at c4
        rcases baseOf_ok c4 with e | e <;> simp [e]
    cases fmt with
    | areasBbs =>
      dsimp only [ExportLine]
      by_cases ht : a.type = .netmail ∨ a.type = .local
      · rw [if_pos ht, if_neg (by rw [c2]; intro e; exact ht.elim e.1 e.2)]
      · rw [if_neg ht, if_pos (by rw [c2]; exact ⟨fun e => ht (.inl e), fun e => ht (.inr e)⟩), hb]
        refine ⟨ns, c9, ?_⟩
        rw [c9', c1, c3]
        rcases hb1 with e | e | e
        · rw [if_neg (by rw [e]; decide), if_pos e, c5 e, if_pos (by decide)]
          unfold bbsPlace
          rw [e]
        · rw [if_pos e]
          unfold bbsPlace
          rw [e]
          rfl
        · rw [if_neg (by rw [e]; decide), if_neg (by rw [e]; decide)]
          unfold bbsPlace
          rw [e]
          rfl
    | forward =>
      dsimp only [ExportLine]
      rw [c2, c1, c10]
      by_cases ht : a.type = .echomail
      · rw [if_pos ht, if_pos ht]
        by_cases hq : a.description = []
        · rw [if_neg (by simpa using hq), if_pos hq, List.append_nil]
        · rw [if_pos hq, if_neg hq]
          simp
      · rw [if_neg ht, if_neg ht]
    | forwardNoDesc =>
      dsimp only [ExportLine]
      rw [c2, c1]
      by_cases ht : a.type = .echomail
      · rw [if_pos ht, if_pos ht]
      · rw [if_neg ht, if_neg ht]
    | golded =>
      dsimp only [ExportLine]
      rw [hb, c3]
      by_cases hp : a.path = []
      · rw [if_pos (.inl hp), if_neg (by simpa using hp)]
      · rw [if_pos hp]
        have hgr : (if x.group ≠ 0 then [x.group] else b!"0") = (if a.group = 0 then b!"0" else [x.group]) := by
          have : ∀ g : UInt8, upper g = 0 ↔ g = 0 := by decide +kernel
          by_cases hz : x.group = 0
          · rw [if_neg (by simpa using hz), if_pos (by rw [← c7, hz]; rfl)]
          · rw [if_pos hz, if_neg (by rw [← c7, this]; exact hz)]
        rcases hb1 with e | e | e
        · rw [if_pos (.inr e), if_neg (by rw [e]; decide), if_pos e]
        · rw [if_neg (by simp [hp, e]), if_pos e, if_pos e]
          refine ⟨x.aka, x.group, c6, c7, ?_⟩
          dsimp only
          rw [hgr, c1, c2, c10]
          rfl
        · rw [if_neg (by simp [hp, e]), if_neg (show ¬ a.base = some 0 by rw [e]; decide), if_neg (show ¬ a.base = none by rw [e]; decide),
            if_neg (show ¬ a.base = some 0 by rw [e]; decide)]
          refine ⟨x.aka, x.group, c6, c7, ?_⟩
          dsimp only
          rw [hgr, c1, c2, c10]
          rfl
    | timed =>
      dsimp only [ExportLine]
      rw [hb, c3]
      by_cases hp : a.path = []
      · rw [if_pos (.inl hp), if_neg (by simpa using hp)]
      · rw [if_pos hp]
        rcases hb1 with e | e | e
        · rw [if_pos (.inr e), if_neg (by rw [e]; decide), if_pos e]
        · rw [if_neg (by simp [hp, e]), if_pos e, if_pos e]
          refine ⟨x.aka, c6, ?_⟩
          dsimp only
          rw [c1, c2, c10]
          rfl
        · rw [if_neg (by simp [hp, e]), if_neg (show ¬ a.base = some 0 by rw [e]; decide), if_neg (show ¬ a.base = none by rw [e]; decide),
            if_neg (show ¬ a.base = some 0 by rw [e]; decide)]
          refine ⟨x.aka, c6, ?_⟩
          dsimp only
          rw [c1, c2, c10]
          rfl
  · intro hi
    by_cases ht : x.tag = []
    · rw [if_neg (by simpa using ht)]
    · rw [if_pos ht]
      unfold cxWrite
      by_cases hu : x.unconfirmed = true
      · rw [if_pos hu]
      rw [if_neg hu]
      by_cases hdf : x.type = .default
      · rw [if_pos hdf]
      rw [if_neg hdf, if_pos]
      rw [hg]
      intro hall
      refine hi ⟨by rw [← c1]; exact ht, ?_, by rw [← c2]; exact hdf, hall⟩
      rw [← c8]; exact Bool.eq_false_iff.2 hu

/-! ## The whole file -/

/-- The rows of the areas that are complete; those with a long description are left open. -/
inductive RowsOf (fmt : XFormat) (grp : Option Str) (K N : List Node4D) : List Area → List Str → Prop
  | nil : RowsOf fmt grp K N [] []
  | cons {a as r rs} (h : a.description.length < 79 → (InList grp a → ExportLine fmt K N a r) ∧ (¬ InList grp a → r = []))
      (t : RowsOf fmt grp K N as rs) : RowsOf fmt grp K N (a :: as) (r :: rs)

theorem RowsOf.snoc {fmt : XFormat} {grp : Option Str} {K N : List Node4D} {as : List Area} {rs : List Str} (h : RowsOf fmt grp K N as rs)
    {a : Area} {r : Str} (hr : a.description.length < 79 → (InList grp a → ExportLine fmt K N a r) ∧ (¬ InList grp a → r = [])) :
    RowsOf fmt grp K N (as ++ [a]) (rs ++ [r]) := by
  induction h with
  | nil => exact .cons hr .nil
  | cons h' _ ih => exact .cons h' ih

theorem RowsOf.lines {fmt : XFormat} {grp : Option Str} {K N : List Node4D} {as : List Area} {rs : List Str} (h : RowsOf fmt grp K N as rs)
    (hd : ∀ a ∈ as, a.description.length < 79) : ExportLines fmt grp K N as rs := by
  induction h with
  | nil => exact .nil
  | cons h' _ ih =>
    have := h' (hd _ (List.mem_cons_self ..))
    exact .cons this.1 this.2 (ih fun a ha => hd a (List.mem_cons_of_mem _ ha))

/-- The two programs have read the same areas. -/
def ReadAlike (fmt : XFormat) (grp : Option Str) (K N : List Node4D) (head : Str) (s : RdSt) (x : CxSt) : Prop :=
  (s.cfg.areas = [] ∧ x.tag = [] ∧ x.out = head) ∨
  ∃ A a rs, s.cfg.areas = A ++ [a] ∧ Cur N K a x ∧ RowsOf fmt grp K N A rs ∧ x.out = head ++ rs.flatten

theorem ReadAlike.flush {fmt : XFormat} {grp : Option Str} {K N : List Node4D} {head : Str} {s : RdSt} {x : CxSt}
    (h : ReadAlike fmt grp K N head s x) : ∃ rs, RowsOf fmt grp K N s.cfg.areas rs ∧ cxFlush fmt grp x = head ++ rs.flatten := by
  rcases h with ⟨h1, h2, h3⟩ | ⟨A, a, rs, h1, h2, h3, h4⟩
  · refine ⟨[], by rw [h1]; exact .nil, ?_⟩
    unfold cxFlush
    rw [if_neg (by simpa using h2), h3]; rfl
  · refine ⟨rs ++ [if x.tag ≠ [] then cxWrite fmt grp x else []], ?_, ?_⟩
    · rw [h1]; exact h3.snoc fun hd => h2.row hd
    · unfold cxFlush
      rw [h4]; simp

theorem cxLine_alike {fmt : XFormat} {grp : Option Str} {K N : List Node4D} {head : Str} {s t : RdSt} {x : CxSt} {l : Str}
    (h0 : rdLine s l = .ok t) (hs : ReadAlike fmt grp K N head s x) (hN : t.cfg.nodes.map (·.node) <+: N) (hK : t.cfg.akas.map (·.node) <+: K)
    (hm : ∀ a ∈ t.cfg.areas, a.tag.length < 79 ∧ a.path.length < 79 ∧ (∀ u ∈ a.tossNodes, u.flags = 0) ∧ a.tossNodes.length ≤ 40)
    (hw : isAreaWord (keyword l) = true → (thirdWord l).length < 49) :
    ∃ y, cxLine fmt grp x l = .ok y ∧ ReadAlike fmt grp K N head t y := by
  have hg := rdLine_grows h0
  have hN' : s.cfg.nodes.map (·.node) <+: N := hg.addresses.trans hN
  have hK' : s.cfg.akas.map (·.node) <+: K := hg.akas.trans hK
  rcases rdLine_cases h0 with ⟨a, hwd, h, rfl⟩ | ⟨A, a, b, hwd, hc, hA, h, rfl⟩ | ⟨n, hwd, hc, -, h, rfl⟩ | ⟨M, m, n, hwd, hc, -, -, hM, h, rfl⟩ |
    ⟨hwd, hc, -, -, h⟩
  · obtain ⟨ha1, ha2, -, -⟩ := hm a (by simp [withArea])
    refine ⟨cxArea fmt grp x (keyword l) (jbstrcpy 30 l).2.1, ?_, ?_⟩
    · unfold cxLine
      dsimp only
      rw [show (jbstrcpy 30 l).1 = keyword l from rfl, if_pos hwd]
    · obtain ⟨rs, h1, h2⟩ := hs.flush
      refine .inr ⟨s.cfg.areas, a, rs, rfl, rdArea_cx hK' h ha1 ha2 (hw hwd), h1, ?_⟩
      exact h2
  · obtain ⟨-, -, hb3, hb4⟩ := hm b (by simp [withArea])
    rcases hs with ⟨h1, -, -⟩ | ⟨A', a', rs, h1, h2, h3, h4⟩
    · rw [hA] at h1; simp at h1
    · rw [hA] at h1
      obtain ⟨e1, e2⟩ := List.append_inj' h1 rfl
      cases e2
      subst e1
      obtain ⟨y, g1, g2, g3⟩ := rdAreaCmd_cx (fmt := fmt) (grp := grp) hN' hwd h h2 hb3 hb4
      exact ⟨y, g1, .inr ⟨A, b, rs, rfl, g2, h3, by rw [g3, h4]⟩⟩
  · exact ⟨x, cxLine_skip fmt grp x l hwd hc, hs⟩
  · exact ⟨x, cxLine_skip fmt grp x l hwd hc, hs⟩
  · obtain ⟨e1, -, -, -⟩ := rdRest_apart s _ _ t h
    refine ⟨x, cxLine_skip fmt grp x l hwd hc, ?_⟩
    unfold ReadAlike at hs ⊢
    rw [e1]; exact hs

theorem AreasLater.modest {A B : List Area} (h : AreasLater A B) (hB : ∀ a ∈ B, Modest a) :
    ∀ a ∈ A, a.tag.length < 79 ∧ a.path.length < 79 ∧ (∀ u ∈ a.tossNodes, u.flags = 0) ∧ a.tossNodes.length ≤ 40 := by
  intro a ha
  obtain ⟨i, hi⟩ := List.mem_iff_getElem?.1 ha
  obtain ⟨b, hb, l⟩ := h i a hi
  have hm := hB b (List.mem_of_getElem? hb)
  refine ⟨l.tag ▸ hm.tag, l.path ▸ hm.path, fun u hu => hm.marks u (l.toss.subset hu), Nat.le_trans l.toss.length_le hm.few⟩

theorem cxLines_alike {fmt : XFormat} {grp : Option Str} {head : Str} {t : RdSt} (hm : ∀ a ∈ t.cfg.areas, Modest a) :
    ∀ {ls : List Str} {s : RdSt} {x : CxSt}, rdLines s ls = .ok t →
    ReadAlike fmt grp (t.cfg.akas.map (·.node)) (t.cfg.nodes.map (·.node)) head s x →
    (∀ l ∈ ls, isAreaWord (keyword l) = true → (thirdWord l).length < 49) →
    ∃ y, ls.foldlM (cxLine fmt grp) x = .ok y ∧ ReadAlike fmt grp (t.cfg.akas.map (·.node)) (t.cfg.nodes.map (·.node)) head t y := by
  intro ls
  induction ls with
  | nil => intro s x h hs _; cases h; exact ⟨x, rfl, hs⟩
  | cons l ls ih =>
    intro s x h hs hw
    obtain ⟨u, h1, h2⟩ := rdLines_cons h
    have g := rdLines_grows h2
    obtain ⟨y, g1, g2⟩ := cxLine_alike h1 hs g.addresses g.akas ((rdLines_later h2).modest hm) (hw l (List.mem_cons_self ..))
    obtain ⟨z, k1, k2⟩ := ih h2 g2 fun l hl => hw l (List.mem_cons_of_mem _ hl)
    refine ⟨z, ?_, k2⟩
    rw [List.foldlM_cons, g1]
    exact k1

end CM
