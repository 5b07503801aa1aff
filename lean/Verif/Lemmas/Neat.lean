import Verif.Lemmas.RestartBase
/-! # What is written for areas and nodes is text -/
set_option linter.unusedSimpArgs false

namespace CM

/-- Whole lines that are read as they are. -/
def Neat (x : Str) : Prop := WholeLines x ∧ NoNul x ∧ ∀ l ∈ linesOf x, l.length < 4000 ∧ copied l = l

/-- The inside of a line. -/
def Body (n : Nat) (l : Str) : Prop := NoNul l ∧ 10 ∉ l ∧ l.length ≤ n ∧ l.getLast? ≠ some 13

instance (n : Nat) (l : Str) : Decidable (Body n l) := by unfold Body; infer_instance

theorem Neat.nil : Neat [] := ⟨.inl rfl, by simp [NoNul], by simp [linesOf]⟩

theorem Neat.append {x y : Str} (h : Neat x) (k : Neat y) : Neat (x ++ y) := by
  refine ⟨?_, ?_, ?_⟩
  · rcases k.1 with rfl | ⟨z, rfl⟩
    · rw [List.append_nil]; exact h.1
    · exact .inr ⟨x ++ z, by rw [List.append_assoc]⟩
  · intro hc
    rcases List.mem_append.1 hc with hc | hc
    · exact h.2.1 hc
    · exact k.2.1 hc
  · intro l hl
    rw [linesOf_append h.1] at hl
    rcases List.mem_append.1 hl with hl | hl
    · exact h.2.2 l hl
    · exact k.2.2 l hl

theorem Neat.line {l : Str} (h : Body 3998 l) : Neat (l ++ [10]) := by
  obtain ⟨h1, h2, h3, h4⟩ := h
  refine ⟨.inr ⟨l, rfl⟩, ?_, ?_⟩
  · intro hc
    rcases List.mem_append.1 hc with hc | hc
    · exact h1 hc
    · revert hc; decide
  · intro x hx
    rw [linesOf_snoc l [] h2] at hx
    have : x = l ++ [10] := by simpa [linesOf] using hx
    subst this
    refine ⟨by simp; omega, ?_⟩
    show fixCrLf (l ++ [10]) = l ++ [10]
    rw [fixCrLf_lf, if_neg h4]

theorem Neat.ite {c : Prop} [Decidable c] {x : Str} (h : c → Neat x) : Neat (if c then x else []) := by
  split
  · rename_i hc; exact h hc
  · exact .nil

theorem Neat.ite' {c : Prop} [Decidable c] {x : Str} (h : ¬ c → Neat x) : Neat (if c then [] else x) := by
  split
  · exact .nil
  · rename_i hc; exact h hc

theorem Body.mono {n m : Nat} {l : Str} (h : Body n l) (k : n ≤ m) : Body m l := ⟨h.1, h.2.1, Nat.le_trans h.2.2.1 k, h.2.2.2⟩

theorem Body.append {n m : Nat} {x y : Str} (h : Body n x) (k : Body m y) : Body (n + m) (x ++ y) := by
  obtain ⟨h1, h2, h3, h4⟩ := h
  obtain ⟨k1, k2, k3, k4⟩ := k
  refine ⟨?_, ?_, by rw [List.length_append]; omega, ?_⟩
  · intro hc
    rcases List.mem_append.1 hc with hc | hc
    · exact h1 hc
    · exact k1 hc
  · intro hc
    rcases List.mem_append.1 hc with hc | hc
    · exact h2 hc
    · exact k2 hc
  · rw [List.getLast?_append]
    cases hy : y.getLast? with
    | none => exact h4
    | some c => rw [hy] at k4; exact k4

theorem Body.ite {n : Nat} {c : Prop} [Decidable c] {x : Str} (h : Body n x) : Body n (if c then x else []) := by
  split
  · exact h
  · exact ⟨by simp [NoNul], by simp, by simp, by simp⟩

theorem body_of {n : Nat} {l : Str} (hl : l.length ≤ n) (h : ∀ c ∈ l, c ≠ 0 ∧ c ≠ 10 ∧ c ≠ 13) : Body n l :=
  ⟨fun hc => (h 0 hc).1 rfl, fun hc => (h 10 hc).2.1 rfl, hl, fun hc => (h 13 (List.mem_of_getLast? hc)).2.2 rfl⟩

theorem dec_chars (n : Nat) : ∀ c ∈ dec n, c ≠ 0 ∧ c ≠ 10 ∧ c ≠ 13 := by
  intro c hc
  have := dec_digits n c hc
  refine ⟨?_, ?_, ?_⟩ <;> (rintro rfl; revert this; decide)

theorem body_node (n : Node4D) : Body 23 (writeNode4D n) := by
  refine body_of (writeNode4D_length n) ?_
  intro c hc
  unfold writeNode4D at hc
  simp only [List.mem_append, List.mem_cons, List.not_mem_nil, or_false] at hc
  rcases hc with (((((hc | hc) | hc) | hc) | hc) | hc) | hc
  · exact dec_chars _ c hc
  · subst hc; decide
  · exact dec_chars _ c hc
  · subst hc; decide
  · exact dec_chars _ c hc
  · subst hc; decide
  · exact dec_chars _ c hc

theorem body_quoted {s out : Str} (h : writeSafely s = .ok out) (h0 : NoNul s) (h1 : 10 ∉ s) : Body 301 out := by
  have hl : (escape s).length < 300 := by
    unfold writeSafely at h
    split at h
    · assumption
    · cases h
  have e : out = b!"\"" ++ escape s ++ b!"\"" := by
    unfold writeSafely at h
    rw [if_pos hl] at h
    cases h; rfl
  refine ⟨?_, writeSafely_oneLine h h1, ?_, ?_⟩
  · rw [e, escape_eq]
    intro hc
    simp only [List.mem_append, List.mem_cons, List.not_mem_nil, or_false, List.mem_flatMap] at hc
    rcases hc with (hc | ⟨c, hc, hd⟩) | hc
    · revert hc; decide
    · have : c ≠ 0 := fun e => h0 (e ▸ hc)
      split at hd <;> simp [Ne.symm this] at hd
    · revert hc; decide
  · rw [e]; simp; omega
  · rw [e, List.getLast?_concat]; decide

theorem body_words {n : Nat} : ∀ (ws : List Str) (k : Nat), ws.length ≤ k → (∀ w ∈ ws, Body n w) → Body (k * (n + 1)) (ws.flatMap fun w => 32 :: w) := by
  intro ws
  induction ws with
  | nil => intro k _ _; exact ⟨by simp [NoNul], by simp, by simp, by simp⟩
  | cons w ws ih =>
    intro k hk h
    obtain ⟨k, rfl⟩ : ∃ j, k = j + 1 := ⟨k - 1, by simp at hk; omega⟩
    rw [List.flatMap_cons]
    have h1 : Body (1 + n) ([32] ++ w) := Body.append (by show Body 1 [32]; decide) (h w (by simp))
    have h2 := ih k (by simpa using hk) fun x hx => h x (List.mem_cons_of_mem _ hx)
    refine (h1.append h2).mono ?_
    rw [Nat.add_mul]; omega

theorem neat_tenLoop {kw : Str} (hk : Body 10 kw) : ∀ (n : Nat) (ws : List Str), ws.length ≤ n → (∀ w ∈ ws, Body 100 w) → Neat (tenLoop kw 0 ws) := by
  intro n
  induction n with
  | zero =>
    intro ws hn _
    have : ws = [] := List.length_eq_zero_iff.1 (by omega)
    subst this
    exact .nil
  | succ n ih =>
    intro ws hn h
    cases ws with
    | nil => exact .nil
    | cons w ws =>
      rw [tenLoop_lines]
      refine .append (.line ?_) (ih _ ?_ ?_)
      · refine (hk.append (body_words (n := 100) (w :: ws.take 9) 10 (by simp; omega) ?_)).mono (by omega)
        intro x hx
        rcases List.mem_cons.1 hx with rfl | hx
        · exact h _ (by simp)
        · exact h x (List.mem_cons_of_mem _ (List.mem_of_mem_take hx))
      · simp only [List.length_cons] at hn
        rw [List.length_drop]; omega
      · intro x hx
        exact h x (List.mem_cons_of_mem _ (List.mem_of_mem_drop hx))

theorem body_letter : ∀ g : UInt8, 65 ≤ g → g ≤ 90 → Body 1 [g] := by decide +kernel

theorem body_link {cfg : Config} {t : TossNode} {w : Str} (h : exportWord cfg t = .ok w) : Body 100 w := by
  obtain ⟨n, h1, h⟩ := ebind_ok.1 h
  rw [epure_ok] at h; subst h
  refine ((((Body.ite (n := 1) ?_).append (Body.ite (n := 1) ?_)).append (Body.ite (n := 1) ?_)).append (body_node n)).mono (by decide) <;> decide

theorem neat_dec (kw : Str) (hk : Body 10 kw) (n : UInt32) : Neat (kw ++ dec n.toNat ++ [10]) := by
  refine .line (Body.mono (hk.append (body_of (n := 10) ?_ (dec_chars _))) (by decide))
  exact dec_length_le (by omega) (by have := n.toNat_lt; omega)

theorem neat_area {cfg : Config} {a : Area} {txt : Str} (h : areaText cfg a = .ok txt) (hg : GroupLetter a.group)
    (h1 : 10 ∉ a.tag ∧ 10 ∉ a.description ∧ 10 ∉ a.path) (h0 : NoNul a.tag ∧ NoNul a.description ∧ NoNul a.path) : Neat txt := by
  unfold areaText at h
  obtain ⟨hh, e1, h⟩ := ebind_ok.1 h
  obtain ⟨ll, e2, h⟩ := ebind_ok.1 h
  obtain ⟨bb, e3, h⟩ := ebind_ok.1 h
  obtain ⟨rr, e4, h⟩ := ebind_ok.1 h
  rw [epure_ok] at h; subst h
  refine .append (.append (.append ?_ ?_) ?_) ?_
  · unfold areaHead at e1
    obtain ⟨k, t, b, et, eb, rfl⟩ : ∃ k t b, writeSafely a.tag = .ok t ∧ (match a.base with
        | some b => do pure ([32] ++ baseName b ++ [32] ++ (← writeSafely a.path))
        | none => pure [] : Except UB Str) = .ok b ∧ hh = areaKeyword a ++ t ++ [32] ++ writeNode4D k ++ b ++ [10] := by
      dsimp only at e1
      split at e1
      · rename_i q _
        obtain ⟨k, -, e1⟩ := ebind_ok.1 e1
        obtain ⟨t, et, e1⟩ := ebind_ok.1 e1
        cases hb : a.base with
        | none => rw [hb] at e1; exact ⟨k, t, _, et, rfl, (epure_ok.1 e1).symm⟩
        | some b =>
          rw [hb] at e1
          dsimp only at e1 ⊢
          obtain ⟨o, ho, e1⟩ := ebind_ok.1 e1
          rw [ho]
          exact ⟨k, t, _, et, rfl, (epure_ok.1 e1).symm⟩
      · cases e1
    have hk : Body 20 (areaKeyword a) := by
      unfold areaKeyword
      split <;> split <;> decide
    have hb : Body 320 b := by
      cases hx : a.base with
      | none => rw [hx] at eb; cases eb; exact ⟨by simp [NoNul], by simp, by simp, by simp⟩
      | some i =>
        rw [hx] at eb
        obtain ⟨p, ep, eb⟩ := ebind_ok.1 eb
        rw [epure_ok] at eb; subst eb
        have : Body 5 ([32] ++ baseName i ++ [32]) := by
          cases i with
          | zero => decide
          | succ j => show Body 5 ([32] ++ b!"JAM" ++ [32]); decide
        exact (this.append (body_quoted ep h0.2.2 h1.2.2)).mono (by decide)
    refine .line (Body.mono ((((hk.append (body_quoted et h0.1 h1.1)).append (m := 1) ?_).append (body_node k)).append hb) (by decide))
    decide
  · unfold areaLinks at e2
    rcases iteq.1 e2 with ⟨-, e2⟩ | ⟨-, e2⟩
    · cases e2
      refine neat_tenLoop (by decide) _ _ (Nat.le_refl _) ?_
      intro w hw
      obtain ⟨n, -, rfl⟩ := List.mem_map.1 hw
      exact (body_node n).mono (by decide)
    · rcases iteq.1 e2 with ⟨-, e2⟩ | ⟨-, e2⟩
      · obtain ⟨ws, e5, e2⟩ := ebind_ok.1 e2
        rw [epure_ok] at e2; subst e2
        refine neat_tenLoop (by decide) _ _ (Nat.le_refl _) ?_
        intro w hw
        obtain ⟨t, -, ht⟩ := emapM_mem e5 w hw
        exact body_link ht
      · cases e2; exact .nil
  · refine neat_tenLoop (by decide) _ _ (Nat.le_refl _) ?_
    intro w hw
    obtain ⟨n, -, rfl⟩ := List.mem_map.1 hw
    exact (body_node n).mono (by decide)
  · unfold areaRest at e4
    have fin : ∀ d : Str, Neat d → Neat (d ++ (if a.group = 0 then [] else b!"GROUP " ++ [a.group, 10]) ++
        (if a.keepNum = 0 then [] else b!"KEEPNUM " ++ dec a.keepNum.toNat ++ [10]) ++
        (if a.keepDays = 0 then [] else b!"KEEPDAYS " ++ dec a.keepDays.toNat ++ [10]) ++
        (if a.has AREA_UNCONFIRMED then b!"UNCONFIRMED\n" else []) ++
        (if a.has AREA_MANDATORY then b!"MANDATORY\n" else []) ++
        (if a.has AREA_DEFREADONLY then b!"DEFREADONLY\n" else []) ++
        (if a.has AREA_IGNOREDUPES then b!"IGNOREDUPES\n" else []) ++
        (if a.has AREA_IGNORESEENBY then b!"IGNORESEENBY\n" else [])) := by
      intro d hd
      refine .append (.append (.append (.append (.append (.append (.append (.append hd (.ite' fun hz => ?_)) (.ite' fun _ => neat_dec _ (by decide) _))
        (.ite' fun _ => neat_dec _ (by decide) _)) (.ite fun _ => ?_)) (.ite fun _ => ?_)) (.ite fun _ => ?_)) (.ite fun _ => ?_)) (.ite fun _ => ?_)
      · rcases hg with hg | ⟨g1, g2⟩
        · exact absurd hg hz
        · have := Neat.line (Body.mono (Body.append (n := 6) (x := b!"GROUP ") (by decide) (body_letter a.group g1 g2)) (by decide))
          simpa using this
      · exact Neat.line (l := b!"UNCONFIRMED") (by decide)
      · exact Neat.line (l := b!"MANDATORY") (by decide)
      · exact Neat.line (l := b!"DEFREADONLY") (by decide)
      · exact Neat.line (l := b!"IGNOREDUPES") (by decide)
      · exact Neat.line (l := b!"IGNORESEENBY") (by decide)
    dsimp only at e4
    rcases iteq.1 e4 with ⟨-, e4⟩ | ⟨-, e4⟩
    · cases e4
      exact fin [] .nil
    · obtain ⟨x, ex, e4⟩ := ebind_ok.1 e4
      cases e4
      exact fin _ (.line (Body.mono (Body.append (n := 12) (x := b!"DESCRIPTION ") (by decide) (body_quoted ex h0.2.1 h1.2.1)) (by decide)))

theorem body_switches (n : ConfigNode) : Body 300 (nodeSwitches n) := by
  unfold nodeSwitches
  refine Body.mono (((((((((((((Body.ite (n := 18) (by decide)).append (Body.ite (n := 18) (by decide))).append (Body.ite (n := 18) (by decide))).append
    (Body.ite (n := 18) (by decide))).append (Body.ite (n := 18) (by decide))).append (Body.ite (n := 18) (by decide))).append
    (Body.ite (n := 18) (by decide))).append (Body.ite (n := 18) (by decide))).append (Body.ite (n := 18) (by decide))).append
    (Body.ite (n := 18) (by decide))).append (Body.ite (n := 18) (by decide))).append (Body.ite (n := 18) (by decide))).append
    (Body.ite (n := 18) (by decide))) (by decide)

theorem group_chars {s : Str} (h : GroupList s) : NoNul s ∧ 10 ∉ s :=
  ⟨fun hc => absurd (h.2 0 hc).1 (by decide), fun hc => absurd (h.2 10 hc).1 (by decide)⟩

theorem neat_node {cfg : Config} {n : ConfigNode} {txt : Str} (h : nodeText cfg n = .ok txt) {k : Nat} (ok : NodeOk k n)
    (hp : NoNul ((n.packer.bind (cfg.packers[·]?)).elim [] (·.name)) ∧ 10 ∉ (n.packer.bind (cfg.packers[·]?)).elim [] (·.name))
    (h0 : NoNul n.packetPW ∧ NoNul n.areafixPW ∧ NoNul n.sysopName ∧ NoNul n.remoteAFName ∧ NoNul n.remoteAFPw) : Neat txt := by
  obtain ⟨packer, pw, info, raf, sysop, h1, h2, h3, h4, h5, rfl⟩ := nodeText_parts h
  obtain ⟨q1, q2, q3, q4, q5⟩ := ok.oneLine
  obtain ⟨z1, z2, z3, z4, z5⟩ := h0
  have sp : Body 1 [32] := by decide
  refine .append (.append (.append (.append (.append (.line ?_) (.ite fun _ => .line ?_)) ?_) ?_) ?_) (.ite fun hz => ?_)
  · exact Body.mono (((((((Body.append (n := 5) (x := b!"NODE ") (by decide) (body_node _)).append sp).append (body_quoted h1 hp.1 hp.2)).append sp).append
      (body_quoted h2 z1 q1)).append (body_switches n))) (by decide)
  · exact Body.mono (Body.append (n := 8) (x := b!"PKTFROM ") (by decide) (body_node _)) (by decide)
  · rcases h3 with ⟨-, -, -, -, rfl⟩ | ⟨p, g, r, a, e1, e2, e3, e4, rfl⟩
    · exact .nil
    · have b1 := body_quoted e1 z2 q2
      have b2 := body_quoted e2 (group_chars ok.groups).1 (group_chars ok.groups).2
      have b3 := body_quoted e3 (group_chars ok.readOnly).1 (group_chars ok.readOnly).2
      have b4 := body_quoted e4 (group_chars ok.add).1 (group_chars ok.add).2
      have := Neat.line (Body.mono ((((((((Body.append (n := 12) (x := b!"AREAFIXINFO ") (by decide) b1).append sp).append b2).append sp).append b3).append sp).append b4).append sp) (by decide))
      simpa using this
  · rcases h4 with ⟨-, rfl⟩ | ⟨x, p, -, e1, e2, rfl⟩
    · exact .nil
    · exact .line (Body.mono ((((Body.append (n := 9) (x := b!"REMOTEAF ") (by decide) (body_quoted e1 z4 q4)).append sp).append (body_quoted e2 z5 q5)).append
        (Body.ite (n := 10) (by decide))) (by decide))
  · rcases h5 with ⟨-, rfl⟩ | ⟨x, e1, rfl⟩
    · exact .nil
    · exact .line (Body.mono (Body.append (n := 12) (x := b!"REMOTESYSOP ") (by decide) (body_quoted e1 z3 q3)) (by decide))
  · rcases ok.defaultGroup with hg | ⟨g1, g2⟩
    · exact absurd hg hz
    · have := Neat.line (Body.mono (Body.append (n := 13) (x := b!"DEFAULTGROUP ") (by decide) (body_letter _ g1 g2)) (by decide))
      simpa using this

end CM
