import Verif.Spec.Rfc
import Verif.Props.PktRound
import Verif.Lemmas.Nodelist
/-! # Lemmas about mail files -/
set_option linter.unusedSimpArgs false

namespace CM

theorem linesEnded_line {e : UInt8} {cur l t : Str} (h : e ∉ l) : linesEnded e cur (l ++ e :: t) = (cur ++ l) :: linesEnded e [] t := by
  induction l generalizing cur with
  | nil => simp only [List.nil_append, linesEnded, if_pos, List.append_nil]
  | cons c l ih =>
    have hc : c ≠ e := fun x => h (by simp [x])
    rw [List.cons_append, linesEnded, if_neg hc, ih (fun x => h (by simp [x]))]
    simp

theorem linesEnded_lines {e : UInt8} {ls : List Str} (h : ∀ l ∈ ls, e ∉ l) (t : Str) :
    linesEnded e [] (ls.flatMap (· ++ [e]) ++ t) = ls ++ linesEnded e [] t := by
  induction ls with
  | nil => rfl
  | cons l ls ih =>
    rw [List.flatMap_cons, List.append_assoc, List.append_assoc, List.singleton_append, linesEnded_line (h l (by simp)),
      ih fun x hx => h x (by simp [hx])]
    rfl

/-- A text that ends in a line end is one line and the rest. -/
theorem split_line {e : UInt8} {r : Str} (hr : r ≠ []) (h : r = [] ∨ r.getLast? = some e) :
    ∃ l t, r = l ++ e :: t ∧ e ∉ l ∧ (t = [] ∨ t.getLast? = some e) := by
  rcases h with h | h
  · exact absurd h hr
  clear hr
  induction r with
  | nil => cases h
  | cons c r ih =>
    by_cases hc : c = e
    · subst hc
      refine ⟨[], r, rfl, by simp, ?_⟩
      rcases r with _ | ⟨x, r⟩
      · exact .inl rfl
      · right; rw [List.getLast?_cons_cons] at h; exact h
    · rcases r with _ | ⟨x, r⟩
      · simp only [List.getLast?_singleton, Option.some.injEq] at h; exact absurd h hc
      · rw [List.getLast?_cons_cons] at h
        obtain ⟨l, t, e1, e2, e3⟩ := ih h
        exact ⟨c :: l, t, by rw [e1]; rfl, by simp only [List.mem_cons, not_or]; exact ⟨fun x => hc x.symm, e2⟩, e3⟩

theorem linesEnded_append {e : UInt8} {a b : Str} (h : a = [] ∨ a.getLast? = some e) :
    linesEnded e [] (a ++ b) = linesEnded e [] a ++ linesEnded e [] b := by
  by_cases ha : a = []
  · subst ha; rfl
  obtain ⟨l, t, e1, e2, e3⟩ := split_line ha h
  have : t.length < a.length := by rw [e1]; simp; omega
  rw [e1, List.append_assoc, List.cons_append, linesEnded_line e2, linesEnded_line e2, linesEnded_append e3]
  rfl
termination_by a.length

theorem linesEnded_flatten {e : UInt8} {cs : List Str} (h : ∀ c ∈ cs, c = [] ∨ c.getLast? = some e) :
    linesEnded e [] cs.flatten = cs.flatMap (linesEnded e []) := by
  induction cs with
  | nil => rfl
  | cons c cs ih =>
    rw [List.flatten_cons, linesEnded_append (h c (by simp)), ih fun x hx => h x (by simp [hx])]
    rfl

theorem mem_linesEnded {e : UInt8} {r : Str} : ∀ {cur l : Str} {x : UInt8}, l ∈ linesEnded e cur r → x ∈ l → x ∈ cur ∨ x ∈ r := by
  induction r with
  | nil => intro cur l x h; cases h
  | cons c r ih =>
    intro cur l x h hx
    rw [linesEnded] at h
    split at h
    · rcases List.mem_cons.1 h with rfl | h
      · exact .inl hx
      · rcases ih h hx with h | h
        · cases h
        · exact .inr (by simp [h])
    · rcases ih h hx with h | h
      · rcases List.mem_append.1 h with h | h
        · exact .inl h
        · exact .inr (by simp [List.mem_singleton.1 h])
      · exact .inr (by simp [h])

/-! ## Control lines -/

theorem rfcKludges_line {u : UB} {cur l t : Str} (h : 13 ∉ l) (h' : 10 ∉ l) :
    rfcKludges u cur (l ++ 13 :: t) = (rfcKludges u [] t).map (rfcKludge (cur ++ l) ++ ·) := by
  induction l generalizing cur with
  | nil => rw [List.nil_append, rfcKludges, if_pos (.inl rfl), List.append_nil]
  | cons c l ih =>
    have hc : ¬ (c = 13 ∨ c = 10) := by
      rintro (x | x)
      · exact h (by simp [x])
      · exact h' (by simp [x])
    rw [List.cons_append, rfcKludges, if_neg hc, ih (fun x => h (by simp [x])) (fun x => h' (by simp [x]))]
    simp

theorem rfcKludges_eq {u : UB} {r : Str} (h : EndsCR r) (h10 : 10 ∉ r) : rfcKludges u [] r = .ok ((linesEnded 13 [] r).flatMap rfcKludge) := by
  by_cases hr : r = []
  · subst hr; rfl
  obtain ⟨l, t, e1, e2, e3⟩ := split_line hr h
  have : t.length < r.length := by rw [e1]; simp; omega
  subst e1
  rw [rfcKludges_line e2 (fun x => h10 (by simp [x])), linesEnded_line e2, rfcKludges_eq e3 (fun x => h10 (by simp [x]))]
  rfl
termination_by r.length

/-- With line feeds too, nothing behind the chunk is read. -/
theorem rfcKludges_safe {u : UB} {r : Str} : ∀ {cur : Str}, (r = [] ∧ cur = []) ∨ r.getLast? = some 13 → ∃ o, rfcKludges u cur r = .ok o := by
  induction r with
  | nil =>
    intro cur h
    rcases h with ⟨-, rfl⟩ | h
    · exact ⟨[], rfl⟩
    · cases h
  | cons c r ih =>
    intro cur h
    have hl : (c :: r).getLast? = some 13 := by rcases h with ⟨h, -⟩ | h <;> first | cases h | exact h
    rw [rfcKludges]
    have tail : r ≠ [] → r.getLast? = some 13 := by
      intro hr
      rcases r with _ | ⟨x, r⟩
      · exact absurd rfl hr
      · rw [List.getLast?_cons_cons] at hl; exact hl
    split
    · obtain ⟨o, ho⟩ := ih (cur := []) (by
        by_cases hr : r = []
        · exact .inl ⟨hr, rfl⟩
        · exact .inr (tail hr))
      exact ⟨_, by rw [ho]; rfl⟩
    · rename_i hc
      refine ih (.inr (tail ?_))
      rintro rfl
      simp only [List.getLast?_singleton, Option.some.injEq] at hl
      exact hc (.inl hl)

/-! ## Lines of the text -/

theorem rfcScan_line {l t : Str} (h : 13 ∉ l) : ∀ (n c s : Nat), (rfcScan n c s (l ++ 13 :: t)).1 = c + min n l.length ∧
    (((rfcScan n c s (l ++ 13 :: t)).2 = s ∧ 32 ∉ l.take n) ∨
     ∃ a b, l = a ++ 32 :: b ∧ a.length < n ∧ (rfcScan n c s (l ++ 13 :: t)).2 = c + a.length ∧ 32 ∉ b.take (n - 1 - a.length)) := by
  induction l with
  | nil =>
    intro n c s
    cases n with
    | zero => exact ⟨rfl, .inl ⟨rfl, by simp⟩⟩
    | succ n => rw [List.nil_append, rfcScan, if_pos rfl]; exact ⟨by simp, .inl ⟨rfl, by simp⟩⟩
  | cons x l ih =>
    intro n c s
    cases n with
    | zero => rw [rfcScan.eq_def]; exact ⟨by simp, .inl ⟨rfl, by simp⟩⟩
    | succ n =>
      have hx : x ≠ 13 := fun e => h (by simp [e])
      rw [List.cons_append, rfcScan, if_neg hx]
      obtain ⟨h1, h2⟩ := ih (fun e => h (by simp [e])) n (c + 1) (if x = 32 then c else s)
      generalize hk : (if x = 32 then c else s) = k at h1 h2 ⊢
      generalize rfcScan n (c + 1) k (l ++ 13 :: t) = q at h1 h2 ⊢
      refine ⟨?_, ?_⟩
      · clear h2; rw [h1, List.length_cons]; omega
      rcases h2 with ⟨h2, h3⟩ | ⟨a, b, h2, h3, h4, h5⟩
      · by_cases hs : x = 32
        · rw [if_pos hs] at hk
          refine .inr ⟨[], l, by rw [hs]; rfl, by simp, by rw [h2, ← hk]; rfl, by simpa using h3⟩
        · rw [if_neg hs] at hk
          refine .inl ⟨by rw [h2, hk], ?_⟩
          rw [List.take_succ_cons, List.mem_cons, not_or]
          exact ⟨fun e => hs e.symm, h3⟩
      · refine .inr ⟨x :: a, b, by rw [h2]; rfl, by simp; omega, by rw [h4, List.length_cons]; omega, ?_⟩
        rw [List.length_cons, show n + 1 - 1 - (a.length + 1) = n - 1 - a.length by omega]
        exact h5

theorem foldedText_cons {l : Str} {ls qs : List Str} (h : FoldedText (l :: ls) qs) : ∃ ps rs, qs = ps ++ rs ∧ Folded l ps ∧ FoldedText ls rs := by
  cases h with
  | cons h1 h2 => exact ⟨_, _, rfl, h1, h2⟩

theorem rfcBody_eq {u : UB} : ∀ (f : Nat) (r : Str), r.length ≤ f → EndsCR r → 10 ∉ r → NoNul r →
    ∃ qs, FoldedText (linesEnded 13 [] r) qs ∧ rfcBody u f r = .ok (some (qs.flatMap rfcPut)) := by
  intro f
  induction f with
  | zero =>
    intro r hf
    have : r = [] := List.length_eq_zero_iff.1 (by omega)
    subst this
    exact fun _ _ _ => ⟨[], .nil, rfl⟩
  | succ f ih =>
    intro r hf he h10 hn
    by_cases hr : r = []
    · subst hr; exact ⟨[], .nil, rfl⟩
    obtain ⟨l, t, e1, e2, e3⟩ := split_line hr he
    have hd : r.dropWhile (· = 10) = r := by
      rcases r with _ | ⟨c, r⟩
      · rfl
      · exact List.dropWhile_cons_of_neg (by simp; rintro rfl; exact h10 (by simp))
    have hun : ∀ x, rfcScan 78 0 0 r = x → rfcBody u (f + 1) r = if x.1 = 78 ∧ x.2 ≠ 0 then
        (rfcBody u f (r.drop (x.2 + 1))).map fun o => o.map (rfcPut (cstr (r.take x.2)) ++ ·)
      else match r.drop x.1 with
        | [] => .error u
        | y :: t => (rfcBody u f (if y = 13 then t else y :: t)).map fun o => o.map (rfcPut (cstr (r.take x.1)) ++ ·) := by
      rintro x rfl
      rcases r with _ | ⟨c, r⟩
      · exact absurd rfl hr
      · rw [rfcBody]
        dsimp only
        rw [hd, if_neg (by simp)]
        rfl
    have hcs : ∀ n, cstr (r.take n) = r.take n := fun n => cstr_all _ fun hx => hn (List.mem_of_mem_take hx)
    obtain ⟨s1, s2⟩ := rfcScan_line (t := t) e2 78 0 0
    rw [← e1, Nat.zero_add] at s1
    rw [← e1] at s2
    have hlr : r.length = l.length + 1 + t.length := by rw [e1]; simp; omega
    rw [e1, linesEnded_line e2, List.nil_append, ← e1]
    -- the rest of the text
    have rest : ∀ b t', t'.length < r.length → t' = b ++ 13 :: t → 13 ∉ b → (∀ x ∈ t', x ∈ r) →
        ∃ ps qs, Folded b ps ∧ FoldedText (linesEnded 13 [] t) qs ∧ rfcBody u f t' = .ok (some ((ps ++ qs).flatMap rfcPut)) := by
      intro b t' hl e hb hm
      obtain ⟨qs, h1, h2⟩ := ih t' (by omega) (by
        right
        rw [e]
        rcases e3 with rfl | e3
        · simp
        · rw [List.getLast?_append, List.getLast?_cons, e3]; rfl) (fun x => h10 (hm _ x)) (fun x => hn (hm _ x))
      rw [e, linesEnded_line hb, List.nil_append] at h1
      obtain ⟨ps, rs, rfl, h3, h4⟩ := foldedText_cons h1
      exact ⟨ps, rs, h3, h4, h2⟩
    have whole : ∀ x, rfcScan 78 0 0 r = x → ¬ (x.1 = 78 ∧ x.2 ≠ 0) → x.1 = l.length → Folded l [l] →
        ∃ qs, FoldedText (l :: linesEnded 13 [] t) qs ∧ rfcBody u (f + 1) r = .ok (some (qs.flatMap rfcPut)) := by
      intro x hx hc hl hfold
      have ht : ∀ y ∈ t, y ∈ r := fun y hy => by rw [e1]; simp [hy]
      obtain ⟨qs, h1, h2⟩ := ih t (by omega) e3 (fun y => h10 (ht _ y)) (fun y => hn (ht _ y))
      refine ⟨[l] ++ qs, .cons hfold h1, ?_⟩
      rw [hun x hx, if_neg hc, hl, hcs]
      have e5 : r.drop l.length = 13 :: t := by rw [e1]; exact List.drop_left' rfl
      have e6 : r.take l.length = l := by rw [e1]; exact List.take_left' rfl
      rw [e5, e6]
      dsimp only
      rw [if_pos rfl, h2]
      simp [Except.map]
    by_cases hshort : l.length < 78
    · clear s2
      exact whole _ rfl (by rw [s1]; omega) (by rw [s1]; omega) (.short hshort)
    rcases s2 with ⟨s2, s3⟩ | ⟨a, b, s2, s3, s4, s5⟩
    · -- no space
      by_cases hfull : l.length = 78
      · refine whole _ rfl (by rw [s2]; omega) (by rw [s1]; omega) (.full hfull ?_)
        rw [List.take_of_length_le (by omega)] at s3
        exact fun h => s3 (List.mem_of_mem_drop h)
      · obtain ⟨ps, qs, h1, h2, h3⟩ := rest (l.drop 78) (r.drop 78) (by rw [List.length_drop]; omega)
          (by rw [e1, List.drop_append_of_le_length (by omega)]) (fun h => e2 (List.mem_of_mem_drop h)) (fun x hx => List.mem_of_mem_drop hx)
        refine ⟨(l.take 78 :: ps) ++ qs, .cons ?_ h2, ?_⟩
        · have := Folded.cut (a := l.take 78) (b := l.drop 78) (by rw [List.length_take]; omega) (fun h => s3 (List.mem_of_mem_drop h))
            (by intro h; have := congrArg List.length h; rw [List.length_drop] at this; simp at this; omega) h1
          rwa [List.take_append_drop] at this
        · rw [hun _ rfl, if_neg (by rw [s2]; omega), s1, show min 78 l.length = 78 by omega]
          have e4 : r.take 78 = l.take 78 := by rw [e1, List.take_append_of_le_length (by omega)]
          have e5 : r.drop 78 = l.drop 78 ++ 13 :: t := by rw [e1, List.drop_append_of_le_length (by omega)]
          rw [hcs, e4]
          obtain ⟨y, z, hyz⟩ : ∃ y z, r.drop 78 = y :: z := by
            rcases hy : r.drop 78 with _ | ⟨y, z⟩
            · rw [e5] at hy; simp at hy
            · exact ⟨y, z, rfl⟩
          rw [hyz]
          dsimp only
          have hy : y ≠ 13 := by
            rcases hl : l.drop 78 with _ | ⟨p, q⟩
            · have := congrArg List.length hl; rw [List.length_drop] at this; simp at this; omega
            · rw [e5, hl, List.cons_append, List.cons.injEq] at hyz
              rintro rfl
              exact e2 (List.mem_of_mem_drop (by rw [hl]; simp [hyz.1]))
          rw [if_neg hy, ← hyz, h3]
          simp [Except.map]
    · rw [Nat.zero_add] at s4
      by_cases ha : a = []
      · -- the only space is the first byte
        subst ha
        rw [List.nil_append] at s2
        simp only [List.length_nil, Nat.sub_zero] at s5 s4
        have hb : 32 ∉ (l.take 78).drop 1 := by
          rw [s2, List.take_succ_cons, List.drop_one, List.tail_cons]; exact s5
        by_cases hfull : l.length = 78
        · refine whole _ rfl (by rw [s4]; omega) (by rw [s1]; omega) (.full hfull ?_)
          rw [List.take_of_length_le (by omega)] at hb
          exact hb
        · obtain ⟨ps, qs, h1, h2, h3⟩ := rest (l.drop 78) (r.drop 78) (by rw [List.length_drop]; omega)
            (by rw [e1, List.drop_append_of_le_length (by omega)]) (fun h => e2 (List.mem_of_mem_drop h)) (fun x hx => List.mem_of_mem_drop hx)
          refine ⟨(l.take 78 :: ps) ++ qs, .cons ?_ h2, ?_⟩
          · have := Folded.cut (a := l.take 78) (b := l.drop 78) (by rw [List.length_take]; omega) hb
              (by intro h; have := congrArg List.length h; rw [List.length_drop] at this; simp at this; omega) h1
            rwa [List.take_append_drop] at this
          · rw [hun _ rfl, if_neg (by rw [s4]; omega), s1, show min 78 l.length = 78 by omega]
            have e4 : r.take 78 = l.take 78 := by rw [e1, List.take_append_of_le_length (by omega)]
            have e5 : r.drop 78 = l.drop 78 ++ 13 :: t := by rw [e1, List.drop_append_of_le_length (by omega)]
            rw [hcs, e4]
            obtain ⟨y, z, hyz⟩ : ∃ y z, r.drop 78 = y :: z := by
              rcases hy : r.drop 78 with _ | ⟨y, z⟩
              · rw [e5] at hy; simp at hy
              · exact ⟨y, z, rfl⟩
            rw [hyz]
            dsimp only
            have hy : y ≠ 13 := by
              rcases hl : l.drop 78 with _ | ⟨p, q⟩
              · have := congrArg List.length hl; rw [List.length_drop] at this; simp at this; omega
              · rw [e5, hl, List.cons_append, List.cons.injEq] at hyz
                rintro rfl
                exact e2 (List.mem_of_mem_drop (by rw [hl]; simp [hyz.1]))
            rw [if_neg hy, ← hyz, h3]
            simp [Except.map]
      · -- broken at a space
        have hal : 0 < a.length := List.length_pos_iff.2 ha
        have e4 : r = a ++ 32 :: (b ++ 13 :: t) := by rw [e1, s2]; simp
        have hdr : r.drop (a.length + 1) = b ++ 13 :: t := by
          rw [e4, List.drop_append]; simp
        obtain ⟨ps, qs, h1, h2, h3⟩ := rest b (r.drop (a.length + 1)) (by rw [List.length_drop]; omega) hdr
          (fun h => e2 (by rw [s2]; simp [h])) (fun x hx => List.mem_of_mem_drop hx)
        refine ⟨(a :: ps) ++ qs, .cons ?_ h2, ?_⟩
        · rw [s2]
          exact .space ha s3 (by rw [← s2]; omega) s5 h1
        · rw [hun _ rfl, if_pos ⟨by rw [s1]; omega, by rw [s4]; omega⟩, s4, h3, hcs]
          rw [show r.take a.length = a by rw [e4]; exact List.take_left' rfl]
          simp [Except.map]

theorem getLast_drop {r : Str} (h : EndsCR r) (n : Nat) : EndsCR (r.drop n) := by
  rcases h with rfl | h
  · exact .inl (by simp)
  · by_cases hn : n < r.length
    · right; rw [List.getLast?_drop, if_neg (by omega)]; exact h
    · left; exact List.drop_eq_nil_of_le (by omega)

theorem endsCR_dropWhile {r : Str} (h : r.getLast? = some 13) : (r.dropWhile (· = 10)).getLast? = some 13 := by
  induction r with
  | nil => cases h
  | cons c r ih =>
    by_cases hc : c = 10
    · rw [List.dropWhile_cons_of_pos (by simp [hc])]
      rcases r with _ | ⟨x, r⟩
      · simp only [List.getLast?_singleton, Option.some.injEq] at h; rw [hc] at h; cases h
      · rw [List.getLast?_cons_cons] at h; exact ih h
    · rw [List.dropWhile_cons_of_neg (by simp [hc])]; exact h

theorem rfcScan_le : ∀ (n c s : Nat) (r : Str), c ≤ (rfcScan n c s r).1 ∧ (rfcScan n c s r).1 ≤ c + r.length ∧
    ((rfcScan n c s r).1 = c + r.length → 13 ∉ r) := by
  intro n
  induction n with
  | zero =>
    intro c s r
    rw [rfcScan]
    refine ⟨Nat.le_refl _, by omega, fun h => ?_⟩
    rw [List.length_eq_zero_iff.1 (by omega : r.length = 0)]
    simp
  | succ n ih =>
    intro c s r
    cases r with
    | nil => rw [rfcScan]; exact ⟨Nat.le_refl _, by simp, by simp⟩
    | cons x r =>
      rw [rfcScan]
      split
      · exact ⟨Nat.le_refl _, by simp, fun h => by simp at h⟩
      · rename_i hx
        obtain ⟨h1, h2, h3⟩ := ih (c + 1) (if x = 32 then c else s) r
        refine ⟨by omega, by rw [List.length_cons]; omega, fun h => ?_⟩
        rw [List.mem_cons, not_or]
        exact ⟨fun e => hx e.symm, h3 (by rw [h, List.length_cons]; omega)⟩

/-- With line feeds too, nothing behind the chunk is read, and the end is reached. -/
theorem rfcBody_safe {u : UB} : ∀ (f : Nat) (r : Str), r.length ≤ f → EndsCR r → ∃ o, rfcBody u f r = .ok (some o) := by
  intro f
  induction f with
  | zero =>
    intro r hf _
    rw [List.length_eq_zero_iff.1 (by omega : r.length = 0)]
    exact ⟨[], rfl⟩
  | succ f ih =>
    intro r hf he
    rcases r with _ | ⟨c0, r0⟩
    · exact ⟨[], rfl⟩
    have hl : (c0 :: r0).getLast? = some 13 := by rcases he with h | h <;> first | cases h | exact h
    have hd := endsCR_dropWhile hl
    have hlen : ((c0 :: r0).dropWhile (· = 10)).length ≤ f + 1 := Nat.le_trans (List.dropWhile_sublist _).length_le hf
    rw [rfcBody]
    dsimp only
    generalize (c0 :: r0).dropWhile (· = 10) = r at hd hlen ⊢
    have hr : r ≠ [] := by rintro rfl; cases hd
    rw [if_neg hr]
    have h0 : 0 < r.length := List.length_pos_iff.2 hr
    split
    · obtain ⟨o, ho⟩ := ih (r.drop ((rfcScan 78 0 0 r).2 + 1)) (by rw [List.length_drop]; omega) (getLast_drop (.inr hd) _)
      exact ⟨_, by rw [ho]; rfl⟩
    · obtain ⟨-, h2, h3⟩ := rfcScan_le 78 0 0 r
      have hc : (rfcScan 78 0 0 r).1 < r.length := by
        rcases Nat.lt_or_ge (rfcScan 78 0 0 r).1 r.length with h | h
        · exact h
        · exact absurd (List.mem_of_getLast? hd) (h3 (by omega))
      split
      · rename_i h
        have := congrArg List.length h
        rw [List.length_drop] at this
        simp at this
        omega
      · rename_i x t h
        have hxt : EndsCR (x :: t) := h ▸ getLast_drop (.inr hd) _
        have ht : EndsCR t := getLast_drop hxt 1
        have hlx := congrArg List.length h
        rw [List.length_drop, List.length_cons] at hlx
        have hprog : x = 13 ∨ 0 < (rfcScan 78 0 0 r).1 := by
          by_cases hx : x = 13
          · exact .inl hx
          · right
            rcases r with _ | ⟨y, r⟩
            · exact absurd rfl hr
            · rw [rfcScan] at h ⊢
              split
              · rename_i hy
                rw [if_pos hy, List.drop_zero, List.cons.injEq] at h
                exact absurd (h.1 ▸ hy) hx
              · exact Nat.lt_of_lt_of_le Nat.zero_lt_one (rfcScan_le 77 1 (if y = 32 then 0 else 0) r).1
        obtain ⟨o, ho⟩ : ∃ o, rfcBody u f (if x = 13 then t else x :: t) = .ok (some o) := by
          split
          · exact ih t (by omega) ht
          · rename_i hx
            have := hprog.resolve_left hx
            exact ih (x :: t) (by rw [List.length_cons]; omega) hxt
        exact ⟨_, by rw [ho]; rfl⟩

/-! ## Lines and their parts -/

theorem folded_mem {l : Str} {ps : List Str} (h : Folded l ps) : ∀ p ∈ ps, p.length ≤ 78 ∧ ∀ x ∈ p, x ∈ l := by
  induction h with
  | short h => intro p hp; rw [List.mem_singleton.1 hp]; exact ⟨by omega, fun _ h => h⟩
  | space h1 h2 h3 h4 _ ih =>
    intro p hp
    rcases List.mem_cons.1 hp with rfl | hp
    · exact ⟨by omega, fun x hx => by simp [hx]⟩
    · exact ⟨(ih p hp).1, fun x hx => by simp [(ih p hp).2 x hx]⟩
  | full h1 h2 => intro p hp; rw [List.mem_singleton.1 hp]; exact ⟨by omega, fun _ h => h⟩
  | cut h1 h2 h3 _ ih =>
    intro p hp
    rcases List.mem_cons.1 hp with rfl | hp
    · exact ⟨by omega, fun x hx => by simp [hx]⟩
    · exact ⟨(ih p hp).1, fun x hx => by simp [(ih p hp).2 x hx]⟩

theorem foldedText_append {a b p q : List Str} (h1 : FoldedText a p) (h2 : FoldedText b q) : FoldedText (a ++ b) (p ++ q) := by
  induction h1 with
  | nil => exact h2
  | cons h _ ih => rw [List.cons_append, List.append_assoc]; exact .cons h ih

theorem foldedText_mem {ls qs : List Str} (h : FoldedText ls qs) : ∀ q ∈ qs, q.length ≤ 78 ∧ ∃ l ∈ ls, ∀ x ∈ q, x ∈ l := by
  induction h with
  | nil => intro q h; cases h
  | cons h _ ih =>
    intro q hq
    rcases List.mem_append.1 hq with hq | hq
    · exact ⟨(folded_mem h q hq).1, _, List.mem_cons_self .., (folded_mem h q hq).2⟩
    · obtain ⟨h1, l, h2, h3⟩ := ih q hq
      exact ⟨h1, l, List.mem_cons_of_mem _ h2, h3⟩

theorem rfcBodies_eq {cs : List Str} (h : ∀ c ∈ cs, EndsCR c ∧ 10 ∉ c ∧ NoNul c) :
    ∃ qs, FoldedText (cs.flatMap (linesEnded 13 [])) qs ∧ rfcBodies cs = .ok (some (qs.flatMap rfcPut)) := by
  induction cs with
  | nil => exact ⟨[], .nil, rfl⟩
  | cons c cs ih =>
    obtain ⟨qs, h1, h2⟩ := ih fun x hx => h x (by simp [hx])
    obtain ⟨e1, e2, e3⟩ := h c (by simp)
    obtain ⟨ps, h3, h4⟩ := rfcBody_eq (u := behind c) c.length c (Nat.le_refl _) e1 e2 e3
    refine ⟨ps ++ qs, foldedText_append h3 h1, ?_⟩
    rw [rfcBodies, h4]
    show (rfcBodies cs).map _ = _
    rw [h2]
    simp [Except.map]

theorem rfcBodies_safe {cs : List Str} (h : ∀ c ∈ cs, EndsCR c) : ∃ o, rfcBodies cs = .ok (some o) := by
  induction cs with
  | nil => exact ⟨[], rfl⟩
  | cons c cs ih =>
    obtain ⟨o, h2⟩ := ih fun x hx => h x (by simp [hx])
    obtain ⟨p, h4⟩ := rfcBody_safe (u := behind c) c.length c (Nat.le_refl _) (h c (by simp))
    rw [rfcBodies, h4]
    refine ⟨p ++ o, ?_⟩
    show (rfcBodies cs).map _ = _
    rw [h2]
    rfl

theorem mapM_kludges {cs : List Str} (h : ∀ c ∈ cs, ∃ o, rfcKludges (behind c) [] c = .ok o) :
    ∃ os, cs.mapM (fun c => rfcKludges (behind c) [] c) = .ok os := by
  induction cs with
  | nil => exact ⟨[], rfl⟩
  | cons c cs ih =>
    obtain ⟨os, h1⟩ := ih fun x hx => h x (by simp [hx])
    obtain ⟨o, h2⟩ := h c (by simp)
    exact ⟨o :: os, by rw [List.mapM_cons, h2]; show (do let os ← cs.mapM (fun c => rfcKludges (behind c) [] c); pure (o :: os) : Except UB (List Str)) = _; rw [h1]; rfl⟩

theorem mapM_kludges_eq {cs : List Str} (h : ∀ c ∈ cs, EndsCR c ∧ 10 ∉ c) :
    cs.mapM (fun c => rfcKludges (behind c) [] c) = .ok (cs.map fun c => (linesEnded 13 [] c).flatMap rfcKludge) := by
  induction cs with
  | nil => rfl
  | cons c cs ih =>
    rw [List.mapM_cons, rfcKludges_eq (h c (by simp)).1 (h c (by simp)).2]
    show (do let os ← cs.mapM (fun c => rfcKludges (behind c) [] c); pure (_ :: os) : Except UB (List Str)) = _
    rw [ih fun x hx => h x (by simp [hx])]
    rfl

theorem rfcPut_eq (qs : List Str) : qs.flatMap rfcPut = (qs.filter fun q => q.head? ≠ some 1).flatMap (· ++ [10]) := by
  induction qs with
  | nil => rfl
  | cons q qs ih =>
    rw [List.flatMap_cons, ih, rfcPut]
    by_cases h : q.head? = some 1
    · rw [if_pos h, List.filter_cons_of_neg (by simp [h])]; rfl
    · rw [if_neg h, List.filter_cons_of_pos (by simp [h])]; rfl

theorem rfcKludge_eq (ls : List Str) : ls.flatMap rfcKludge = (mailControl ls).flatMap (· ++ [10]) := by
  induction ls with
  | nil => rfl
  | cons l ls ih =>
    rw [List.flatMap_cons, ih]
    unfold mailControl
    rcases l with _ | ⟨a, _ | ⟨b, r⟩⟩
    · rfl
    · by_cases ha : a = 1
      · subst ha; rfl
      · rw [List.filter_cons_of_neg (by simp [ha])]
        unfold rfcKludge; split
        · rename_i h; cases h
        · rfl
    · by_cases ha : a = 1
      · subst ha; rw [List.filter_cons_of_pos (by simp)]; rfl
      · rw [List.filter_cons_of_neg (by simp [ha])]
        unfold rfcKludge; split
        · rename_i h; cases h; exact absurd rfl ha
        · rfl

end CM
