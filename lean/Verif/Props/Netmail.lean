import Verif.Spec.Netmail
import Verif.Props.Filter
import Verif.Props.Node4D
/-! # Netmail: loops and bounces (C21, C22) -/

set_option linter.unusedSimpArgs false

namespace CM

/-! ## C21 -/

theorem addrByte_iff (c : UInt8) : addrByte c = true ↔ AddrChar c := by
  unfold addrByte AddrChar
  simp only [Bool.or_eq_true, beq_iff_eq, isDigit_iff, or_assoc, u8_le]
  rfl

theorem hasSub_iff (pat s : Str) (hp : pat ≠ []) : hasSub pat s = true ↔ ∃ a b, s = a ++ pat ++ b := by
  induction s with
  | nil =>
    simp only [hasSub, beq_iff_eq]
    constructor
    · intro h; exact absurd h hp
    · rintro ⟨a, b, h⟩
      have := congrArg List.length h
      cases pat with
      | nil => exact absurd rfl hp
      | cons x y => simp at this
  | cons c r ih =>
    simp only [hasSub, Bool.or_eq_true, ih, startsWith_iff]
    constructor
    · rintro (⟨b, h⟩ | ⟨a, b, h⟩)
      · exact ⟨[], b, by rw [← h]; rfl⟩
      · exact ⟨c :: a, b, by rw [h]; rfl⟩
    · rintro ⟨a, b, h⟩
      cases a with
      | nil => exact .inl ⟨b, h.symm⟩
      | cons x a =>
        simp only [List.cons_append, List.cons.injEq] at h
        exact .inr ⟨a, b, h.2⟩

theorem checkFoundAka_iff (cfg : Config) (w : Str) :
    checkFoundAka cfg (w.take 19) = true ↔ NamesOwn cfg w := by
  unfold checkFoundAka NamesOwn
  simp only [Bool.and_eq_true, List.contains_iff_mem, and_assoc]
  refine and_congr_right fun _ => and_congr_right fun _ => ?_
  cases parse4D (w.take 19) with
  | none => simp
  | some n =>
    simp only [Bool.and_eq_true, bne_iff_ne, ne_eq, List.any_eq_true, beq_iff_eq, Option.some.injEq, and_assoc,
      same_iff]
    constructor
    · rintro h; exact ⟨n, rfl, h⟩
    · rintro ⟨k, rfl, h⟩; exact h

theorem addrWord_cons {c : UInt8} (hc : ¬ AddrChar c) (r v : Str) : AddrWord (c :: r) v ↔ AddrWord r v := by
  constructor
  · rintro ⟨pre, post, h, hv, ha, h1, h2⟩
    cases pre with
    | nil =>
      cases v with
      | nil => exact absurd rfl hv
      | cons x v =>
        simp only [List.nil_append, List.cons_append, List.cons.injEq] at h
        exact absurd (ha x (by simp)) (h.1 ▸ hc)
    | cons x pre =>
      simp only [List.cons_append, List.cons.injEq] at h
      refine ⟨pre, post, h.2, hv, ha, fun d hd => h1 d ?_, h2⟩
      cases pre with
      | nil => simp at hd
      | cons y pre => simpa using hd
  · rintro ⟨pre, post, rfl, hv, ha, h1, h2⟩
    refine ⟨c :: pre, post, rfl, hv, ha, fun d hd => ?_, h2⟩
    cases pre with
    | nil => simp at hd; exact hd ▸ hc
    | cons y pre => exact h1 d (by simpa using hd)

theorem addrWord_word {w : Str} (hw : ∀ c ∈ w, AddrChar c) (v : Str) : AddrWord w v ↔ v = w ∧ w ≠ [] := by
  constructor
  · rintro ⟨pre, post, h, hv, ha, h1, h2⟩
    have hp : pre = [] := by
      cases hl : pre.getLast? with
      | none => simpa using hl
      | some d =>
        refine absurd (hw d ?_) (h1 d hl)
        rw [h]; simp [List.mem_of_getLast? hl]
    have hq : post = [] := by
      cases hl : post.head? with
      | none => simpa using hl
      | some d =>
        refine absurd (hw d ?_) (h2 d hl)
        rw [h]; simp [List.mem_of_head? hl]
    subst hp; subst hq
    simp only [List.nil_append, List.append_nil] at h
    exact ⟨h.symm, h ▸ hv⟩
  · rintro ⟨rfl, h⟩
    exact ⟨[], [], by simp, h, hw, by simp, by simp⟩

theorem addrWord_append {w : Str} (hw : ∀ c ∈ w, AddrChar c) {c : UInt8} (hc : ¬ AddrChar c) (r v : Str) :
    AddrWord (w ++ c :: r) v ↔ (v = w ∧ w ≠ []) ∨ AddrWord r v := by
  constructor
  · rintro ⟨pre, post, h, hv, ha, h1, h2⟩
    cases pre with
    | nil =>
      simp only [List.nil_append] at h
      by_cases hwe : w = []
      · subst hwe
        exact .inr ((addrWord_cons hc r v).1 ⟨[], post, by simpa using h, hv, ha, by simp, h2⟩)
      · refine .inl ⟨?_, hwe⟩
        rcases List.append_eq_append_iff.1 h with ⟨as, e1, e2⟩ | ⟨as, e1, e2⟩
        · cases as with
          | nil => simpa using e1
          | cons x as =>
            simp only [List.cons_append, List.cons.injEq] at e2
            refine absurd (ha c ?_) hc
            rw [e1, ← e2.1]; simp
        · cases as with
          | nil => simpa using e1.symm
          | cons x as =>
            refine absurd (hw x ?_) (h2 x ?_)
            · rw [e1]; simp
            · rw [e2]; rfl
    | cons x pre =>
      -- the last character before the word is no address character, so it is not in `w`
      rw [List.append_assoc] at h
      rcases List.append_eq_append_iff.1 h with ⟨as, e1, e2⟩ | ⟨as, e1, e2⟩
      · cases as with
        | nil =>
          simp only [List.append_nil] at e1
          cases w with
          | nil => simp at e1
          | cons y w =>
            rw [e1] at h1
            refine absurd (hw _ (List.getLast_mem (by simp))) (h1 _ (List.getLast?_eq_some_getLast (by simp)))
        | cons y as =>
          simp only [List.cons_append, List.cons.injEq] at e2
          refine .inr ⟨as, post, by rw [e2.2, List.append_assoc], hv, ha, fun d hd => h1 d ?_, h2⟩
          rw [e1]
          cases as with
          | nil => simp at hd
          | cons z as => simpa [List.getLast?_append] using hd
      · refine absurd (hw _ ?_) (h1 _ (List.getLast?_eq_some_getLast (by simp)))
        rw [e1]
        exact List.mem_append_left _ (List.getLast_mem (by simp))
  · rintro (⟨rfl, h⟩ | ⟨pre, post, rfl, hv, ha, h1, h2⟩)
    · exact ⟨[], c :: r, rfl, h, hw, by simp, fun d hd => by simp at hd; exact hd ▸ hc⟩
    · refine ⟨w ++ c :: pre, post, by simp, hv, ha, fun d hd => ?_, h2⟩
      cases pre with
      | nil => simp at hd; exact hd ▸ hc
      | cons y pre => exact h1 d (by simpa [List.getLast?_append] using hd)

theorem viaScan_iff (cfg : Config) (s w : Str) (hw : ∀ c ∈ w, AddrChar c) :
    viaScan cfg (w.take 19) s = true ↔ ∃ v, AddrWord (w ++ s) v ∧ NamesOwn cfg v := by
  have he : (w.take 19 != []) = true ↔ w ≠ [] := by
    cases w <;> simp
  induction s generalizing w with
  | nil =>
    simp only [viaScan, Bool.and_eq_true, he, List.append_nil, addrWord_word hw, checkFoundAka_iff]
    constructor
    · rintro ⟨h1, h2⟩; exact ⟨w, ⟨rfl, h1⟩, h2⟩
    · rintro ⟨v, ⟨rfl, h1⟩, h2⟩; exact ⟨h1, h2⟩
  | cons c r ih =>
    simp only [viaScan]
    split
    · next hc =>
      have e : (if (w.take 19).length < 19 then w.take 19 ++ [c] else w.take 19) = (w ++ [c]).take 19 := by
        rw [List.take_append]
        split
        · next h =>
          have h' : w.length < 19 := by rw [List.length_take] at h; omega
          rw [List.take_of_length_le (l := [c]) (by simp; omega)]
        · next h =>
          have h' : ¬ w.length < 19 := by rw [List.length_take] at h; omega
          rw [show 19 - w.length = 0 by omega]; simp
      rw [e]
      refine (ih (w ++ [c]) ?_ ?_).trans ?_
      · intro d hd
        rcases List.mem_append.1 hd with h | h
        · exact hw d h
        · simp at h; exact h ▸ (addrByte_iff c).1 hc
      · cases w <;> simp
      · simp
    · next hc =>
      have hc' : ¬ AddrChar c := fun h => hc ((addrByte_iff c).2 h)
      have ih0 := ih [] (by simp) (by simp)
      simp only [List.take_nil, List.nil_append] at ih0
      simp only [Bool.or_eq_true, Bool.and_eq_true, he, checkFoundAka_iff, ih0, addrWord_append hw hc']
      constructor
      · rintro (⟨h1, h2⟩ | ⟨v, h1, h2⟩)
        · exact ⟨w, .inl ⟨rfl, h1⟩, h2⟩
        · exact ⟨v, .inr h1, h2⟩
      · rintro ⟨v, ⟨rfl, h1⟩ | h1, h2⟩
        · exact .inl ⟨h1, h2⟩
        · exact .inr ⟨v, h1, h2⟩

theorem isOwnVia_iff (cfg : Config) (l : Str) : isOwnVia cfg l = true ↔ OwnVia cfg l := by
  unfold isOwnVia OwnVia
  rw [Bool.and_eq_true, Bool.and_eq_true, and_assoc, startsWith_iff, hasSub_iff _ _ (by simp)]
  have := viaScan_iff cfg (l.take 150) [] (by simp)
  simp only [List.take_nil, List.nil_append] at this
  rw [this]
  refine and_congr ?_ Iff.rfl
  constructor
  · rintro ⟨r, h⟩; exact ⟨r, h.symm⟩
  · rintro ⟨r, h⟩; exact ⟨r, h.symm⟩

theorem takeWhile_cr {l : Str} (h : (13 : UInt8) ∉ l) (r : Str) : (l ++ 13 :: r).takeWhile (· != 13) = l := by
  induction l with
  | nil => rfl
  | cons c l ih =>
    simp only [List.mem_cons, not_or] at h
    have hc : (c != 13) = true := by simp; exact fun e => h.1 e.symm
    rw [List.cons_append, List.takeWhile_cons, if_pos hc, ih h.2]

theorem loopLines_iff (cfg : Config) (ls : List Str) (h : ∀ l ∈ ls, (13 : UInt8) ∉ l) (f : Nat)
    (hf : (chunkOf ls).length < f) :
    loopLines cfg f (chunkOf ls) = .ok (ls.any fun l => isOwnVia cfg (l ++ [13])) := by
  induction ls generalizing f with
  | nil =>
    cases f with
    | zero => simp at hf
    | succ f => rfl
  | cons l ls ih =>
    cases f with
    | zero => omega
    | succ f =>
      have e : chunkOf (l :: ls) = l ++ 13 :: chunkOf ls := by simp [chunkOf]
      rw [e] at hf ⊢
      simp only [loopLines]
      rw [takeWhile_cr (h l (by simp)), if_neg (by simp), if_neg (by simp)]
      rw [List.any_cons]
      cases isOwnVia cfg (l ++ [13]) with
      | true => rfl
      | false =>
        rw [if_neg (by simp), Bool.false_or]
        rw [show (l ++ 13 :: chunkOf ls).drop (l.length + 1) = chunkOf ls by
          rw [show l ++ 13 :: chunkOf ls = (l ++ [13]) ++ chunkOf ls by simp]
          exact List.drop_left' (by simp)]
        exact ih (fun l hl => h l (List.mem_cons_of_mem _ hl)) f (by simp at hf; omega)

theorem isLoopMail_eq (cfg : Config) (lss : List (List Str)) (h : ∀ ls ∈ lss, ∀ l ∈ ls, (13 : UInt8) ∉ l) :
    isLoopMail cfg (lss.map chunkOf) = .ok (lss.any fun ls => ls.any fun l => isOwnVia cfg (l ++ [13])) := by
  induction lss with
  | nil => rfl
  | cons ls lss ih =>
    rw [List.map_cons, isLoopMail, loopLines_iff cfg ls (h ls (by simp)) _ (by omega), List.any_cons]
    cases ls.any fun l => isOwnVia cfg (l ++ [13]) with
    | true => rfl
    | false => exact ih fun ls hl => h ls (List.mem_cons_of_mem _ hl)

/-- C21. In a text of complete lines the loop check finds out exactly whether one of the lines is a Via
line with one of the system's own addresses. -/
theorem isLoopMail_iff (cfg : Config) (lss : List (List Str)) (h : ∀ ls ∈ lss, ∀ l ∈ ls, (13 : UInt8) ∉ l) :
    (isLoopMail cfg (lss.map chunkOf) = .ok true ↔ ∃ ls ∈ lss, ∃ l ∈ ls, OwnVia cfg (l ++ [13])) ∧
    (isLoopMail cfg (lss.map chunkOf) = .ok false ↔ ¬ ∃ ls ∈ lss, ∃ l ∈ ls, OwnVia cfg (l ++ [13])) := by
  rw [isLoopMail_eq cfg lss h]
  have e : (lss.any fun ls => ls.any fun l => isOwnVia cfg (l ++ [13])) = true ↔
      ∃ ls ∈ lss, ∃ l ∈ ls, OwnVia cfg (l ++ [13]) := by
    simp only [List.any_eq_true, isOwnVia_iff]
  constructor
  · rw [← e]; simp
  · rw [← e]; simp

theorem print4D_chars (n : Node4D) : ∀ c ∈ print4D n, AddrChar c := by
  have hd : ∀ k, ∀ c ∈ dec k, AddrChar c := by
    intro k c hc
    have := (isDigit_iff c).1 (dec_digits k c hc)
    exact .inr (.inr (.inr ⟨(u8_le _ _).2 this.1, (u8_le _ _).2 this.2⟩))
  intro c hc
  unfold print4D at hc
  have h58 : AddrChar 58 := .inl rfl
  have h47 : AddrChar 47 := .inr (.inl rfl)
  have h46 : AddrChar 46 := .inr (.inr (.inl rfl))
  split at hc
  · simp only [List.mem_append, List.mem_cons, List.not_mem_nil, or_false] at hc
    rcases hc with (((((h | rfl) | h) | rfl) | h) | rfl) | h
    all_goals first | exact hd _ _ h | assumption
  · simp only [List.mem_append, List.mem_cons, List.not_mem_nil, or_false] at hc
    rcases hc with (((h | rfl) | h) | rfl) | h
    all_goals first | exact hd _ _ h | assumption

/-- C21. The Via line this system adds to a message is recognised when the message comes back, if its
printed address has at most 19 characters. -/
theorem viaLine_recognised (cfg : Config) (a : Aka) (time : Str) (ha : a ∈ cfg.akas) (hz : a.node.zone ≠ 0)
    (hn : a.node.net ≠ 0) (hl : (print4D a.node).length ≤ 19) (ht : time.length ≤ 60) :
    OwnVia cfg (viaLine a.node time) := by
  have hp := print4D_length a.node
  have hlen : (viaLine a.node time).length ≤ 150 := by
    unfold viaLine
    simp only [List.length_append, List.length_cons, List.length_nil]
    omega
  unfold OwnVia
  rw [List.take_of_length_le hlen]
  refine ⟨⟨b!" " ++ print4D a.node ++ b!" @" ++ time ++ b!" CrashMail II/Linux 1.5.1" ++ [13], by simp [viaLine]⟩,
    ⟨1 :: b!"Via " ++ print4D a.node ++ b!" @" ++ time ++ b!" ", b!" II/Linux 1.5.1" ++ [13], by simp [viaLine]⟩,
    print4D a.node, ⟨1 :: b!"Via ", b!" @" ++ time ++ b!" CrashMail II/Linux 1.5.1" ++ [13], by simp [viaLine], ?_,
      print4D_chars _, ?_, ?_⟩, ?_⟩
  · unfold print4D; split <;> simp
  · intro c h; simp at h; subst h; unfold AddrChar; decide
  · intro c h; simp at h; subst h; unfold AddrChar; decide
  · unfold NamesOwn
    rw [List.take_of_length_le hl]
    refine ⟨?_, ?_, a.node, parse4D_print4D _, hz, hn, a, ha, rfl, rfl, rfl, .inl rfl⟩
    · unfold print4D; split <;> simp
    · unfold print4D; split <;> simp

namespace Ex

/-- C21 (violated). The system's own Via line is not recognised when the address has more than 19
characters. -/
theorem long_address_not_recognised :
    isLoopMail { cfg [] with akas := [{ node := ⟨10000, 20000, 30000, 40000⟩ }] }
      [viaLine ⟨10000, 20000, 30000, 40000⟩ b!"20000101.000000"] = .ok false := by decide +kernel

example : isLoopMail (cfg []) [b!"hello" ++ [13], viaLine ⟨1, 2, 3, 0⟩ b!"20000101.000000"] = .ok true := by
  decide +kernel

example : isLoopMail (cfg []) [b!"hello" ++ [13], viaLine ⟨1, 2, 4, 0⟩ b!"20000101.000000"] = .ok false := by
  decide +kernel

/-- The hypotheses of `viaLine_recognised` are met. -/
example : OwnVia (cfg []) (viaLine ⟨1, 2, 3, 0⟩ b!"20000101.000000") :=
  viaLine_recognised (cfg []) { node := ⟨1, 2, 3, 0⟩ } _ (by decide) (by decide) (by decide) (by decide) (by decide)

/-- The hypotheses of `isLoopMail_iff` are met. -/
example : ∃ lss : List (List Str), lss.map chunkOf = [b!"hello" ++ [13], viaLine ⟨1, 2, 3, 0⟩ b!"20000101.000000"] ∧
    ∀ ls ∈ lss, ∀ l ∈ ls, (13 : UInt8) ∉ l :=
  ⟨[[b!"hello"], [(viaLine ⟨1, 2, 3, 0⟩ b!"20000101.000000").dropLast]], by decide +kernel, by decide +kernel⟩

end Ex

end CM
