import Verif.Lemmas.Net
import Verif.Lemmas.Reply
import Verif.Props.Netmail
import Verif.Spec.NetNetmail
/-! # Chunks of whole lines -/

set_option linter.unusedSimpArgs false
namespace CM

/-! ## Chunks of whole lines -/

/-- The chunks but the last end with a line. -/
structure Whole (cs : List Str) : Prop where
  ends : ∀ c ∈ cs.dropLast, c.getLast? = some 13
  full : [] ∉ cs

theorem lastCR_after (s : Str) : ∀ d i, lastCR s d < i → i ≤ d → s[i]? ≠ some 13
  | 0, i, h1, h2 => by unfold lastCR at h1; omega
  | d + 1, i, h1, h2 => by
    unfold lastCR at h1
    split at h1
    · omega
    · next hn =>
      by_cases hi : i = d + 1
      · subst hi; exact hn
      · exact lastCR_after s d i h1 (by omega)

theorem shortLines_left {a b : Str} (h : ShortLines (a ++ b)) : ShortLines a := by
  intro x y z e hy
  exact h x y (z ++ b) (by rw [e]; simp) hy

/-- `a` ends with a line. -/
theorem shortLines_append {a b : Str} (ha : ShortLines a) (hb : ShortLines b) (he : EndsCR a) : ShortLines (a ++ b) := by
  intro x y z e hy
  rcases he with rfl | he
  · exact hb x y z (by simpa using e) hy
  obtain ⟨a', rfl⟩ := List.getLast?_eq_some_iff.1 he
  -- `x` reaches behind `a`, or `x ++ y` does not reach its end
  by_cases h1 : a'.length + 1 ≤ x.length
  · have e' : (a' ++ [13]) ++ b = x ++ (y ++ z) := by rw [e]; simp
    rw [List.append_eq_append_iff] at e'
    rcases e' with ⟨w, w1, w2⟩ | ⟨w, w1, w2⟩
    · exact hb w y z (by rw [w2]; simp) hy
    · have : w = [] := by
        have := congrArg List.length w1
        simp at this
        exact List.eq_nil_of_length_eq_zero (by omega)
      subst this
      exact hb [] y z (by simpa using w2.symm) hy
  · by_cases h2 : x.length + y.length ≤ a'.length
    · have e' : a' ++ (13 :: b) = (x ++ y) ++ z := by rw [← e]; simp
      rw [List.append_eq_append_iff] at e'
      rcases e' with ⟨w, w1, w2⟩ | ⟨w, w1, w2⟩
      · have : w = [] := by
          have := congrArg List.length w1
          simp at this
          exact List.eq_nil_of_length_eq_zero (by omega)
        subst this
        exact ha x y [13] (by rw [w1]; simp) hy
      · exact ha x y (w ++ [13]) (by rw [w1]; simp) hy
    · exfalso
      apply hy
      have : (a' ++ [13] ++ b)[a'.length]? = some 13 := by simp
      rw [e, List.append_assoc, List.getElem?_append_right (by omega), List.getElem?_append_left (by omega)] at this
      exact List.mem_of_getElem? this

theorem shortLines_short {a : Str} (h : a.length ≤ 8000) : ShortLines a := by
  intro x y z e _
  have := congrArg List.length e
  simp at this
  omega

theorem whole_add {cs r : List Str} {buf : Str} (h : TextOK cs) (hw : Whole cs) (hl : buf.length ≤ 1000) (hs : ShortLines (cs.flatten ++ buf)) (e : mmAddBuf cs buf = .ok (some r)) : Whole r := by
  unfold mmAddBuf at e
  by_cases h0 : buf.length = 0
  · rw [if_pos h0] at e
    cases e
    exact hw
  rw [if_neg h0] at e
  obtain ⟨b, buf', rfl⟩ : ∃ b buf', buf = b :: buf' := by
    cases buf with
    | nil => simp at h0
    | cons b buf' => exact ⟨b, buf', rfl⟩
  cases hg : cs.getLast? with
  | none =>
    rw [hg] at e
    have : cs = [] := List.getLast?_eq_none_iff.1 hg
    subst this
    simp only [mmAddLoop, List.length_cons, carryLine, List.getLast?_nil, List.nil_append, List.length_nil, Nat.sub_zero] at e
    rw [Nat.min_eq_left (by unfold chunkLen; simp at hl; omega), List.take_of_length_le (by simp), List.drop_of_length_le (by simp)] at e
    rw [mmAddLoop] at e
    cases e
    exact ⟨by simp, by simp⟩
  | some c =>
    rw [hg] at e
    obtain ⟨ys, rfl⟩ := List.getLast?_eq_some_iff.1 hg
    have hcl : c.length ≤ chunkLen := h.1 c (by simp)
    have hmod : (c.length + (b :: buf').length) % 2 ^ 32 = c.length + (b :: buf').length := Nat.mod_eq_of_lt (by unfold chunkLen at hcl; omega)
    dsimp only at e
    rw [hmod] at e
    have hys : ∀ c ∈ ys, c.getLast? = some 13 := by have := hw.ends; rwa [List.dropLast_concat] at this
    have hne : [] ∉ ys ∧ c ≠ [] := by
      have := hw.full
      simp only [List.mem_append, List.mem_singleton, not_or] at this
      exact ⟨this.1, fun e => this.2 e.symm⟩
    by_cases hf : c.length + (b :: buf').length ≤ chunkLen
    · rw [if_pos hf, if_pos hf] at e
      cases e
      refine ⟨by simpa using hys, ?_⟩
      simp only [List.dropLast_concat, List.mem_append, List.mem_singleton, not_or]
      exact ⟨hne.1, by simp⟩
    · rw [if_neg hf] at e
      have hc9 : 9000 < c.length := by unfold chunkLen at hf; omega
      have hcs : ∀ x y z : Str, c = x ++ y ++ z → (13 : UInt8) ∉ y → y.length ≤ 8000 := by
        intro x y z ec hy
        exact hs (ys.flatten ++ x) y (z ++ b :: buf') (by simp [ec]) hy
      -- the part that is moved
      obtain ⟨cs', start, e1, e2, e3, e4⟩ : ∃ cs' start, carryLine (ys ++ [c]) = (cs', start) ∧ (∀ c ∈ cs', c.getLast? = some 13) ∧ start.length ≤ 8000 ∧ [] ∉ cs' := by
        unfold carryLine
        rw [hg]
        dsimp only
        have hall : c.getLast? = some 13 → (∀ x ∈ ys ++ [c], x.getLast? = some 13) ∧ [] ∉ ys ++ [c] := by
          intro hc
          refine ⟨?_, hw.full⟩
          intro x hx
          simp only [List.mem_append, List.mem_singleton] at hx
          rcases hx with hx | rfl
          · exact hys x hx
          · exact hc
        by_cases hc : c.length > 0 ∧ c[c.length - 1]? ≠ some 13
        · rw [if_pos hc]
          have hd : lastCR c (c.length - 1) ≠ 0 := by
            intro hd
            have := not_mem_drop_one (lastCR_zero _ _ hd)
            have := hcs (c.take 1) (c.drop 1) [] (by rw [List.append_nil, List.take_append_drop]) this
            simp at this
            omega
          rw [if_pos hd]
          refine ⟨_, _, rfl, ?_, ?_, ?_⟩
          · intro x hx
            rw [List.dropLast_concat] at hx
            simp only [List.mem_append, List.mem_singleton] at hx
            rcases hx with hx | rfl
            · exact hys x hx
            · have h1 := lastCR_get _ _ hd
              have h2 := lastCR_le c (c.length - 1)
              rw [List.getLast?_eq_getElem?, List.length_take, Nat.min_eq_left (by omega), Nat.add_sub_cancel, List.getElem?_take, if_pos (by omega), h1]
          · refine hcs (c.take (lastCR c (c.length - 1) + 1)) _ [] (by simp) ?_
            intro hm
            obtain ⟨k, hk⟩ := List.mem_iff_getElem?.1 hm
            rw [List.getElem?_drop] at hk
            have := (List.getElem?_eq_some_iff.1 hk).1
            exact lastCR_after c (c.length - 1) _ (by omega) (by omega) hk
          · rw [List.dropLast_concat]
            simp only [List.mem_append, List.mem_singleton, not_or]
            refine ⟨hne.1, fun e => ?_⟩
            have := congrArg List.length e
            simp at this
            omega
        · rw [if_neg hc]
          have : c.getLast? = some 13 := by
            rw [List.getLast?_eq_getElem?]
            apply Classical.byContradiction
            intro h; exact hc ⟨by omega, h⟩
          exact ⟨_, _, rfl, (hall this).1, by simp, (hall this).2⟩
      simp only [mmAddLoop, List.length_cons, e1] at e
      rw [Nat.min_eq_left (by unfold chunkLen; simp at hl; omega), List.take_of_length_le (by simp), List.drop_of_length_le (by simp), mmAddLoop] at e
      cases e
      refine ⟨by simpa using e2, ?_⟩
      simp only [List.mem_append, List.mem_singleton, not_or]
      exact ⟨e4, by simp⟩

theorem whole_line {m m' : MemMsg} {l : Str} (ha : m.area = []) (ht : TextOK m.text) (hw : Whole m.text) (hl : l.length ≤ 1000) (hs : ShortLines (m.text.flatten ++ l)) (h : mmAddLine m l = .ok (some m')) : Whole m'.text := by
  have key : ∀ m1 : MemMsg, m1.text = m.text → addText m1 l = .ok (some m') → Whole m'.text := by
    intro m1 e h
    unfold addText at h
    rw [e] at h
    cases hb : mmAddBuf m.text l with
    | error u => rw [hb] at h; cases h
    | ok o =>
      rw [hb] at h
      cases o with
      | none => cases h
      | some t =>
        cases h
        exact whole_add ht hw hl hs hb
  unfold mmAddLine at h
  simp only [ha, ne_eq, not_true_eq_false, false_and, if_false] at h
  split at h
  · simp only [bind, Except.bind] at h
    cases hp : processKludge m l with
    | error e => rw [hp] at h; cases h
    | ok m1 => rw [hp] at h; exact key m1 (processKludge_frame hp).text h
  · exact key m rfl h

theorem mmAddLine_area {m m' : MemMsg} {l : Str} (ha : m.area = []) (h : mmAddLine m l = .ok (some m')) : m'.area = m.area := by
  have key : ∀ m1 : MemMsg, m1.area = m.area → addText m1 l = .ok (some m') → m'.area = m.area := by
    intro m1 e h
    unfold addText at h
    cases hb : mmAddBuf m1.text l with
    | error u => rw [hb] at h; cases h
    | ok o =>
      rw [hb] at h
      cases o with
      | none => cases h
      | some t => cases h; exact e
  unfold mmAddLine at h
  simp only [ha, ne_eq, not_true_eq_false, false_and, if_false] at h
  split at h
  · simp only [bind, Except.bind] at h
    cases hp : processKludge m l with
    | error e => rw [hp] at h; cases h
    | ok m1 => rw [hp] at h; exact key m1 (processKludge_frame hp).area h
  · exact key m rfl h

theorem whole_lines : ∀ (ls : List Str) {m m' : MemMsg}, m.area = [] → TextOK m.text → Whole m.text → (∀ l ∈ ls, l.length < 1000) → ShortLines (m.text.flatten ++ ls.flatten) → addLines m ls = .ok (some m') → Whole m'.text
  | [], m, m', _, _, hw, _, _, h => by
    unfold addLines at h
    cases h
    exact hw
  | l :: ls, m, m', ha, ht, hw, hl, hs, h => by
    unfold addLines at h
    cases h1 : mmAddLine m l with
    | error e => rw [h1] at h; cases h
    | ok o =>
      rw [h1] at h
      cases o with
      | none => cases h
      | some m1 =>
        obtain ⟨t1, t2⟩ := mmAddLine_netmail ha ht (hl l (by simp)) h1
        have hs' : ShortLines (m.text.flatten ++ l) := by
          rw [List.flatten_cons, ← List.append_assoc] at hs
          exact shortLines_left hs
        have ha1 : m1.area = [] := by
          exact (mmAddLine_area ha h1).trans ha
        exact whole_lines ls ha1 t1 (whole_line ha ht hw (by have := hl l (by simp); omega) hs' h1) (fun x hx => hl x (by simp [hx])) (by rw [t2, List.append_assoc]; exact hs) h

/-- A text of whole lines: each chunk ends with one. -/
theorem whole_ends {cs : List Str} (hw : Whole cs) (he : EndsCR cs.flatten) : ∀ c ∈ cs, c.getLast? = some 13 := by
  intro c hc
  cases hg : cs.getLast? with
  | none => rw [List.getLast?_eq_none_iff.1 hg] at hc; cases hc
  | some d =>
    obtain ⟨ys, rfl⟩ := List.getLast?_eq_some_iff.1 hg
    rcases List.mem_append.1 hc with hc | hc
    · exact hw.ends c (by simpa using hc)
    · simp only [List.mem_singleton] at hc
      subst hc
      have hne : c ≠ [] := fun e => hw.full (by simp [e])
      have hx : c.getLast? = some (c.getLast hne) := List.getLast?_eq_some_getLast hne
      rcases he with he | he
      · simp only [List.flatten_append, List.flatten_cons, List.flatten_nil, List.append_nil, List.append_eq_nil_iff] at he
        exact absurd he.2 hne
      · simp only [List.flatten_append, List.flatten_cons, List.flatten_nil, List.append_nil, List.getLast?_append] at he
        rw [hx] at he ⊢
        exact he

/-- A chunk that ends with a line consists of lines. -/
theorem chunk_lines : ∀ (k : Nat) (c : Str), c.length ≤ k → EndsCR c → ∃ ls, c = chunkOf ls ∧ ∀ l ∈ ls, (13 : UInt8) ∉ l
  | 0, c, h, _ => ⟨[], by rw [List.eq_nil_of_length_eq_zero (by omega : c.length = 0)]; rfl, by simp⟩
  | k + 1, c, h, he => by
    by_cases hc : (13 : UInt8) ∈ c
    · obtain ⟨p, r, hp, rfl⟩ : ∃ p r, (13 : UInt8) ∉ p ∧ c = p ++ 13 :: r := by
        refine ⟨c.takeWhile (· != 13), (c.dropWhile (· != 13)).tail, ?_, ?_⟩
        · intro hm
          have := mem_takeWhile hm
          simp at this
        · have e := List.takeWhile_append_dropWhile (p := (· != (13 : UInt8))) (l := c)
          cases hd : c.dropWhile (· != 13) with
          | nil =>
            rw [hd, List.append_nil] at e
            rw [← e] at hc
            have := mem_takeWhile hc
            simp at this
          | cons x r =>
            have hx : x = 13 := by
              have := List.head?_dropWhile_not (· != (13 : UInt8)) c
              rw [hd] at this
              simpa using this
            subst hx
            rw [List.tail_cons, ← hd]
            exact e.symm
      have hr : EndsCR r := by
        rcases he with he | he
        · simp at he
        · rcases List.eq_nil_or_concat r with rfl | ⟨r', x, rfl⟩
          · exact .inl rfl
          · right
            have e : p ++ 13 :: (r' ++ [x]) = (p ++ 13 :: r') ++ [x] := by simp
            rw [List.concat_eq_append, e, List.getLast?_concat] at he
            rw [List.concat_eq_append, List.getLast?_concat]
            exact he
      obtain ⟨ls, e1, e2⟩ := chunk_lines k r (by simp at h; omega) hr
      refine ⟨p :: ls, by rw [e1]; simp [chunkOf], ?_⟩
      intro l hl
      simp only [List.mem_cons] at hl
      rcases hl with rfl | hl
      · exact hp
      · exact e2 l hl
    · rcases he with rfl | he
      · exact ⟨[], rfl, by simp⟩
      · exact absurd (List.mem_of_getLast? he) hc

theorem chunks_lines : ∀ cs : List Str, (∀ c ∈ cs, c.getLast? = some 13) → ∃ lss : List (List Str), cs = lss.map chunkOf ∧ ∀ ls ∈ lss, ∀ l ∈ ls, (13 : UInt8) ∉ l
  | [], _ => ⟨[], rfl, by simp⟩
  | c :: cs, h => by
    obtain ⟨ls, e1, e2⟩ := chunk_lines c.length c (Nat.le_refl _) (.inr (h c (by simp)))
    obtain ⟨lss, e3, e4⟩ := chunks_lines cs (fun c hc => h c (by simp [hc]))
    refine ⟨ls :: lss, by rw [e1, e3]; rfl, ?_⟩
    intro x hx
    simp only [List.mem_cons] at hx
    rcases hx with rfl | hx
    · exact e2
    · exact e4 x hx

theorem textLines_iff (ls : List Str) (h : ∀ l ∈ ls, (13 : UInt8) ∉ l) (f : Nat) (hf : (chunkOf ls).length < f) :
    textLines f (chunkOf ls) = .ok (ls.any fun l => decide (l.head? ≠ some 1)) := by
  induction ls generalizing f with
  | nil =>
    cases f with
    | zero => simp at hf
    | succ f => rfl
  | cons l ls ih =>
    cases f with
    | zero => omega
    | succ f =>
      have e : chunkOf (l :: ls) = l ++ 13 :: chunkOf ls := by simp [chunkOf]
      rw [e] at hf ⊢
      simp only [textLines]
      rw [takeWhile_cr (h l (by simp)), if_neg (by simp), if_neg (by simp), List.any_cons]
      have hh : (l ++ 13 :: chunkOf ls).head? ≠ some 1 ↔ l.head? ≠ some 1 := by
        cases l with
        | nil => simp
        | cons c l => simp
      by_cases hl : l.head? = some 1
      · rw [if_neg (by rw [hh]; simpa using hl)]
        rw [show (l ++ 13 :: chunkOf ls).drop (l.length + 1) = chunkOf ls by
          rw [show l ++ 13 :: chunkOf ls = (l ++ [13]) ++ chunkOf ls by simp]
          exact List.drop_left' (by simp)]
        rw [ih (fun l hl => h l (List.mem_cons_of_mem _ hl)) f (by simp at hf; omega)]
        simp [hl]
      · rw [if_pos (hh.2 hl)]
        simp [hl]

theorem hasText_eq (lss : List (List Str)) (h : ∀ ls ∈ lss, ∀ l ∈ ls, (13 : UInt8) ∉ l) :
    hasText (lss.map chunkOf) = .ok (lss.any fun ls => ls.any fun l => decide (l.head? ≠ some 1)) := by
  induction lss with
  | nil => rfl
  | cons ls lss ih =>
    rw [List.map_cons, hasText, textLines_iff ls (h ls (by simp)) _ (by omega), List.any_cons]
    cases ls.any fun l => decide (l.head? ≠ some 1) with
    | true => rfl
    | false => exact ih fun ls hl => h ls (List.mem_cons_of_mem _ hl)

/-- A text with a line that is not a control line. -/
theorem hasText_says {cs : List Str} (hc : ∀ c ∈ cs, c.getLast? = some 13) {p r : Str} (e : cs.flatten = p ++ r) (hp : EndsCR p) (hr : r ≠ []) (h1 : r.head? ≠ some 1) : hasText cs = .ok true := by
  obtain ⟨lss, rfl, hl⟩ := chunks_lines cs hc
  rw [hasText_eq lss hl]
  have hfl : (lss.map chunkOf).flatten = chunkOf lss.flatten := by
    clear hc e hl
    induction lss with
    | nil => rfl
    | cons ls lss ih => rw [List.map_cons, List.flatten_cons, ih]; simp [chunkOf]
  rw [hfl] at e
  have hx : ∀ (ls : List Str) (p : Str), (∀ l ∈ ls, (13 : UInt8) ∉ l) → chunkOf ls = p ++ r → EndsCR p → ∃ l ∈ ls, l.head? ≠ some 1 := by
    intro ls
    induction ls with
    | nil =>
      intro p _ e _
      have : p ++ r = [] := e.symm
      simp only [List.append_eq_nil_iff] at this
      exact absurd this.2 hr
    | cons l ls ih =>
      intro p hl e hp
      rw [show chunkOf (l :: ls) = l ++ 13 :: chunkOf ls by simp [chunkOf]] at e
      by_cases hpn : p = []
      · subst hpn
        refine ⟨l, by simp, ?_⟩
        rw [List.nil_append] at e
        rw [← e] at h1
        cases l with
        | nil => simp
        | cons c l => simpa using h1
      · -- `p` contains the whole first line
        have hp := hp.resolve_left hpn
        obtain ⟨q, rfl⟩ := List.getLast?_eq_some_iff.1 hp
        have hlen : l.length + 1 ≤ (q ++ [13]).length := by
          apply Classical.byContradiction
          intro hlt
          simp at hlt
          have : (l ++ 13 :: chunkOf ls)[q.length]? = some 13 := by rw [e]; simp
          rw [List.getElem?_append_left (by omega)] at this
          exact hl l (by simp) (List.mem_of_getElem? this)
        have e' : (l ++ [13]) ++ chunkOf ls = (q ++ [13]) ++ r := by simpa using e
        rw [List.append_eq_append_iff] at e'
        rcases e' with ⟨w, w1, w2⟩ | ⟨w, w1, w2⟩
        · obtain ⟨x, hx1, hx2⟩ := ih w (fun l hl' => hl l (by simp [hl'])) w2 (by
            rcases List.eq_nil_or_concat w with rfl | ⟨w', y, rfl⟩
            · exact .inl rfl
            · right
              have := hp
              rw [w1, List.concat_eq_append, ← List.append_assoc, List.getLast?_concat] at this
              rw [List.concat_eq_append, List.getLast?_concat]
              exact this)
          exact ⟨x, by simp [hx1], hx2⟩
        · have hw : w = [] := by
            have := congrArg List.length w1
            simp at this hlen
            exact List.eq_nil_of_length_eq_zero (by omega)
          subst hw
          obtain ⟨x, hx1, hx2⟩ := ih [] (fun l hl' => hl l (by simp [hl'])) (by simpa using w2.symm) (.inl rfl)
          exact ⟨x, by simp [hx1], hx2⟩
  obtain ⟨l, hl1, hl2⟩ := hx lss.flatten p (by
    intro l h
    obtain ⟨ls, h1, h2⟩ := List.mem_flatten.1 h
    exact hl ls h1 l h2) e hp
  obtain ⟨ls, h3, h4⟩ := List.mem_flatten.1 hl1
  congr 1
  rw [List.any_eq_true]
  exact ⟨ls, h3, List.any_eq_true.2 ⟨l, h4, by simpa using hl2⟩⟩

theorem isLoopMail_ends (cfg : Config) {cs : List Str} (hc : ∀ c ∈ cs, c.getLast? = some 13) : ∃ b, isLoopMail cfg cs = .ok b := by
  obtain ⟨lss, rfl, hl⟩ := chunks_lines cs hc
  exact ⟨_, isLoopMail_eq cfg lss hl⟩

/-! ## Flags of a netmail that was read -/

theorem processKludge_same {m m' : MemMsg} {l : Str} (hr : ¬ (1 :: b!"RESCANNED") <+: l) (h : processKludge m l = .ok m') : m'.flags = m.flags := by
  have hk : kRescanned m l = m := by
    unfold kRescanned
    rw [if_neg (by rw [startsWith_iff]; exact hr)]
  have hM : ∀ {a b : MemMsg}, kMsgid a l = .ok b → b.flags = a.flags := by
    intro a b h; unfold kMsgid at h; split at h
    · obtain ⟨v, h⟩ := strAt_bind_ok h; cases h; rfl
    · cases h; rfl
  have hR : ∀ {a b : MemMsg}, kReply a l = .ok b → b.flags = a.flags := by
    intro a b h; unfold kReply at h; split at h
    · obtain ⟨v, h⟩ := strAt_bind_ok h; cases h; rfl
    · cases h; rfl
  have hF : ∀ {a b : MemMsg}, kFmpt a l = .ok b → b.flags = a.flags := by
    intro a b h; unfold kFmpt at h; split at h
    · obtain ⟨v, h⟩ := strAt_bind_ok h; cases h; rfl
    · cases h; rfl
  have hT : ∀ {a b : MemMsg}, kTopt a l = .ok b → b.flags = a.flags := by
    intro a b h; unfold kTopt at h; split at h
    · obtain ⟨v, h⟩ := strAt_bind_ok h; cases h; rfl
    · cases h; rfl
  have hI : ∀ {a b : MemMsg}, kIntl a l = .ok b → b.flags = a.flags := by
    intro a b h; unfold kIntl at h; split at h
    · obtain ⟨v, h⟩ := strAt_bind_ok h; cases h; rfl
    · cases h; rfl
  unfold processKludge at h
  rw [hk] at h
  obtain ⟨m1, h1, h⟩ := ebind_ok.1 h
  obtain ⟨m2, h2, h⟩ := ebind_ok.1 h
  split at h
  · obtain ⟨m3, h3, h⟩ := ebind_ok.1 h
    obtain ⟨m4, h4, h⟩ := ebind_ok.1 h
    rw [hI h, hT h4, hF h3, hR h2, hM h1]
  · cases h
    rw [hR h2, hM h1]

theorem addLines_flags : ∀ (ls : List Str) {m m' : MemMsg}, m.area = [] → (∀ l ∈ ls, ¬ (1 :: b!"RESCANNED") <+: l) → addLines m ls = .ok (some m') → m'.flags = m.flags
  | [], m, m', _, _, h => by
    unfold addLines at h
    cases h; rfl
  | l :: ls, m, m', ha, hl, h => by
    unfold addLines at h
    cases h1 : mmAddLine m l with
    | error e => rw [h1] at h; cases h
    | ok o =>
      rw [h1] at h
      cases o with
      | none => cases h
      | some m1 =>
        have hm1 : m1.flags = m.flags := by
          have h1' := h1
          unfold mmAddLine at h1'
          simp only [ha, ne_eq, not_true_eq_false, false_and, if_false] at h1'
          split at h1'
          · obtain ⟨m2, h2, h1'⟩ := ebind_ok.1 h1'
            rw [(addText_id h1').2.1, processKludge_same (hl l (by simp)) h2]
          · exact (addText_id h1').2.1
        rw [addLines_flags ls ((mmAddLine_area ha h1).trans ha) (fun x hx => hl x (by simp [hx])) h, hm1]

end CM
