import Verif.Lemmas.SeenBy
import Verif.Lemmas.Node4D
/-! # C08, C09: SEEN-BY lists and lines -/
set_option linter.unusedSimpArgs false

namespace CM

/-! ## C08: the list is a set -/

/-- The entries a SEEN-BY list stands for: 0/0 is a removed entry and is never written. -/
def visible (bs : List (List N2)) : List N2 := bs.flatten.filter (· ≠ (0, 0))

/-- Operations on a SEEN-BY list. -/
inductive SBOp where
  | add (x : N2)
  | remove (p : Pat2)
  | sort

/-- The code. -/
def SBOp.run (bs : List (List N2)) : SBOp → Except UB (List (List N2))
  | .add x => .ok (mmAddNodes2D bs x)
  | .remove p => .ok (mmRemNodes2DPat bs p)
  | .sort => mmSortNodes2D bs

/-- The specification, on sets. -/
def SBOp.spec (S : N2 → Prop) : SBOp → N2 → Prop
  | .add x => fun y => S y ∨ y = x
  | .remove p => fun y => S y ∧ ¬ compare2DPat p y = true
  | .sort => S

def sbAll : List (List N2) → List SBOp → Except UB (List (List N2))
  | bs, [] => .ok bs
  | bs, o :: os => match o.run bs with
    | .error e => .error e
    | .ok b => sbAll b os

def sbSpecAll : (N2 → Prop) → List SBOp → N2 → Prop
  | S, [] => S
  | S, o :: os => sbSpecAll (o.spec S) os

theorem mem_visible (bs : List (List N2)) (x : N2) : x ∈ visible bs ↔ x ∈ bs.flatten ∧ x ≠ (0, 0) := by
  unfold visible; rw [List.mem_filter, decide_eq_true_iff]

/-- C08, one addition: present exactly once afterwards, nothing else changes. -/
theorem mmAddNodes2D_visible (bs : List (List N2)) (x : N2) (hx : x ≠ (0, 0)) :
    visible (mmAddNodes2D bs x) = if x ∈ visible bs then visible bs else visible bs ++ [x] := by
  unfold visible
  rw [mmAddNodes2D_flatten]
  by_cases h : x ∈ bs.flatten
  · rw [if_pos h, if_pos (List.mem_filter.2 ⟨h, by simp [hx]⟩)]
  · rw [if_neg h, if_neg (fun hm => h (List.mem_filter.1 hm).1), List.filter_append,
      List.filter_cons_of_pos (by simp [hx])]
    rfl

/-- C08, removal by pattern: exactly the matching entries disappear, the others keep their order. -/
theorem mmRemNodes2DPat_visible (bs : List (List N2)) (p : Pat2) :
    visible (mmRemNodes2DPat bs p) = (visible bs).filter (fun e => !compare2DPat p e) := by
  unfold visible
  rw [remPat_flatten]
  generalize bs.flatten = l
  induction l with
  | nil => rfl
  | cons e l ih =>
    by_cases hp : compare2DPat p e = true
    · rw [List.map_cons, if_pos hp, List.filter_cons_of_neg (by simp), ih, List.filter_cons]
      split
      · rw [List.filter_cons_of_neg (by simp [hp])]
      · rfl
    · rw [List.map_cons, if_neg hp]
      by_cases h0 : e = (0, 0)
      · rw [List.filter_cons_of_neg (by simp [h0]), ih, List.filter_cons_of_neg (by simp [h0])]
      · rw [List.filter_cons_of_pos (by simp [h0]), ih, List.filter_cons_of_pos (by simp [h0]),
          List.filter_cons_of_pos (by simp [hp])]

/-- C08, sorting: terminates without fault, a permutation in ascending net/node order. -/
theorem mmSortNodes2D_sorts (bs : List (List N2)) (h : Blocks bs) :
    ∃ r, mmSortNodes2D bs = .ok r ∧ Blocks r ∧ r.flatten.Perm bs.flatten ∧
      r.flatten.Pairwise (fun a b => a.1 < b.1 ∨ a.1 = b.1 ∧ a.2 ≤ b.2) := by
  obtain ⟨r, h1, h2, h3⟩ := mmSort_spec bs h
  refine ⟨r, h1, h3, h2 ▸ isort_perm _ _, ?_⟩
  rw [h2]
  refine (isort_sorted compareSort compareSort_total compareSort_trans _).imp ?_
  intro a b hab
  rw [compareSort_le_iff] at hab
  rcases hab with hab | ⟨h1, h2⟩
  · exact .inl hab
  · exact .inr ⟨UInt16.toNat_inj.1 h1, h2⟩

/-- C08, lookup. -/
theorem findNodes2D_iff (bs : List (List N2)) (n : Node4D) :
    findNodes2D bs n = true ↔ (n.net, n.node) ∈ bs.flatten := any2_iff bs (n.net, n.node)

/-- C08, every history: no fault, no entry twice, and the visible entries are exactly the set obtained
by the same operations on sets. -/
theorem seenBy_history (os : List SBOp) (bs : List (List N2)) (S : N2 → Prop) (hb : Blocks bs)
    (hn : (visible bs).Nodup) (hS : ∀ x, x ≠ (0, 0) → (x ∈ visible bs ↔ S x)) :
    ∃ r, sbAll bs os = .ok r ∧ Blocks r ∧ (visible r).Nodup ∧
      ∀ x, x ≠ (0, 0) → (x ∈ visible r ↔ sbSpecAll S os x) := by
  induction os generalizing bs S with
  | nil => exact ⟨bs, rfl, hb, hn, hS⟩
  | cons o os ih =>
    cases o with
    | add y =>
      refine ih (mmAddNodes2D bs y) _ (mmAddNodes2D_blocks bs y hb) ?_ ?_
      · by_cases hy : y = (0, 0)
        · have : visible (mmAddNodes2D bs y) = visible bs := by
            unfold visible; rw [mmAddNodes2D_flatten]; subst hy; split <;> simp [List.filter_append]
          rw [this]; exact hn
        · rw [mmAddNodes2D_visible bs y hy]
          split
          · exact hn
          · rename_i hm
            rw [List.nodup_append]
            refine ⟨hn, by simp, ?_⟩
            intro a ha b hb' e
            simp at hb'
            exact hm (hb' ▸ e ▸ ha)
      · intro x hx
        simp only [SBOp.spec, ← hS x hx, mem_visible, mmAddNodes2D_flatten]
        by_cases hm : y ∈ bs.flatten
        · rw [if_pos hm]
          constructor
          · rintro h; exact .inl h
          · rintro (h | rfl)
            · exact h
            · exact ⟨hm, hx⟩
        · rw [if_neg hm]; simp [hx]
    | remove p =>
      refine ih (mmRemNodes2DPat bs p) _ (remPat_blocks bs p hb) ?_ ?_
      · rw [mmRemNodes2DPat_visible]; exact hn.filter _
      · intro x hx
        simp only [SBOp.spec, ← hS x hx, mmRemNodes2DPat_visible, List.mem_filter]
        simp
    | sort =>
      obtain ⟨r, h1, h2, h3, h4⟩ := mmSortNodes2D_sorts bs hb
      obtain ⟨r', h5, h6⟩ := ih r S h2 (by
          unfold visible at *
          exact (List.Perm.nodup_iff (h3.filter _)).2 hn) (by
          intro x hx; rw [← hS x hx, mem_visible, mem_visible, h3.mem_iff])
      exact ⟨r', by simp only [sbAll, SBOp.run, h1, h5], h6⟩

/-- C08, from a fresh message, additions only: exactly the nodes added, each once. -/
theorem seenBy_adds (xs : List N2) :
    (xs.foldl mmAddNodes2D []).flatten.Nodup ∧
    ∀ x, x ∈ (xs.foldl mmAddNodes2D []).flatten ↔ x ∈ xs := by
  have gen : ∀ (xs : List N2) (bs : List (List N2)), bs.flatten.Nodup →
      (xs.foldl mmAddNodes2D bs).flatten.Nodup ∧
      ∀ x, x ∈ (xs.foldl mmAddNodes2D bs).flatten ↔ x ∈ bs.flatten ∨ x ∈ xs := by
    intro xs
    induction xs with
    | nil => intro bs h; simp [h]
    | cons y xs ih =>
      intro bs h
      have hn : (mmAddNodes2D bs y).flatten.Nodup := by
        rw [mmAddNodes2D_flatten]
        split
        · exact h
        · rename_i hm
          rw [List.nodup_append]
          exact ⟨h, by simp, fun a ha b hb e => hm (by simp at hb; exact hb ▸ e ▸ ha)⟩
      obtain ⟨h1, h2⟩ := ih _ hn
      refine ⟨h1, fun x => ?_⟩
      rw [List.foldl_cons, h2 x, mmAddNodes2D_flatten, List.mem_cons]
      split
      · rename_i hm
        constructor
        · rintro (h | h)
          · exact .inl h
          · exact .inr (.inr h)
        · rintro (h | rfl | h)
          · exact .inl h
          · exact .inl hm
          · exact .inr h
      · simp only [List.mem_append, List.mem_singleton]
        constructor
        · rintro ((h | h) | h)
          · exact .inl h
          · exact .inr (.inl h)
          · exact .inr (.inr h)
        · rintro (h | h | h)
          · exact .inl (.inl h)
          · exact .inl (.inr h)
          · exact .inr h
  obtain ⟨h1, h2⟩ := gen xs [] (by simp)
  exact ⟨h1, fun x => by rw [h2]; simp⟩

/-- C08 (violated by `mmRemNodes2DList`, which no caller uses): removing 5/7 leaves it in place and
removes 5/0 instead. -/
theorem mmRemNodes2D_wrong :
    mmRemNodes2D [[(5, 0), (5, 7)]] 5 7 = [[(0, 0), (5, 7)]] := by decide

example : ∃ r, sbAll [] [.add (20, 5), .add (20, 1), .add (20, 5), .sort, .remove ⟨b!"20", b!"5"⟩] = .ok r
    ∧ r = [[(20, 1), (0, 0)]] := ⟨_, by decide, rfl⟩

/-! ## C09: written lines are read back -/

theorem u16Val_eq (ds : Str) (h : ∀ c ∈ ds, isDigit c = true) : u16Val ds = UInt16.ofNat (decVal ds) := by
  have gen : ∀ (ds : Str) (v : Nat), (∀ c ∈ ds, isDigit c = true) →
      ds.foldl (fun (a : UInt16) c => a * 10 + (c - 48).toUInt16) (UInt16.ofNat v) =
      UInt16.ofNat (ds.foldl (fun a c => a * 10 + (c.toNat - 48)) v) := by
    intro ds
    induction ds with
    | nil => intro v _; rfl
    | cons c ds ih =>
      intro v h
      rw [List.foldl_cons, List.foldl_cons, ← ih _ (fun x hx => h x (by simp [hx]))]
      congr 1
      have hc := (isDigit_iff c).1 (h c (by simp))
      have hs : (c - 48).toNat = c.toNat - 48 := by
        have : (48 : UInt8) ≤ c := by rw [u8_le]; simpa using hc.1
        rw [UInt8.toNat_sub_of_le _ _ this]; simp
      apply UInt16.toNat_inj.1
      simp only [UInt16.toNat_add, UInt16.toNat_mul, UInt16.toNat_ofNat', UInt8.toNat_toUInt16, hs]
      simp
  exact gen ds 0 h

theorem u16Val_dec (n : UInt16) : u16Val (dec n.toNat) = n := by
  rw [u16Val_eq _ (dec_digits _), decVal_dec]; simp

theorem atoi16_dec_rest (n : UInt16) (r : Str) (hr : ∀ c, r.head? = some c → isDigit c = false) :
    atoi16 (dec n.toNat ++ r) = n := by
  unfold atoi16
  rw [atoi_dec _ _ hr]
  unfold toU16
  apply UInt16.toNat_inj.1
  have := n.toNat_lt
  simp
  omega

/-- `body` spells the entries `es` when the net in force before it is `ln`: each entry is preceded by
one blank, and its net is left out only when it equals the net in force. -/
inductive Spells : UInt16 → Str → List N2 → Prop
  | nil (ln) : Spells ln [] []
  | short (ln node body es) : Spells ln body es →
      Spells ln (b!" " ++ dec node.toNat ++ body) ((ln, node) :: es)
  | full (ln net node body es) : Spells net body es →
      Spells ln (b!" " ++ dec net.toNat ++ b!"/" ++ dec node.toNat ++ body) ((net, node) :: es)

/-- The net in force after some entries. -/
def lastNet (ln : UInt16) (es : List N2) : UInt16 := ((es.getLast?).map (·.1)).getD ln

theorem lastNet_cons (ln : UInt16) (e : N2) (es : List N2) : lastNet ln (e :: es) = lastNet e.1 es := by
  cases es with
  | nil => simp [lastNet]
  | cons a es => simp [lastNet, List.getLast?_cons_cons, List.getLast?_cons]

theorem Spells.snoc_full {ln body es} (h : Spells ln body es) (net node : UInt16) :
    Spells ln (body ++ (b!" " ++ dec net.toNat ++ b!"/" ++ dec node.toNat)) (es ++ [(net, node)]) := by
  induction h with
  | nil ln => simpa using Spells.full ln net node [] [] (.nil _)
  | short ln nd body es _ ih => simpa using Spells.short ln nd _ _ ih
  | full ln nt nd body es _ ih => simpa using Spells.full ln nt nd _ _ ih

theorem Spells.snoc_short {ln body es} (h : Spells ln body es) (node : UInt16) :
    Spells ln (body ++ (b!" " ++ dec node.toNat)) (es ++ [(lastNet ln es, node)]) := by
  induction h with
  | nil ln => simpa [lastNet] using Spells.short ln node [] [] (.nil _)
  | short ln nd body es _ ih =>
    rw [lastNet_cons]; simpa using Spells.short ln nd _ _ ih
  | full ln nt nd body es _ ih =>
    rw [lastNet_cons]; simpa using Spells.full ln nt nd _ _ ih

theorem dec5 (n : UInt16) : (dec n.toNat).length ≤ 5 :=
  dec_length_le (by omega) (by have := n.toNat_lt; omega)

theorem digit_seenChar {c : UInt8} (h : isDigit c = true) : seenChar c = true := by
  have : ∀ c : UInt8, isDigit c = true → seenChar c = true := by decide +kernel
  exact this c h

theorem Spells.chars {ln body es} (h : Spells ln body es) :
    ∀ c ∈ body, c = 32 ∨ c = 47 ∨ isDigit c = true := by
  induction h with
  | nil => simp
  | short ln nd body es _ ih =>
    intro c hc
    simp only [List.mem_append, List.mem_singleton, List.mem_cons, List.not_mem_nil, or_false] at hc
    rcases hc with (rfl | hc) | hc
    · exact .inl rfl
    · exact .inr (.inr (dec_digits _ c hc))
    · exact ih c hc
  | full ln nt nd body es _ ih =>
    intro c hc
    simp only [List.mem_append, List.mem_singleton, List.mem_cons, List.not_mem_nil, or_false] at hc
    rcases hc with (((rfl | hc) | rfl) | hc) | hc
    · exact .inl rfl
    · exact .inr (.inr (dec_digits _ c hc))
    · exact .inr (.inl rfl)
    · exact .inr (.inr (dec_digits _ c hc))
    · exact ih c hc

theorem Spells.body_head {ln body es} (h : Spells ln body es) : body = [] ∨ body.head? = some 32 := by
  cases h with
  | nil => exact .inl rfl
  | short => exact .inr (by simp)
  | full => exact .inr (by simp)

theorem Spells.length_le {ln body es} (h : Spells ln body es) : body.length ≤ 12 * es.length := by
  induction h with
  | nil => simp
  | short ln nd body es _ ih => have := dec5 nd; simp; omega
  | full ln nt nd body es _ ih => have := dec5 nt; have := dec5 nd; simp; omega

/-- What follows a word: the end, a CR, or a blank. -/
theorem word_take (w rest : Str) (hw : ∀ c ∈ w, seenChar c = true) (hl : w.length ≤ 59)
    (hr : rest = [] ∨ rest.head? = some 13 ∨ rest.head? = some 32) :
    ((w ++ rest).takeWhile seenChar).take 59 = w := by
  rw [takeWhile_append_of_all _ _ _ hw]
  have : rest.takeWhile seenChar = [] := by
    rcases hr with rfl | hr | hr
    · rfl
    · cases rest with
      | nil => simp at hr
      | cons c r => simp at hr; subst hr; rfl
    · cases rest with
      | nil => simp at hr
      | cons c r => simp at hr; subst hr; rfl
  rw [this, List.append_nil, List.take_of_length_le hl]

theorem dec_head (n : Nat) : ∃ c t, dec n = c :: t ∧ isDigit c = true := by
  obtain ⟨c, t, h⟩ := List.exists_cons_of_ne_nil (dec_ne_nil n)
  exact ⟨c, t, h, dec_digits n c (by simp [h])⟩

theorem addSeenbyLoop_word (f : Nat) (ln : UInt16) (bs : List (List N2)) (w rest : Str) (hne : w ≠ [])
    (hw : ∀ c ∈ w, seenChar c = true) (hl : w.length ≤ 59)
    (hr : rest = [] ∨ rest.head? = some 13 ∨ rest.head? = some 32) :
    addSeenbyLoop (f + 1) ln bs (w ++ rest) =
      addSeenbyLoop f (seenWord ln w).1
        (addEntry bs (seenWord ln w).2)
        (rest.dropWhile (· == 32)) := by
  obtain ⟨c, t, rfl⟩ := List.exists_cons_of_ne_nil hne
  have h13 : c ≠ 13 := by
    rintro rfl; have := hw 13 (by simp); simp [seenChar] at this
  have ht := word_take (c :: t) rest hw hl hr
  have hd : (c :: t ++ rest).drop (c :: t).length = rest := by simp
  simp only [List.cons_append] at ht hd ⊢
  conv => lhs; unfold addSeenbyLoop
  simp only [h13, if_false, ht, hd]

theorem dropWhile_blank (c : UInt8) (t : Str) (h : c ≠ 32) : (c :: t).dropWhile (· == 32) = c :: t := by
  simp [List.dropWhile_cons, h]

theorem dropWhile_len (s : Str) : (s.dropWhile (· == 32)).length ≤ s.length :=
  (List.dropWhile_sublist _).length_le

/-- Reading a spelled line adds exactly its entries, in order. -/
theorem addSeenbyLoop_spells {ln body es} (h : Spells ln body es) (tail : Str)
    (ht : tail = [] ∨ tail.head? = some 13) (f : Nat)
    (hf : ((body ++ tail).dropWhile (· == 32)).length < f)
    (bs : List (List N2)) :
    addSeenbyLoop f ln bs ((body ++ tail).dropWhile (· == 32)) = some (es.foldl mmAddNodes2D bs) := by
  induction h generalizing f bs with
  | nil ln =>
    obtain ⟨f, rfl⟩ : ∃ k, f = k + 1 := ⟨f - 1, by omega⟩
    rcases ht with rfl | ht
    · simp [addSeenbyLoop]
    · cases tail with
      | nil => simp at ht
      | cons c r => simp at ht; subst ht; simp [addSeenbyLoop]
  | short ln nd body es hb ih =>
    obtain ⟨f, rfl⟩ : ∃ k, f = k + 1 := ⟨f - 1, by omega⟩
    obtain ⟨c, t, hct, hcd⟩ := dec_head nd.toNat
    have hc32 : c ≠ 32 := by rintro rfl; revert hcd; decide
    have e : (b!" " ++ dec nd.toNat ++ body ++ tail).dropWhile (· == 32) = dec nd.toNat ++ (body ++ tail) := by
      rw [hct]; simp [List.dropWhile_cons, hc32]
    have hrest : (body ++ tail) = [] ∨ (body ++ tail).head? = some 13 ∨ (body ++ tail).head? = some 32 := by
      rcases hb.body_head with rfl | hh
      · rcases ht with rfl | ht
        · exact .inl rfl
        · exact .inr (.inl (by simpa using ht))
      · cases body with
        | nil => simp at hh
        | cons a b => exact .inr (.inr (by simpa using hh))
    have hsw : seenWord ln (dec nd.toNat) = (ln, some (ln, nd)) := by
      have h1 := takeWhile_dec nd.toNat [] (by simp)
      have h2 := dropWhile_dec nd.toNat [] (by simp)
      simp only [List.append_nil] at h1 h2
      simp only [seenWord, dec_ne_nil, if_false, h1, h2, u16Val_dec]
    rw [e, addSeenbyLoop_word _ _ _ _ _ (dec_ne_nil _) (fun c hc => digit_seenChar (dec_digits _ c hc))
      (by have := dec5 nd; omega) hrest, hsw]
    simp only [List.foldl_cons, addEntry]
    have hdl := dropWhile_len (body ++ tail)
    have hpos := List.length_pos_iff.2 (dec_ne_nil nd.toNat)
    exact ih f (by rw [e] at hf; simp at hf hdl ⊢; omega) _
  | full ln nt nd body es hb ih =>
    obtain ⟨f, rfl⟩ : ∃ k, f = k + 1 := ⟨f - 1, by omega⟩
    obtain ⟨c, t, hct, hcd⟩ := dec_head nt.toNat
    have hc32 : c ≠ 32 := by rintro rfl; revert hcd; decide
    have e : (b!" " ++ dec nt.toNat ++ b!"/" ++ dec nd.toNat ++ body ++ tail).dropWhile (· == 32)
        = (dec nt.toNat ++ b!"/" ++ dec nd.toNat) ++ (body ++ tail) := by
      rw [hct]; simp [List.dropWhile_cons, hc32]
    have hrest : (body ++ tail) = [] ∨ (body ++ tail).head? = some 13 ∨ (body ++ tail).head? = some 32 := by
      rcases hb.body_head with rfl | hh
      · rcases ht with rfl | ht
        · exact .inl rfl
        · exact .inr (.inl (by simpa using ht))
      · cases body with
        | nil => simp at hh
        | cons a b => exact .inr (.inr (by simpa using hh))
    have hne : dec nt.toNat ++ b!"/" ++ dec nd.toNat ≠ [] := by simp
    have hsw : seenWord ln (dec nt.toNat ++ b!"/" ++ dec nd.toNat) = (nt, some (nt, nd)) := by
      have h1 := takeWhile_dec nt.toNat (b!"/" ++ dec nd.toNat) (by simp; decide)
      have h2 := dropWhile_dec nt.toNat (b!"/" ++ dec nd.toNat) (by simp; decide)
      have h3 := atoi16_dec_rest nd [] (by simp)
      simp only [List.append_nil] at h3
      unfold seenWord
      rw [if_neg hne]
      rw [List.append_assoc, h1, h2]
      simp [u16Val_dec, h3]
    rw [e, addSeenbyLoop_word _ _ _ _ _ hne (by
        intro c hc
        simp only [List.mem_append, List.mem_singleton] at hc
        rcases hc with (hc | rfl) | hc
        · exact digit_seenChar (dec_digits _ c hc)
        · decide
        · exact digit_seenChar (dec_digits _ c hc))
      (by have := dec5 nt; have := dec5 nd; simp; omega) hrest, hsw]
    simp only [List.foldl_cons, addEntry]
    have hdl := dropWhile_len (body ++ tail)
    have hpos := List.length_pos_iff.2 (dec_ne_nil nd.toNat)
    exact ih f (by rw [e] at hf; simp at hf hdl ⊢; omega) _

/-- A line `SEEN-BY: ...` spelling `es`. -/
def SeenLine (l : Str) (es : List N2) : Prop :=
  ∃ body, l = b!"SEEN-BY:" ++ body ∧ Spells 0 body es ∧ es ≠ [] ∧ l.length ≤ 77

/-- State of the writer in terms of the lines written and the entries on the current line. -/
structure SBInv (s : SBW) (n : Nat) (G : List (Str × List N2)) (g : List N2) : Prop where
  text : s.text = G.flatMap (fun p => p.1 ++ [13])
  lines : ∀ p ∈ G, SeenLine p.1 p.2
  cur : ∃ body, s.buf = b!"SEEN-BY:" ++ body ∧ Spells 0 body g
  last : s.lastnet = lastNet 0 g
  blen : s.buf.length ≤ 77
  tlen : s.text.length ≤ 78 * G.length
  cnt : 5 * G.length + g.length ≤ n

theorem flatMap_snoc {α β} (l : List α) (a : α) (f : α → List β) :
    (l ++ [a]).flatMap f = l.flatMap f ++ f a := by simp

theorem sbStep_inv (total : Nat) (s : SBW) (n : Nat) (G : List (Str × List N2)) (g : List N2)
    (e : N2) (h : SBInv s n G g) (hn : n < total) :
    ∃ s' G' g', sbStep ((total / 5 + 1) * 80) s e = .ok s' ∧ SBInv s' (n + 1) G' g' ∧
      G'.flatMap (·.2) ++ g' = G.flatMap (·.2) ++ g ++ (if e = (0, 0) then [] else [e]) := by
  obtain ⟨body, hbuf, hsp⟩ := h.cur
  have hbl := h.blen; have htl := h.tlen; have hcnt := h.cnt
  have l1 := dec5 e.1; have l2 := dec5 e.2
  have bodylen := hsp.length_le
  have hbl2 : s.buf.length = 8 + body.length := by rw [hbuf]; simp; omega
  by_cases h0 : e = (0, 0)
  · subst h0
    exact ⟨s, G, g, by simp [sbStep], ⟨h.text, h.lines, h.cur, h.last, h.blen, h.tlen, by omega⟩, by simp⟩
  · have h0' : e.1 ≠ 0 ∨ e.2 ≠ 0 := by
      by_cases h1 : e.1 = 0
      · right; intro h2; exact h0 (Prod.ext h1 h2)
      · exact .inl h1
    simp only [sbStep, h0', if_true, if_neg h0]
    generalize hb2 : b!" " ++ (if e.1 ≠ s.lastnet then dec e.1.toNat ++ b!"/" else []) ++ dec e.2.toNat = buf2
    have hb2l : buf2.length ≤ 12 := by
      rw [← hb2]; split <;> simp <;> omega
    by_cases hov : s.buf.length + buf2.length > 77
    · simp only [hov, if_true]
      have hg5 : 5 ≤ g.length := by omega
      have hfl : sbFlush ((total / 5 + 1) * 80) s.text s.buf = .ok (s.text ++ s.buf ++ [13]) := by
        unfold sbFlush; rw [if_pos (by omega)]
      simp only [hfl]
      refine ⟨_, G ++ [(s.buf, g)], [e], rfl, ⟨?_, ?_, ?_, ?_, ?_, ?_, ?_⟩, by simp⟩
      · rw [flatMap_snoc, h.text]; simp
      · intro p hp
        simp only [List.mem_append, List.mem_singleton] at hp
        rcases hp with hp | rfl
        · exact h.lines p hp
        · exact ⟨body, hbuf, hsp, by rintro rfl; simp at hg5, hbl⟩
      · refine ⟨b!" " ++ dec e.1.toNat ++ b!"/" ++ dec e.2.toNat, by simp, ?_⟩
        simpa using Spells.full 0 e.1 e.2 [] [] (.nil _)
      · simp [lastNet]
      · simp; omega
      · simp; omega
      · simp; omega
    · simp only [hov, if_false]
      refine ⟨_, G, g ++ [e], rfl, ⟨h.text, h.lines, ?_, ?_, ?_, htl, ?_⟩, by simp⟩
      · refine ⟨body ++ buf2, by simp [hbuf], ?_⟩
        rw [← hb2]
        by_cases hnet : e.1 = s.lastnet
        · have := hsp.snoc_short e.2
          rw [← h.last, ← hnet] at this
          rw [if_neg (by simpa using hnet)]
          simpa using this
        · simpa [hnet] using hsp.snoc_full e.1 e.2
      · simp [lastNet]
      · simp; omega
      · simp; omega

theorem sbRun_inv (total : Nat) (es : List N2) (s : SBW) (n : Nat) (G : List (Str × List N2)) (g : List N2)
    (h : SBInv s n G g) (hn : n + es.length ≤ total) :
    ∃ s' G' g', sbRun ((total / 5 + 1) * 80) s es = .ok s' ∧ SBInv s' (n + es.length) G' g' ∧
      G'.flatMap (·.2) ++ g' = G.flatMap (·.2) ++ g ++ es.filter (· ≠ (0, 0)) := by
  induction es generalizing s n G g with
  | nil => exact ⟨s, G, g, rfl, by simpa using h, by simp⟩
  | cons e es ih =>
    simp only [List.length_cons] at hn
    obtain ⟨s1, G1, g1, h1, h2, h3⟩ := sbStep_inv total s n G g e h (by omega)
    obtain ⟨s2, G2, g2, h4, h5, h6⟩ := ih s1 (n + 1) G1 g1 h2 (by omega)
    refine ⟨s2, G2, g2, by simp only [sbRun, h1, h4], ?_, ?_⟩
    · rw [List.length_cons, show n + (es.length + 1) = n + 1 + es.length by omega]; exact h5
    · rw [h6, h3]
      by_cases h0 : e = (0, 0) <;> simp [h0]

/-- C09, writer: the text consists of lines `SEEN-BY: ...` of at most 77 characters, each ended by a
CR, that spell exactly the visible entries in order; the buffer never overflows. -/
theorem mmMakeSeenByBuf_lines (bs : List (List N2)) :
    ∃ G : List (Str × List N2), mmMakeSeenByBuf bs = .ok (G.flatMap (fun p => p.1 ++ [13])) ∧
      (∀ p ∈ G, SeenLine p.1 p.2) ∧ G.flatMap (·.2) = visible bs := by
  obtain ⟨s, G, g, h1, h2, h3⟩ := sbRun_inv bs.flatten.length bs.flatten ⟨[], b!"SEEN-BY:", 0⟩ 0 [] []
    ⟨by simp, by simp, ⟨[], by simp, .nil _⟩, by simp [lastNet], by simp, by simp, by simp⟩ (by simp)
  obtain ⟨body, hbuf, hsp⟩ := h2.cur
  have hbl2 : s.buf.length = 8 + body.length := by rw [hbuf]; simp; omega
  simp only [List.flatMap_nil, List.nil_append] at h3
  unfold mmMakeSeenByBuf
  simp only [h1]
  cases hsp' : hsp with
  | nil =>
    rw [if_neg (by simp at hbl2; omega)]
    exact ⟨G, by rw [h2.text], h2.lines, by simpa [visible] using h3⟩
  | _ =>
    rename_i es hb
    have hb8 : s.buf.length > 8 := by rw [hbl2]; simp
    rw [if_pos hb8]
    have htl := h2.tlen; have hbl := h2.blen; have hcnt := h2.cnt
    simp only [Nat.zero_add] at hcnt
    unfold sbFlush
    rw [if_pos (by simp at hcnt; simp; omega)]
    refine ⟨G ++ [(s.buf, _)], by rw [flatMap_snoc, h2.text]; simp, ?_, by
      rw [flatMap_snoc]; exact h3⟩
    intro p hp
    simp only [List.mem_append, List.mem_singleton] at hp
    rcases hp with hp | rfl
    · exact h2.lines p hp
    · exact ⟨_, hbuf, hsp, by simp, hbl⟩

/-- C09, reader: a message of an echomail area that receives such a line adds exactly its entries. -/
theorem mmAddLine_seenLine (m : MemMsg) (l : Str) (es : List N2) (hl : SeenLine l es) (ha : m.area ≠ []) :
    mmAddLine m (l ++ [13]) = .ok (some { m with seenBy := es.foldl mmAddNodes2D m.seenBy }) := by
  obtain ⟨body, rfl, hsp, hne, _⟩ := hl
  have hbody : ∃ t, body = 32 :: t := by
    cases hsp with
    | nil => exact absurd rfl hne
    | short => exact ⟨_, by simp; rfl⟩
    | full => exact ⟨_, by simp; rfl⟩
  obtain ⟨t, rfl⟩ := hbody
  have hst : startsWith (b!"SEEN-BY:" ++ 32 :: t ++ [13]) b!"SEEN-BY:" = true := by
    simp [startsWith]
  have hat : strAt (b!"SEEN-BY:" ++ 32 :: t ++ [13]) 9 = .ok (t ++ [13]) := by
    simp [strAt]
  have hdw : ((32 :: t) ++ [13]).dropWhile (· == 32) = t ++ [13] := by
    have : ∃ c u, t = c :: u ∧ isDigit c = true := by
      cases hsp with
      | short ln nd body es hb =>
        obtain ⟨c, t, h, hd⟩ := dec_head nd.toNat
        exact ⟨c, t ++ body, by simp [h], hd⟩
      | full ln nt nd body es hb =>
        obtain ⟨c, t, h, hd⟩ := dec_head nt.toNat
        exact ⟨c, t ++ 47 :: (dec nd.toNat ++ body), by simp [h], hd⟩
    obtain ⟨c, u, rfl, hd⟩ := this
    have hc32 : c ≠ 32 := by rintro rfl; revert hd; decide
    simp [List.dropWhile_cons, hc32]
  have hrun := addSeenbyLoop_spells hsp [13] (.inr rfl) ((t ++ [13]).length + 1) (by rw [hdw]; omega)
    m.seenBy
  rw [hdw] at hrun
  have hrun2 : addSeenby (t ++ [13]) m.seenBy = some (es.foldl mmAddNodes2D m.seenBy) := hrun
  unfold mmAddLine
  rw [if_pos ⟨ha, hst⟩]
  simp only [hat, bind, Except.bind, hrun2, Option.map_some]

/-- Feeding complete lines to a message. -/
def addLines (m : MemMsg) : List Str → Except UB (Option MemMsg)
  | [] => .ok (some m)
  | l :: ls => match mmAddLine m l with
    | .error e => .error e
    | .ok none => .ok none
    | .ok (some m') => addLines m' ls

theorem foldl_add_nodup (xs : List N2) (bs : List (List N2)) (h : (bs.flatten ++ xs).Nodup) :
    (xs.foldl mmAddNodes2D bs).flatten = bs.flatten ++ xs := by
  induction xs generalizing bs with
  | nil => simp
  | cons x xs ih =>
    have hx : x ∉ bs.flatten := by
      rw [List.nodup_append] at h
      exact fun hm => h.2.2 x hm x (by simp) rfl
    have hfl : (mmAddNodes2D bs x).flatten = bs.flatten ++ [x] := by rw [mmAddNodes2D_flatten, if_neg hx]
    rw [List.foldl_cons, ih _ (by rw [hfl]; simpa using h), hfl]
    simp

/-- C09, round trip. The SEEN-BY text written for any list without repetitions, cut at the CRs and fed
to a fresh echomail message, gives exactly the visible entries, in the same order; every line has at
most 77 characters and no other field of the message changes. -/
theorem seenBy_roundtrip (bs : List (List N2)) (hn : (visible bs).Nodup) (m : MemMsg) (ha : m.area ≠ [])
    (hs : m.seenBy = []) :
    ∃ (ls : List Str) (r : List (List N2)), mmMakeSeenByBuf bs = .ok (ls.flatMap (· ++ [13])) ∧
      (∀ l ∈ ls, 13 ∉ l ∧ 10 ∉ l ∧ NoNul l ∧ l.length ≤ 77) ∧
      addLines m (ls.map (· ++ [13])) = .ok (some { m with seenBy := r }) ∧ r.flatten = visible bs := by
  obtain ⟨G, h1, h2, h3⟩ := mmMakeSeenByBuf_lines bs
  refine ⟨G.map (·.1), (visible bs).foldl mmAddNodes2D [], ?_, ?_, ?_, ?_⟩
  · rw [h1]; simp [List.flatMap_map]
  · intro l hl
    obtain ⟨p, hp, rfl⟩ := List.mem_map.1 hl
    obtain ⟨body, he, hsp, _, hlen⟩ := h2 p hp
    have hch := hsp.chars
    have hx : ∀ x : UInt8, x = 32 ∨ x = 47 ∨ isDigit x = true → x ≠ 13 ∧ x ≠ 0 ∧ x ≠ 10 := by decide +kernel
    refine ⟨?_, ?_, ?_, hlen⟩
    · rw [he]; intro hm
      rcases List.mem_append.1 hm with hm | hm
      · revert hm; decide
      · exact (hx 13 (hch 13 hm)).1 rfl
    · rw [he]; intro hm
      rcases List.mem_append.1 hm with hm | hm
      · revert hm; decide
      · exact (hx 10 (hch 10 hm)).2.2 rfl
    · rw [he]; intro hm
      rcases List.mem_append.1 hm with hm | hm
      · revert hm; decide
      · exact (hx 0 (hch 0 hm)).2.1 rfl
  · have gen : ∀ (G : List (Str × List N2)) (m : MemMsg), m.area ≠ [] → (∀ p ∈ G, SeenLine p.1 p.2) →
        addLines m ((G.map (·.1)).map (· ++ [13])) =
          .ok (some { m with seenBy := (G.flatMap (·.2)).foldl mmAddNodes2D m.seenBy }) := by
      intro G
      induction G with
      | nil => intro m _ _; rfl
      | cons p G ih =>
        intro m ha hG
        simp only [List.map_cons, addLines, mmAddLine_seenLine m p.1 p.2 (hG p (by simp)) ha]
        refine (ih { m with seenBy := p.2.foldl mmAddNodes2D m.seenBy } ha (fun q hq => hG q (by simp [hq]))).trans ?_
        simp [List.foldl_append]
    rw [gen G m ha h2, h3, hs]
  · rw [foldl_add_nodup _ _ (by simpa using hn)]; simp

/-- C09. The line reader terminates on every string, including garbage and overlong words. -/
theorem addSeenby_total (s : Str) (bs : List (List N2)) : ∃ r, addSeenby s bs = some r := by
  have gen : ∀ (f : Nat) (ln : UInt16) (bs : List (List N2)) (s : Str), s.length < f →
      ∃ r, addSeenbyLoop f ln bs s = some r := by
    intro f
    induction f with
    | zero => intro ln bs s h; omega
    | succ f ih =>
      intro ln bs s h
      cases s with
      | nil => exact ⟨bs, by simp [addSeenbyLoop]⟩
      | cons c r =>
        unfold addSeenbyLoop
        by_cases h13 : c = 13
        · exact ⟨bs, by simp [h13]⟩
        · simp only [h13, if_false]
          refine ih _ _ _ ?_
          simp only [List.length_cons] at h
          by_cases h32 : c = 32
          · subst h32
            have : (List.takeWhile seenChar (32 :: r)) = [] := by
              rw [List.takeWhile_cons_of_neg (by decide)]
            rw [this]
            simp only [List.take_nil, List.length_nil, List.drop_zero]
            rw [List.dropWhile_cons_of_pos (by decide)]
            have := dropWhile_len r
            omega
          · have hsc : seenChar c = true := by simp [seenChar, h13, h32]
            rw [List.takeWhile_cons_of_pos hsc]
            have := dropWhile_len (List.drop (List.take 59 (c :: List.takeWhile seenChar r)).length (c :: r))
            simp only [List.take_succ_cons, List.length_cons, List.length_drop] at this ⊢
            omega
  exact gen _ _ _ _ (by omega)

/-- C09 (violated at the edge). A SEEN-BY line cut right after the colon makes the reader look past the
end of the string. -/
theorem seenBy_empty_reads_past (m : MemMsg) (ha : m.area ≠ []) :
    mmAddLine m b!"SEEN-BY:" = .error .oobRead := by
  unfold mmAddLine
  rw [if_pos ⟨ha, by decide⟩]
  rfl

example : mmMakeSeenByBuf [[(20, 1), (20, 5), (0, 0), (30, 7)]] = .ok (b!"SEEN-BY: 20/1 5 30/7" ++ [13]) := by
  decide

example : (visible [[(20, 1), (20, 5), (0, 0), (30, 7)]]).Nodup := by decide

end CM
