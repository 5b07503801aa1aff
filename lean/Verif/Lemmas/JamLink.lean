import Verif.Model.MbJam
import Verif.Lemmas.ReadConfig
/-! # Links between replies: the table in memory -/

set_option linter.unusedSimpArgs false

namespace CM

/-- The number of message `k`. -/
def numOf (base : UInt32) (k : Nat) : UInt64 := (UInt32.ofNat k + base).toUInt64

theorem numOf_toNat {base : UInt32} {n k : Nat} (hb : base.toNat + n ≤ 2 ^ 32) (hk : k < n) : (numOf base k).toNat = base.toNat + k := by
  simp only [numOf, UInt32.toNat_toUInt64, UInt32.toNat_add, UInt32.toNat_ofNat']
  omega

theorem numOf_ne {base : UInt32} {n k : Nat} (hb : base.toNat + n ≤ 2 ^ 32) (h0 : base ≠ 0) (hk : k < n) : numOf base k ≠ 0 := fun e => by
  have := numOf_toNat hb hk
  rw [e] at this
  have h1 : base.toNat ≠ 0 := fun h => h0 (UInt32.toNat_inj.1 h)
  simp at this
  omega

theorem numOf_inj {base : UInt32} {n k j : Nat} (hb : base.toNat + n ≤ 2 ^ 32) (hk : k < n) (hj : j < n) (e : numOf base k = numOf base j) : k = j := by
  have h1 := numOf_toNat hb hk
  have h2 := numOf_toNat hb hj
  rw [e] at h1
  omega

theorem numOf_sub {base : UInt32} {n k : Nat} (hb : base.toNat + n ≤ 2 ^ 32) (hk : k < n) :
    (numOf base k - base.toUInt64).toUInt32 = UInt32.ofNat k := by
  apply UInt32.toNat_inj.1
  have := numOf_toNat hb hk
  have := base.toNat_lt
  simp only [UInt64.toNat_toUInt32, UInt64.toNat_sub, UInt32.toNat_toUInt64, UInt32.toNat_ofNat', this]
  omega

/-- What `jam_setreply` does to the table: nothing if `dest` is a reply already; otherwise `dest` becomes a reply to `num`, and at most one more
link, which was free, is set to `dest`. -/
structure Hooked (base : UInt32) (num dest : Nat) (ms ms' : List JamLink) : Prop where
  len : ms'.length = ms.length
  ids : ∀ (k : Nat) (x x' : JamLink), ms[k]? = some x → ms'[k]? = some x' → x'.msgId = x.msgId ∧ x'.reply = x.reply
  to : ∀ (k : Nat) (x x' : JamLink), ms[k]? = some x → ms'[k]? = some x' → x'.to = x.to ∨ (k = dest ∧ x.to = 0 ∧ x'.to = numOf base num)
  set : ∀ x' : JamLink, ms'[dest]? = some x' → x'.to ≠ 0 ∨ numOf base num = 0
  first : ∀ (k : Nat) (x x' : JamLink), ms[k]? = some x → ms'[k]? = some x' →
    x'.first = x.first ∨ (k = num ∧ x.first = 0 ∧ x'.first = numOf base dest ∧ (∀ y, ms[dest]? = some y → y.to = 0))
  next : ∀ (k : Nat) (x x' : JamLink), ms[k]? = some x → ms'[k]? = some x' →
    x'.next = x.next ∨ (x.next = 0 ∧ x'.next = numOf base dest ∧ (∀ y, ms[dest]? = some y → y.to = 0))

theorem chainEnd_next {msgs : List JamLink} {base : UInt32} {dest : Nat} : ∀ (t : Nat) (link : UInt64) (n : Nat),
    jamChainEnd msgs base dest t link = some n → ∃ z, msgs[n]? = some z ∧ z.next = 0
  | t, link, n, h => by
    rw [jamChainEnd.eq_def] at h
    dsimp only at h
    split at h; next => cases h
    split at h; next => cases h
    split at h; next => cases h
    rename_i x hx
    split at h
    · rename_i h0
      injection h with h
      subst h
      exact ⟨x, hx, h0⟩
    · split at h
      · cases h
      · exact chainEnd_next _ _ _ h

theorem hooked_same (base : UInt32) (num dest : Nat) (ms : List JamLink) (h : ∀ y, ms[dest]? = some y → y.to ≠ 0) : Hooked base num dest ms ms where
  len := rfl
  ids := fun k x x' h h' => by rw [h] at h'; cases h'; exact ⟨rfl, rfl⟩
  to := fun k x x' h h' => by rw [h] at h'; cases h'; exact .inl rfl
  set := fun x' h' => .inl (h _ h')
  first := fun k x x' h h' => by rw [h] at h'; cases h'; exact .inl rfl
  next := fun k x x' h h' => by rw [h] at h'; cases h'; exact .inl rfl

/-- Only the parent is set. -/
theorem hooked_to {base : UInt32} {num dest : Nat} {ms : List JamLink} {y : JamLink} (hy : ms[dest]? = some y) (h0 : y.to = 0) :
    Hooked base num dest ms (ms.set dest { y with to := numOf base num }) where
  len := List.length_set
  ids := fun k x x' h h' => by
    rw [List.getElem?_set] at h'
    split at h'
    · rename_i e; subst e; rw [hy] at h; cases h
      split at h' <;> cases h'
      exact ⟨rfl, rfl⟩
    · rw [h] at h'; cases h'; exact ⟨rfl, rfl⟩
  to := fun k x x' h h' => by
    rw [List.getElem?_set] at h'
    split at h'
    · rename_i e; subst e; rw [hy] at h; cases h
      split at h' <;> cases h'
      exact .inr ⟨rfl, h0, rfl⟩
    · rw [h] at h'; cases h'; exact .inl rfl
  set := fun x' h' => by
    rw [List.getElem?_set_self (List.getElem?_eq_some_iff.1 hy).1] at h'
    cases h'
    by_cases e : numOf base num = 0
    · exact .inr e
    · exact .inl e
  first := fun k x x' h h' => by
    rw [List.getElem?_set] at h'
    split at h'
    · rename_i e; subst e; rw [hy] at h; cases h
      split at h' <;> cases h'
      exact .inl rfl
    · rw [h] at h'; cases h'; exact .inl rfl
  next := fun k x x' h h' => by
    rw [List.getElem?_set] at h'
    split at h'
    · rename_i e; subst e; rw [hy] at h; cases h
      split at h' <;> cases h'
      exact .inl rfl
    · rw [h] at h'; cases h'; exact .inl rfl

theorem hooked_first {base : UInt32} {num dest : Nat} {ms ms' : List JamLink} (h : Hooked base num dest ms ms') (hd : ∀ y, ms[dest]? = some y → y.to = 0)
    {z : JamLink} (hz : ms'[num]? = some z) (h0 : z.first = 0) :
    Hooked base num dest ms (ms'.set num { z with first := numOf base dest }) := by
  have key : ∀ k x x', ms[k]? = some x → (ms'.set num { z with first := numOf base dest })[k]? = some x' →
      (ms'[k]? = some x') ∨ (k = num ∧ x' = { z with first := numOf base dest }) := fun k x x' h1 h' => by
    rw [List.getElem?_set] at h'
    split at h'
    · rename_i e
      split at h' <;> cases h'
      exact .inr ⟨e.symm, rfl⟩
    · exact .inl h'
  refine ⟨by rw [List.length_set, h.len], fun k x x' h1 h' => ?_, fun k x x' h1 h' => ?_, fun x' h' => ?_, fun k x x' h1 h' => ?_, fun k x x' h1 h' => ?_⟩
  · rcases key k x x' h1 h' with e | ⟨rfl, rfl⟩
    · exact h.ids k x x' h1 e
    · exact h.ids _ x z h1 hz
  · rcases key k x x' h1 h' with e | ⟨rfl, rfl⟩
    · exact h.to k x x' h1 e
    · exact h.to _ x z h1 hz
  · rw [List.getElem?_set] at h'
    split at h'
    · rename_i e
      split at h' <;> cases h'
      exact h.set z (e ▸ hz)
    · exact h.set x' h'
  · rcases key k x x' h1 h' with e | ⟨rfl, rfl⟩
    · exact h.first k x x' h1 e
    · rcases h.first _ x z h1 hz with e | ⟨_, e1, _⟩
      · exact .inr ⟨rfl, e ▸ h0, rfl, hd⟩
      · exact .inr ⟨rfl, e1, rfl, hd⟩
  · rcases key k x x' h1 h' with e | ⟨rfl, rfl⟩
    · exact h.next k x x' h1 e
    · exact h.next _ x z h1 hz

theorem hooked_next {base : UInt32} {num dest n : Nat} {ms ms' : List JamLink} (h : Hooked base num dest ms ms') (hd : ∀ y, ms[dest]? = some y → y.to = 0)
    {z : JamLink} (hz : ms'[n]? = some z) (h0 : z.next = 0) :
    Hooked base num dest ms (ms'.set n { z with next := numOf base dest }) := by
  have key : ∀ k x x', ms[k]? = some x → (ms'.set n { z with next := numOf base dest })[k]? = some x' →
      (ms'[k]? = some x') ∨ (k = n ∧ x' = { z with next := numOf base dest }) := fun k x x' h1 h' => by
    rw [List.getElem?_set] at h'
    split at h'
    · rename_i e
      split at h' <;> cases h'
      exact .inr ⟨e.symm, rfl⟩
    · exact .inl h'
  refine ⟨by rw [List.length_set, h.len], fun k x x' h1 h' => ?_, fun k x x' h1 h' => ?_, fun x' h' => ?_, fun k x x' h1 h' => ?_, fun k x x' h1 h' => ?_⟩
  · rcases key k x x' h1 h' with e | ⟨rfl, rfl⟩
    · exact h.ids k x x' h1 e
    · exact h.ids _ x z h1 hz
  · rcases key k x x' h1 h' with e | ⟨rfl, rfl⟩
    · exact h.to k x x' h1 e
    · exact h.to _ x z h1 hz
  · rw [List.getElem?_set] at h'
    split at h'
    · rename_i e
      split at h' <;> cases h'
      exact h.set z (e ▸ hz)
    · exact h.set x' h'
  · rcases key k x x' h1 h' with e | ⟨rfl, rfl⟩
    · exact h.first k x x' h1 e
    · exact h.first _ x z h1 hz
  · rcases key k x x' h1 h' with e | ⟨rfl, rfl⟩
    · exact h.next k x x' h1 e
    · rcases h.next _ x z h1 hz with e | ⟨e1, _⟩
      · exact .inr ⟨e ▸ h0, rfl, hd⟩
      · exact .inr ⟨e1, rfl, hd⟩

theorem setReply_hooked (ms : List JamLink) (base : UInt32) (num dest : Nat) : Hooked base num dest ms (jamSetReply ms base num dest) := by
  unfold jamSetReply
  split
  · rename_i h
    exact hooked_same _ _ _ _ fun y hy => by rw [h] at hy; cases hy
  · rename_i y hy
    split
    · rename_i h
      exact hooked_same _ _ _ _ fun y' hy' => by rw [hy] at hy'; cases hy'; exact h
    · rename_i h
      have h0 : y.to = 0 := Decidable.byContradiction h
      have hd : ∀ y', ms[dest]? = some y' → y'.to = 0 := fun y' hy' => by rw [hy] at hy'; cases hy'; exact h0
      have H := hooked_to (base := base) (num := num) hy h0
      change Hooked base num dest ms (match (ms.set dest { y with to := numOf base num })[num]? with
        | none => _
        | some x => _)
      split
      · exact H
      · rename_i x hx
        split
        · rename_i hf
          exact hooked_first H hd hx hf
        · split
          · exact H
          · rename_i n hn
            obtain ⟨z, hz, hz0⟩ := chainEnd_next _ _ _ hn
            simp only [hz]
            exact hooked_next H hd hz hz0

/-! ## Many steps -/

/-- The table after some replies have been hooked, each one because of `R`. -/
inductive Hooks (base : UInt32) (R : Nat → Nat → Prop) : List JamLink → List JamLink → Prop
  | refl {ms} : Hooks base R ms ms
  | step {ms ms'} (num dest : Nat) : Hooks base R ms ms' → R num dest → Hooks base R ms (jamSetReply ms' base num dest)

/-- What the links may have become. -/
structure Relinks (base : UInt32) (R : Nat → Nat → Prop) (ms ms' : List JamLink) : Prop where
  len : ms'.length = ms.length
  ids : ∀ (k : Nat) (x x' : JamLink), ms[k]? = some x → ms'[k]? = some x' → x'.msgId = x.msgId ∧ x'.reply = x.reply
  to : ∀ (k : Nat) (x x' : JamLink), ms[k]? = some x → ms'[k]? = some x' → x'.to = x.to ∨ (x.to = 0 ∧ ∃ p, R p k ∧ x'.to = numOf base p)
  first : ∀ (k : Nat) (x x' : JamLink), ms[k]? = some x → ms'[k]? = some x' → x'.first = x.first ∨
    (x.first = 0 ∧ ∃ (d : Nat) (y y' : JamLink), R k d ∧ x'.first = numOf base d ∧ ms[d]? = some y ∧ ms'[d]? = some y' ∧ y.to = 0 ∧ y'.to = numOf base k)
  next : ∀ (k : Nat) (x x' : JamLink), ms[k]? = some x → ms'[k]? = some x' → x'.next = x.next ∨
    (x.next = 0 ∧ ∃ (p d : Nat) (y y' : JamLink), R p d ∧ x'.next = numOf base d ∧ ms[d]? = some y ∧ ms'[d]? = some y' ∧ y.to = 0 ∧ y'.to = numOf base p)

theorem get_of_len {α β : Type} {ms : List α} {ms' : List β} {k : Nat} {x : α} (h : ms'.length = ms.length) (hx : ms[k]? = some x) : ∃ x', ms'[k]? = some x' :=
  ⟨ms'[k]'(by rw [h]; exact (List.getElem?_eq_some_iff.1 hx).1), List.getElem?_eq_getElem _⟩

theorem Hooks.relinks {base : UInt32} {R : Nat → Nat → Prop} {ms ms' : List JamLink} (hb : base.toNat + ms.length ≤ 2 ^ 32) (h0 : base ≠ 0)
    (hR : ∀ p k, R p k → p < ms.length ∧ k < ms.length) (h : Hooks base R ms ms') : Relinks base R ms ms' := by
  induction h with
  | refl =>
    refine ⟨rfl, fun k x x' h h' => ?_, fun k x x' h h' => ?_, fun k x x' h h' => ?_, fun k x x' h h' => ?_⟩ <;> rw [h] at h' <;> cases h'
    · exact ⟨rfl, rfl⟩
    all_goals exact .inl rfl
  | step num dest h hr ih =>
    rename_i mt
    obtain ⟨hn, hd⟩ := hR _ _ hr
    have H := setReply_hooked mt base num dest
    have hne := numOf_ne hb h0 hn
    have mid : ∀ {k : Nat} {x : JamLink}, ms[k]? = some x → ∃ z, mt[k]? = some z := fun h => get_of_len ih.len h
    -- a message that was hooked stays hooked
    have keep : ∀ {d p : Nat} {y' : JamLink}, p < ms.length → mt[d]? = some y' → y'.to = numOf base p →
        ∃ z', (jamSetReply mt base num dest)[d]? = some z' ∧ z'.to = numOf base p := fun {d p y'} hp hy ht => by
      obtain ⟨z', hz'⟩ := get_of_len H.len hy
      rcases H.to _ _ _ hy hz' with e | ⟨_, e, _⟩
      · exact ⟨z', hz', by rw [e, ht]⟩
      · rw [ht] at e; exact absurd e (numOf_ne hb h0 hp)
    -- the message that is hooked now
    have now : (∀ y, mt[dest]? = some y → y.to = 0) → ∃ y y', ms[dest]? = some y ∧ (jamSetReply mt base num dest)[dest]? = some y' ∧
        y.to = 0 ∧ y'.to = numOf base num := fun hf => by
      have hd' : ms[dest]? = some (ms[dest]'hd) := List.getElem?_eq_getElem hd
      obtain ⟨z, hz⟩ := mid hd'
      obtain ⟨z', hz'⟩ := get_of_len H.len hz
      refine ⟨_, z', hd', hz', ?_, ?_⟩
      · rcases ih.to _ _ _ hd' hz with e | ⟨e, _⟩
        · rw [← e]; exact hf _ hz
        · exact e
      · rcases H.to _ _ _ hz hz' with e | ⟨_, _, e⟩
        · rcases H.set _ hz' with e1 | e1
          · rw [e, hf _ hz] at e1; exact absurd rfl e1
          · exact absurd e1 hne
        · exact e
    refine ⟨by rw [H.len, ih.len], fun k x x' h1 h' => ?_, fun k x x' h1 h' => ?_, fun k x x' h1 h' => ?_, fun k x x' h1 h' => ?_⟩ <;>
      obtain ⟨z, hz⟩ := mid h1
    · have e1 := ih.ids _ _ _ h1 hz
      have e2 := H.ids _ _ _ hz h'
      exact ⟨e2.1.trans e1.1, e2.2.trans e1.2⟩
    · rcases ih.to _ _ _ h1 hz with e | ⟨e, p, hp, e'⟩
      · rcases H.to _ _ _ hz h' with f | ⟨rfl, f, f'⟩
        · exact .inl (f.trans e)
        · exact .inr ⟨e ▸ f, num, hr, f'⟩
      · rcases H.to _ _ _ hz h' with f | ⟨_, f, _⟩
        · exact .inr ⟨e, p, hp, f.trans e'⟩
        · rw [e'] at f; exact absurd f (numOf_ne hb h0 (hR _ _ hp).1)
    · rcases ih.first _ _ _ h1 hz with e | ⟨e, d, y, y', hp, e', g1, g2, g3, g4⟩
      · rcases H.first _ _ _ hz h' with f | ⟨rfl, f, f', hf⟩
        · exact .inl (f.trans e)
        · obtain ⟨y, y', n1, n2, n3, n4⟩ := now hf
          exact .inr ⟨e ▸ f, dest, y, y', hr, f', n1, n2, n3, n4⟩
      · rcases H.first _ _ _ hz h' with f | ⟨_, f, _⟩
        · obtain ⟨z', k1, k2⟩ := keep (hR _ _ hp).1 g2 g4
          exact .inr ⟨e, d, y, z', hp, f.trans e', g1, k1, g3, k2⟩
        · rw [e'] at f; exact absurd f (numOf_ne hb h0 (hR _ _ hp).2)
    · rcases ih.next _ _ _ h1 hz with e | ⟨e, p, d, y, y', hp, e', g1, g2, g3, g4⟩
      · rcases H.next _ _ _ hz h' with f | ⟨f, f', hf⟩
        · exact .inl (f.trans e)
        · obtain ⟨y, y', n1, n2, n3, n4⟩ := now hf
          exact .inr ⟨e ▸ f, num, dest, y, y', hr, f', n1, n2, n3, n4⟩
      · rcases H.next _ _ _ hz h' with f | ⟨f, _⟩
        · obtain ⟨z', k1, k2⟩ := keep (hR _ _ hp).1 g2 g4
          exact .inr ⟨e, p, d, y, z', hp, f.trans e', g1, k1, g3, k2⟩
        · rw [e'] at f; exact absurd f (numOf_ne hb h0 (hR _ _ hp).2)

theorem Hooks.trans {base : UInt32} {R : Nat → Nat → Prop} {a b c : List JamLink} (h1 : Hooks base R a b) (h2 : Hooks base R b c) : Hooks base R a c := by
  induction h2 with
  | refl => exact h1
  | step num dest _ hr ih => exact .step num dest ih hr

/-- A message that is a reply stays one. -/
theorem Hooks.kept {base : UInt32} {R : Nat → Nat → Prop} {ms ms' : List JamLink} (h : Hooks base R ms ms') {k : Nat} {x x' : JamLink}
    (hx : ms[k]? = some x) (hx' : ms'[k]? = some x') (h0 : x.to ≠ 0) : x'.to = x.to := by
  induction h generalizing x' with
  | refl => rw [hx] at hx'; cases hx'; rfl
  | step num dest h _hr ih =>
    rename_i mt
    have H := setReply_hooked mt base num dest
    obtain ⟨z, hz⟩ : ∃ z, mt[k]? = some z := get_of_len H.len.symm hx'
    have e := ih hz
    rcases H.to _ _ _ hz hx' with f | ⟨_, f, _⟩
    · exact f.trans e
    · rw [e] at f; exact absurd f h0

theorem Hooks.len {base : UInt32} {R : Nat → Nat → Prop} {ms ms' : List JamLink} (h : Hooks base R ms ms') : ms'.length = ms.length := by
  induction h with
  | refl => rfl
  | step num dest _ _ ih => rw [(setReply_hooked _ base num dest).len, ih]

theorem Hooks.ids {base : UInt32} {R : Nat → Nat → Prop} {ms ms' : List JamLink} (h : Hooks base R ms ms') {k : Nat} {x x' : JamLink}
    (hx : ms[k]? = some x) (hx' : ms'[k]? = some x') : x'.msgId = x.msgId ∧ x'.reply = x.reply := by
  induction h generalizing x' with
  | refl => rw [hx] at hx'; cases hx'; exact ⟨rfl, rfl⟩
  | step num dest h _hr ih =>
    rename_i mt
    have H := setReply_hooked mt base num dest
    obtain ⟨z, hz⟩ : ∃ z, mt[k]? = some z := get_of_len H.len.symm hx'
    have e := ih hz
    have f := H.ids _ _ _ hz hx'
    exact ⟨f.1.trans e.1, f.2.trans e.2⟩

/-! ## Threads -/

/-- The messages of `kids` follow one another. -/
def ChainOf (base : UInt32) (ms : List JamLink) : UInt64 → List Nat → Prop
  | link, [] => link = 0
  | link, k :: ks => link = numOf base k ∧ ∃ x, ms[k]? = some x ∧ ChainOf base ms x.next ks

/-- The threads are in order: from every message (of those in `P`) its replies are found, each of them once, and nothing else. -/
structure Threads (base : UInt32) (P : Nat → Prop) (ms : List JamLink) (kids : Nat → List Nat) : Prop where
  chain : ∀ p x, P p → ms[p]? = some x → ChainOf base ms x.first (kids p)
  mem : ∀ (p k : Nat), P p → p < ms.length → (k ∈ kids p ↔ ∃ x, ms[k]? = some x ∧ x.to = numOf base p)
  nodup : ∀ p, P p → p < ms.length → (kids p).Nodup
  free : ∀ (k : Nat) (x : JamLink), ms[k]? = some x → x.to = 0 → x.next = 0

theorem ChainOf.frame {base : UInt32} {ms ms' : List JamLink} : ∀ {ks : List Nat} {link : UInt64}, ChainOf base ms link ks →
    (∀ k ∈ ks, ∀ x, ms[k]? = some x → ∃ x', ms'[k]? = some x' ∧ x'.next = x.next) → ChainOf base ms' link ks
  | [], _, h, _ => h
  | k :: ks, link, ⟨h1, x, hx, h2⟩, hf => by
    obtain ⟨x', hx', e⟩ := hf k (by simp) x hx
    refine ⟨h1, x', hx', ?_⟩
    rw [e]
    exact h2.frame fun j hj => hf j (by simp [hj])

theorem ChainOf.snoc {base : UInt32} {ms ms' : List JamLink} {d last : Nat} {y : JamLink} (hd : ms'[d]? = some y) (hy : y.next = 0) :
    ∀ {ks : List Nat} {link : UInt64}, ChainOf base ms link (ks ++ [last]) → last ∉ ks →
    (∀ k ∈ ks, ∀ x, ms[k]? = some x → ∃ x', ms'[k]? = some x' ∧ x'.next = x.next) →
    (∃ x', ms'[last]? = some x' ∧ x'.next = numOf base d) → ChainOf base ms' link (ks ++ [last] ++ [d])
  | [], link, ⟨h1, _⟩, _, _, ⟨x', hx', e⟩ => ⟨h1, x', hx', by rw [e]; exact ⟨rfl, y, hd, hy⟩⟩
  | k :: ks, link, ⟨h1, x, hx, h2⟩, hl, hf, he => by
    obtain ⟨x', hx', e⟩ := hf k (by simp) x hx
    refine ⟨h1, x', hx', ?_⟩
    rw [e]
    exact ChainOf.snoc hd hy h2 (fun h => hl (by simp [h])) (fun j hj => hf j (by simp [hj])) he

theorem chainEnd_at {base : UInt32} {ms : List JamLink} {dest : Nat} (hb : base.toNat + ms.length ≤ 2 ^ 32) (hn : ms.length ≤ 2 ^ 31) (hd : dest < ms.length)
    {k : Nat} {x : JamLink} (hx : ms[k]? = some x) (hkd : k ≠ dest) (t : Nat) :
    jamChainEnd ms base dest t (numOf base k) = if x.next = 0 then some k else match t with | 0 => none | t + 1 => jamChainEnd ms base dest t x.next := by
  have hk := (List.getElem?_eq_some_iff.1 hx).1
  have e : (UInt32.ofNat k).toNat = k := by rw [UInt32.toNat_ofNat']; omega
  rw [jamChainEnd.eq_def]
  dsimp only
  rw [numOf_sub hb hk, e, if_neg (fun h => hkd (by have := congrArg UInt32.toNat h; rw [e, UInt32.toNat_ofNat'] at this; omega)),
    if_neg (by
      rw [UInt32.le_iff_toNat_le, e]
      show ¬(2 ^ 31 ≤ k ∨ _)
      omega), hx]
  cases t <;> rfl

theorem chainEnd_last {base : UInt32} {ms : List JamLink} {dest : Nat} (hb : base.toNat + ms.length ≤ 2 ^ 32) (hn : ms.length ≤ 2 ^ 31) (h0 : base ≠ 0) (hd : dest < ms.length) :
    ∀ {ks : List Nat} {t : Nat} {link : UInt64} {last : Nat}, ChainOf base ms link (ks ++ [last]) → dest ∉ ks ++ [last] → ks.length ≤ t →
      jamChainEnd ms base dest t link = some last
  | [], t, link, last, ⟨h1, x, hx, h2⟩, hne, _ => by
    rw [h1, chainEnd_at hb hn hd hx (fun e => hne (by simp [e])), if_pos (show x.next = 0 from h2)]
  | k :: ks, 0, link, last, _, _, hl => by simp at hl
  | k :: ks, t + 1, link, last, ⟨h1, x, hx, h2⟩, hne, hl => by
    have hnx : x.next ≠ 0 := by
      match ks, h2 with
      | [], ⟨g, z, hz, _⟩ => rw [g]; exact numOf_ne hb h0 (List.getElem?_eq_some_iff.1 hz).1
      | j :: _, ⟨g, z, hz, _⟩ => rw [g]; exact numOf_ne hb h0 (List.getElem?_eq_some_iff.1 hz).1
    rw [h1, chainEnd_at hb hn hd hx (fun e => hne (by simp [e])), if_neg hnx]
    exact chainEnd_last hb hn h0 hd h2 (fun h => hne (by simp only [List.cons_append, List.mem_cons, h, or_true])) (by simpa using hl)

/-- The replies after one more. -/
def addKid (kids : Nat → List Nat) (num dest : Nat) : Nat → List Nat := fun p => if p = num then kids p ++ [dest] else kids p

theorem threads_build {base : UInt32} {ms ms' : List JamLink} {P : Nat → Prop} {kids : Nat → List Nat} {num dest : Nat} (hb : base.toNat + ms.length ≤ 2 ^ 32) (h0 : base ≠ 0)
    (h : Threads base P ms kids) (hP : P num) (hn : num < ms.length) (hd : dest < ms.length) (ht : ∀ y, ms[dest]? = some y → y.to = 0) (hlen : ms'.length = ms.length)
    (hv : ∀ k x, ms[k]? = some x → ∃ x', ms'[k]? = some x' ∧ x'.to = (if k = dest then numOf base num else x.to) ∧
      x'.first = (if k = num ∧ kids num = [] then numOf base dest else x.first) ∧
      x'.next = (if (kids num).getLast? = some k then numOf base dest else x.next)) :
    Threads base P ms' (addKid kids num dest) := by
  have hdy : ms[dest]? = some (ms[dest]'hd) := List.getElem?_eq_getElem hd
  have hdt := ht _ hdy
  -- `dest` is nobody's reply yet
  have hfree : ∀ p, P p → p < ms.length → dest ∉ kids p := fun p hpP hp hm => by
    obtain ⟨x, hx, e⟩ := (h.mem p dest hpP hp).1 hm
    rw [ht x hx] at e
    exact numOf_ne hb h0 hp e.symm
  have hback : ∀ {k : Nat} {x' : JamLink}, ms'[k]? = some x' → ∃ x, ms[k]? = some x ∧ x'.to = (if k = dest then numOf base num else x.to) ∧
      x'.first = (if k = num ∧ kids num = [] then numOf base dest else x.first) ∧
      x'.next = (if (kids num).getLast? = some k then numOf base dest else x.next) := fun {k x'} hx' => by
    obtain ⟨x, hx⟩ := get_of_len hlen.symm hx'
    obtain ⟨z, hz, e⟩ := hv k x hx
    rw [hx'] at hz; cases hz
    exact ⟨x, hx, e⟩
  have hdn : ∃ y', ms'[dest]? = some y' ∧ y'.next = 0 := by
    obtain ⟨x', h1, _, _, h4⟩ := hv dest _ hdy
    refine ⟨x', h1, ?_⟩
    rw [h4, if_neg (fun e => hfree num hP hn (List.mem_of_getLast? e))]
    exact h.free _ _ hdy hdt
  refine ⟨fun p x' hpP hx' => ?_, fun p k hpP hp => ?_, fun p hpP hp => ?_, fun k x' hx' hto => ?_⟩
  · obtain ⟨x, hx, e1, e2, e3⟩ := hback hx'
    have hp := (List.getElem?_eq_some_iff.1 hx).1
    have hc := h.chain p x hpP hx
    rw [e2]
    unfold addKid
    by_cases hpn : p = num
    · subst hpn
      rw [if_pos rfl]
      by_cases hk : kids p = []
      · rw [if_pos ⟨rfl, hk⟩, hk]
        obtain ⟨y', hy', hy0⟩ := hdn
        exact ⟨rfl, y', hy', hy0⟩
      · rw [if_neg (fun h => hk h.2)]
        obtain ⟨ks, last, hks⟩ : ∃ ks last, kids p = ks ++ [last] := ⟨(kids p).dropLast, (kids p).getLast hk, (List.dropLast_concat_getLast hk).symm⟩
        obtain ⟨y', hy', hy0⟩ := hdn
        have hnd := h.nodup p hpP hp
        rw [hks] at hc hnd ⊢
        have hl : last ∉ ks := fun hm => by
          have := List.nodup_append.1 hnd
          exact this.2.2 last hm last (by simp) rfl
        refine ChainOf.snoc hy' hy0 hc hl (fun k hkm z hz => ?_) ?_
        · obtain ⟨z', g1, _, _, g4⟩ := hv k z hz
          refine ⟨z', g1, ?_⟩
          rw [g4, if_neg]
          rw [hks, List.getLast?_append]
          intro e
          simp at e
          exact hl (e ▸ hkm)
        · have hlm : last ∈ kids p := by rw [hks]; simp
          obtain ⟨z, hz, _⟩ := (h.mem p last hpP hp).1 hlm
          obtain ⟨z', g1, _, _, g4⟩ := hv last z hz
          exact ⟨z', g1, by rw [g4, if_pos (by rw [hks]; simp)]⟩
    · rw [if_neg hpn, if_neg (fun h => hpn h.1)]
      refine hc.frame fun k hk z hz => ?_
      obtain ⟨z', g1, _, _, g4⟩ := hv k z hz
      refine ⟨z', g1, ?_⟩
      rw [g4, if_neg]
      intro e
      obtain ⟨a, ha, ea⟩ := (h.mem num k hP hn).1 (List.mem_of_getLast? e)
      obtain ⟨c, hc', ec⟩ := (h.mem p k hpP hp).1 hk
      rw [ha] at hc'; cases hc'
      exact hpn (numOf_inj hb hp hn (ec.symm.trans ea))
  · rw [hlen] at hp
    unfold addKid
    constructor
    · intro hm
      by_cases hpn : p = num
      · subst hpn
        rw [if_pos rfl, List.mem_append, List.mem_singleton] at hm
        rcases hm with hm | rfl
        · obtain ⟨x, hx, e⟩ := (h.mem p k hpP hp).1 hm
          obtain ⟨x', g1, g2, _⟩ := hv k x hx
          refine ⟨x', g1, ?_⟩
          rw [g2, if_neg (fun (e : k = dest) => hfree p hpP hp (e ▸ hm)), e]
        · obtain ⟨x', g1, g2, _⟩ := hv k _ hdy
          exact ⟨x', g1, by rw [g2, if_pos rfl]⟩
      · rw [if_neg hpn] at hm
        obtain ⟨x, hx, e⟩ := (h.mem p k hpP hp).1 hm
        obtain ⟨x', g1, g2, _⟩ := hv k x hx
        refine ⟨x', g1, ?_⟩
        rw [g2, if_neg (fun (e : k = dest) => hfree p hpP hp (e ▸ hm)), e]
    · rintro ⟨x', hx', e⟩
      obtain ⟨x, hx, e1, _, _⟩ := hback hx'
      by_cases hkd : k = dest
      · rw [if_pos hkd, e] at e1
        have := numOf_inj hb hp hn e1
        subst this
        rw [if_pos rfl, hkd]
        simp
      · rw [if_neg hkd, e] at e1
        have := (h.mem p k hpP hp).2 ⟨x, hx, e1.symm⟩
        split
        · exact List.mem_append_left _ this
        · exact this
  · rw [hlen] at hp
    unfold addKid
    split
    · rw [List.nodup_append]
      exact ⟨h.nodup p hpP hp, by simp, fun a ha b hb => by
        rw [List.mem_singleton] at hb
        subst hb
        exact fun e => hfree p hpP hp (e ▸ ha)⟩
    · exact h.nodup p hpP hp
  · obtain ⟨x, hx, e1, _, e3⟩ := hback hx'
    rw [hto] at e1
    by_cases hkd : k = dest
    · rw [if_pos hkd] at e1
      exact absurd e1.symm (numOf_ne hb h0 hn)
    · rw [if_neg hkd] at e1
      rw [e3, if_neg, h.free k x hx e1.symm]
      intro e
      obtain ⟨a, ha, ea⟩ := (h.mem num k hP hn).1 (List.mem_of_getLast? e)
      rw [hx] at ha; cases ha
      rw [← e1] at ea
      exact numOf_ne hb h0 hn ea.symm

theorem setReply_threads {base : UInt32} {ms : List JamLink} {P : Nat → Prop} {kids : Nat → List Nat} {num dest : Nat} (hb : base.toNat + ms.length ≤ 2 ^ 32)
    (hl : ms.length ≤ 2 ^ 31) (h0 : base ≠ 0) (h : Threads base P ms kids) (hP : P num) (hn : num < ms.length) (hd : dest < ms.length)
    (hk : (kids num).length ≤ 1001) :
    ∃ kids', Threads base P (jamSetReply ms base num dest) kids' ∧ (kids' = kids ∨ kids' = addKid kids num dest) := by
  have hdy : ms[dest]? = some (ms[dest]'hd) := List.getElem?_eq_getElem hd
  generalize ms[dest]'hd = y at hdy
  by_cases hy : y.to = 0
  rotate_left
  · refine ⟨kids, ?_, .inl rfl⟩
    have : jamSetReply ms base num dest = ms := by
      unfold jamSetReply
      simp only [hdy]
      rw [if_pos hy]
    rw [this]; exact h
  refine ⟨_, threads_build hb h0 h hP hn hd (fun z hz => by rw [hdy] at hz; cases hz; exact hy) (setReply_hooked _ _ _ _).len ?_, .inr rfl⟩
  have hfree : ∀ p, P p → p < ms.length → dest ∉ kids p := fun p hpP hp hm => by
    obtain ⟨x, hx, e⟩ := (h.mem p dest hpP hp).1 hm
    rw [hdy] at hx; cases hx
    rw [hy] at e
    exact numOf_ne hb h0 hp e.symm
  -- the table with the parent set
  have hm1 : ∀ k x, ms[k]? = some x → ∃ x', (ms.set dest { y with to := numOf base num })[k]? = some x' ∧
      x'.to = (if k = dest then numOf base num else x.to) ∧ x'.first = x.first ∧ x'.next = x.next := fun k x hx => by
    by_cases e : k = dest
    · subst e
      rw [hdy] at hx; cases hx
      exact ⟨_, List.getElem?_set_self hd, (if_pos rfl).symm, rfl, rfl⟩
    · exact ⟨x, by rw [List.getElem?_set_ne (fun h => e h.symm)]; exact hx, (if_neg e).symm, rfl, rfl⟩
  have hlen1 : (ms.set dest { y with to := numOf base num }).length = ms.length := List.length_set
  have e0 : jamSetReply ms base num dest = (match (ms.set dest { y with to := numOf base num })[num]? with
      | none => ms.set dest { y with to := numOf base num }
      | some x =>
        if x.first = 0 then (ms.set dest { y with to := numOf base num }).set num { x with first := numOf base dest }
        else match jamChainEnd (ms.set dest { y with to := numOf base num }) base dest 1000 x.first with
          | none => ms.set dest { y with to := numOf base num }
          | some n => match (ms.set dest { y with to := numOf base num })[n]? with
            | none => ms.set dest { y with to := numOf base num }
            | some z => (ms.set dest { y with to := numOf base num }).set n { z with next := numOf base dest }) := by
    unfold jamSetReply
    simp only [hdy]
    rw [if_neg (fun h => h hy)]
    rfl
  rw [e0]
  generalize ms.set dest { y with to := numOf base num } = m1 at hm1 hlen1 ⊢
  have hnx : ms[num]? = some (ms[num]'hn) := List.getElem?_eq_getElem hn
  generalize ms[num]'hn = x at hnx
  obtain ⟨x1, hx1, f1, f2, f3⟩ := hm1 num x hnx
  simp only [hx1]
  have hc := h.chain num x hP hnx
  rcases List.eq_nil_or_concat (kids num) with hks | ⟨ks, last, hks⟩
  · rw [hks] at hc
    have hx0 : x.first = 0 := hc
    rw [if_pos (by rw [f2, hx0])]
    intro k w hw
    obtain ⟨w1, hw1, g1, g2, g3⟩ := hm1 k w hw
    rw [hks]
    by_cases e : k = num
    · subst e
      rw [hx1] at hw1; cases hw1
      exact ⟨_, List.getElem?_set_self (hlen1 ▸ hn), g1, (if_pos ⟨rfl, rfl⟩).symm, by rw [if_neg (by simp)]; exact g3⟩
    · exact ⟨w1, by rw [List.getElem?_set_ne (fun h => e h.symm)]; exact hw1, g1, by rw [if_neg (fun h => e h.1)]; exact g2, by rw [if_neg (by simp)]; exact g3⟩
  · rw [List.concat_eq_append] at hks
    rw [hks] at hc hk
    have hf : x1.first ≠ 0 := by
      rw [f2]
      match ks, hc with
      | [], ⟨g, z, hz, _⟩ => rw [g]; exact numOf_ne hb h0 (List.getElem?_eq_some_iff.1 hz).1
      | j :: _, ⟨g, z, hz, _⟩ => rw [g]; exact numOf_ne hb h0 (List.getElem?_eq_some_iff.1 hz).1
    have hce : jamChainEnd m1 base dest 1000 x1.first = some last := by
      rw [f2]
      refine chainEnd_last (by rw [hlen1]; exact hb) (by rw [hlen1]; exact hl) h0 (by rw [hlen1]; exact hd) (hc.frame fun k hk w hw => ?_)
        (hks ▸ hfree num hP hn) (by simp at hk; omega)
      obtain ⟨w1, hw1, _, _, g3⟩ := hm1 k w hw
      exact ⟨w1, hw1, g3⟩
    rw [if_neg hf]
    simp only [hce]
    have hlm : last ∈ kids num := by rw [hks]; simp
    obtain ⟨z, hz, _⟩ := (h.mem num last hP hn).1 hlm
    obtain ⟨z1, hz1, _⟩ := hm1 last z hz
    simp only [hz1]
    have hll : last < m1.length := (List.getElem?_eq_some_iff.1 hz1).1
    intro k w hw
    obtain ⟨w1, hw1, g1, g2, g3⟩ := hm1 k w hw
    rw [if_neg (show ¬(k = num ∧ kids num = []) from fun h => by rw [hks] at h; simp at h)]
    have hgl : (kids num).getLast? = some last := by rw [hks]; simp
    rw [hgl]
    by_cases e : last = k
    · subst e
      rw [hz1] at hw1; cases hw1
      exact ⟨_, List.getElem?_set_self hll, g1, g2, (if_pos rfl).symm⟩
    · exact ⟨w1, by rw [List.getElem?_set_ne e]; exact hw1, g1, g2, by rw [if_neg (fun h => e (Option.some.inj h))]; exact g3⟩

/-- The threads stay in order if no message has more than 1001 replies in the end. -/
theorem Hooks.threads {base : UInt32} {R : Nat → Nat → Prop} {P : Nat → Prop} {ms ms' : List JamLink} {kids : Nat → List Nat} (hb : base.toNat + ms.length ≤ 2 ^ 32)
    (hl : ms.length ≤ 2 ^ 31) (h0 : base ≠ 0) (hR : ∀ p k, R p k → p < ms.length ∧ k < ms.length ∧ P p) (h : Hooks base R ms ms') (ht : Threads base P ms kids)
    (hk : ∀ p, P p → p < ms.length → ∀ ks : List Nat, ks.Nodup → (∀ k ∈ ks, ∃ x, ms'[k]? = some x ∧ x.to = numOf base p) → ks.length ≤ 1001) :
    ∃ kids', Threads base P ms' kids' := by
  induction h with
  | refl => exact ⟨kids, ht⟩
  | step num dest h hr ih =>
    rename_i mt
    obtain ⟨hn, hd, hP⟩ := hR _ _ hr
    have H := setReply_hooked mt base num dest
    have hlen := h.len
    have up : ∀ p, p < ms.length → ∀ k, (∃ x : JamLink, mt[k]? = some x ∧ x.to = numOf base p) →
        ∃ x : JamLink, (jamSetReply mt base num dest)[k]? = some x ∧ x.to = numOf base p := fun p hp k hh => by
      obtain ⟨x, hx, e⟩ := hh
      obtain ⟨x', hx'⟩ := get_of_len H.len hx
      rcases H.to _ _ _ hx hx' with f | ⟨_, f, _⟩
      · exact ⟨x', hx', f.trans e⟩
      · rw [e] at f; exact absurd f (numOf_ne hb h0 hp)
    obtain ⟨k1, h1⟩ := ih fun p hpP hp ks hn hks => hk p hpP hp ks hn fun k hkm => up p hp k (hks k hkm)
    obtain ⟨k2, h2, _⟩ := setReply_threads (dest := dest) (by rw [hlen]; exact hb) (by rw [hlen]; exact hl) h0 h1 hP (by rw [hlen]; exact hn) (by rw [hlen]; exact hd)
      (hk num hP hn _ (h1.nodup num hP (by rw [hlen]; exact hn)) fun k hkm => up num hn k ((h1.mem num k hP (by rw [hlen]; exact hn)).1 hkm))
    exact ⟨k2, h2⟩

end CM
