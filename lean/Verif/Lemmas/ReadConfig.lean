import Verif.Spec.ReadConfig
import Verif.Props.Strings
import Verif.Props.Pattern
/-! # Lemmas about reading the configuration -/
set_option linter.unusedSimpArgs false

namespace CM

theorem ebind_ok {ε α β : Type} {x : Except ε α} {f : α → Except ε β} {b : β} :
    (x >>= f) = .ok b ↔ ∃ a, x = .ok a ∧ f a = .ok b := by
  cases x with
  | error e => exact ⟨fun h => (nomatch h), fun ⟨a, h, _⟩ => (nomatch h)⟩
  | ok a => exact ⟨fun h => ⟨a, rfl, h⟩, fun ⟨_, h, h'⟩ => by cases h; exact h'⟩

theorem epure_ok {ε α : Type} {a b : α} : (pure a : Except ε α) = .ok b ↔ a = b :=
  ⟨fun h => Except.ok.inj h, fun h => by rw [h]; rfl⟩

/-- Cases of a conditional, without looking into the branches. -/
theorem iteq {α : Type} {c : Prop} [Decidable c] {x y r : α} : (if c then x else y) = r ↔ (c ∧ x = r) ∨ (¬ c ∧ y = r) := by
  by_cases h : c <;> simp [h]

theorem emapM_mem {ε α β : Type} {f : α → Except ε β} : ∀ {l : List α} {r : List β}, l.mapM f = .ok r → ∀ x ∈ r, ∃ w ∈ l, f w = .ok x := by
  intro l
  induction l with
  | nil => intro r h x hx; rw [List.mapM_nil, epure_ok] at h; subst h; cases hx
  | cons w l ih =>
    intro r h x hx
    rw [List.mapM_cons] at h
    obtain ⟨y, h1, h⟩ := ebind_ok.1 h
    obtain ⟨ys, h2, h⟩ := ebind_ok.1 h
    rw [epure_ok] at h; subst h
    rcases List.mem_cons.1 hx with rfl | hx
    · exact ⟨w, by simp, h1⟩
    · obtain ⟨v, hv, e⟩ := ih h2 x hx
      exact ⟨v, by simp [hv], e⟩

theorem rdArg_ok {n : Nat} {s : Str} {r : Str × Str} (h : rdArg n s = .ok r) :
    (jbstrcpy n s).2.2 = true ∧ r = ((jbstrcpy n s).1, (jbstrcpy n s).2.1) := by
  unfold rdArg at h
  dsimp only at h
  split at h
  · next e => cases h; exact ⟨e, rfl⟩
  · cases h

theorem rdArg_len {n : Nat} {s : Str} {r : Str × Str} (h : rdArg n s = .ok r) (hn : 0 < n) : r.1.length < n := by
  rw [(rdArg_ok h).2]; exact (jbstrcpy_bounds n s hn).1

theorem tokLoop_oneLine (q : Bool) (n : Nat) : ∀ (k : Nat) (s : Str) (d : Nat), s.length ≤ k → 10 ∉ (tokLoop q n d s).1 := by
  intro k
  induction k with
  | zero =>
    intro s d h
    have : s = [] := List.length_eq_zero_iff.1 (by omega)
    subst this; simp [tokLoop]
  | succ k ih =>
    intro s d h
    cases s with
    | nil => simp [tokLoop]
    | cons c r =>
      rw [tokLoop.eq_def]
      dsimp only
      simp only [List.length_cons] at h
      by_cases h1 : tokStop q c = true
      · rw [if_pos h1]; simp
      rw [if_neg h1]
      by_cases h2 : c = 92
      · rw [if_pos h2]
        cases r with
        | nil => dsimp only; split <;> simp
        | cons e r =>
          dsimp only
          simp only [List.length_cons] at h
          by_cases h3 : e = 10
          · rw [if_pos h3]; dsimp only; split <;> simp
          · rw [if_neg h3]
            by_cases h4 : d < n - 1
            · rw [if_pos h4]
              simp only [List.mem_cons, not_or]
              exact ⟨fun h => h3 h.symm, ih r (d + 1) (by omega)⟩
            · rw [if_neg h4]; exact ih r d (by omega)
      · rw [if_neg h2]
        have hc : c ≠ 10 := by rintro rfl; exact h1 (by simp [tokStop])
        by_cases h4 : d < n - 1
        · rw [if_pos h4]
          simp only [List.mem_cons, not_or]
          exact ⟨fun h => hc h.symm, ih r (d + 1) (by omega)⟩
        · rw [if_neg h4]; exact ih r d (by omega)

/-- A word never contains a line feed. -/
theorem rdArg_oneLine {n : Nat} {s : Str} {r : Str × Str} (h : rdArg n s = .ok r) : 10 ∉ r.1 := by
  rw [(rdArg_ok h).2]
  exact tokLoop_oneLine _ _ _ _ _ (Nat.le_refl _)

theorem rdFit_ok {n : Nat} {s r : Str} (h : rdFit n s = .ok r) : r = s ∧ s.length < n := by
  unfold rdFit at h; split at h
  · next e => cases h; exact ⟨rfl, e⟩
  · cases h

theorem rdPat_ok {α : Type} {x : Except UB (Option α)} {p : α} (h : rdPat x = .ok p) : x = .ok (some p) := by
  cases x with
  | error u => cases h
  | ok o => cases o with
    | none => cases h
    | some q => cases h; rfl

theorem upper_letters (s : Str) (h : (correctFlags s).2 = true) : ∀ c ∈ (correctFlags s).1, 65 ≤ c ∧ c ≤ 90 := by
  rw [correctFlags_upper s h]
  intro c hc
  obtain ⟨d, hd, rfl⟩ := List.mem_map.1 hc
  have := (correctFlags_iff s).1 h d hd
  have key : ∀ d : UInt8, (65 ≤ d ∧ d ≤ 90) ∨ (97 ≤ d ∧ d ≤ 122) → 65 ≤ upper d ∧ upper d ≤ 90 := by decide +kernel
  exact key d this

theorem rdGroup_ok {s : Str} {g : UInt8} (h : rdGroup s = .ok g) : GroupLetter g := by
  unfold rdGroup at h
  dsimp only at h
  split at h
  · next e =>
    cases h
    have := upper_letters s e
    cases hs : (correctFlags s).1 with
    | nil => exact Or.inl rfl
    | cons c r => rw [hs] at this; exact Or.inr (this c (by simp))
  · cases h

theorem rdGroups_ok {s : Str} {r : Str × Str} (h : rdGroups s = .ok r) : GroupList r.1 := by
  unfold rdGroups at h
  dsimp only at h
  split at h
  · next e =>
    obtain ⟨g, h1, h⟩ := ebind_ok.1 h
    split at h
    · next e2 =>
      rw [epure_ok] at h; subst h
      obtain ⟨rfl, h3⟩ := rdFit_ok h1
      refine ⟨?_, upper_letters _ e2⟩
      rw [correctFlags_upper _ e2, List.length_map]; exact h3
    · cases h
  · next e =>
    cases h
    have : (jbstrcpy 70 s).1 = [] := by
      have e' : ¬ (((jbstrcpy 70 s).2.2) = true) := e
      simp only [jbstrcpy, Bool.or_eq_true, decide_eq_true_eq, not_or, ne_eq, Decidable.not_not] at e' ⊢
      exact e'.1
    simp only [this]
    exact ⟨by decide, by simp⟩

/-! ## Patterns -/

theorem raw_patOk {ty : PatType} {s : Str} {p : Pat4} (h : rawParse4DPat ty s = .ok (some p)) : PatOk p := by
  have := rawParse4DPat_bounds ty s p h
  unfold PatOk; omega

theorem map_some_ok {α β : Type} {x : Except UB (Option α)} {f : α → β} {b : β} (h : x.map (Option.map f) = .ok (some b)) :
    ∃ a, x = .ok (some a) ∧ f a = b := by
  cases x with
  | error e => cases h
  | ok o => cases o with
    | none => cases h
    | some a => simp only [Except.map, Option.map] at h; cases h; exact ⟨a, rfl, rfl⟩

theorem parse4DPat_ok {s : Str} {p : Pat4} (h : parse4DPat s = .ok (some p)) : PatOk p := by
  unfold parse4DPat at h
  repeat' split at h
  all_goals first
    | exact raw_patOk h
    | (obtain ⟨q, h1, rfl⟩ := map_some_ok h
       have := raw_patOk h1
       simp only [PatOk] at this ⊢
       simp only [List.length_nil]
       omega)

theorem parse4DDestPat_ok {s : Str} {p : Pat4} (h : parse4DDestPat s = .ok (some p)) : PatOk p := by
  unfold parse4DDestPat at h
  repeat' split at h
  all_goals first
    | exact raw_patOk h
    | (cases h; simp [PatOk])

theorem p2Loop_ok : ∀ (r : Str) (s t : P2), s.pat.net.length < 10 → s.tempc ≤ 9 → (∀ x, s.temp = some x → x.length < 10) →
    p2Loop s r = .ok (some t) → t.pat.net.length < 10 ∧ (∀ x, t.temp = some x → x.length < 10) := by
  intro r
  induction r with
  | nil => intro s t h1 _ h2 h; cases h; exact ⟨h1, h2⟩
  | cons c r ih =>
    intro s t h1 hc h2 h
    unfold p2Loop at h
    split at h
    · split at h
      · cases h
      · split at h
        · cases h
        · next x hx =>
          have hx' : x.length < 10 := h2 x hx
          exact ih _ t (by simpa using hx') (by simp) (by simpa using h2) h
    · split at h
      · split at h
        · next hlt =>
          refine ih { s with temp := some ((s.temp.getD []).take s.tempc ++ [c]), tempc := s.tempc + 1 } t h1 (by simp; omega) ?_ h
          intro x hx
          simp only [Option.some.injEq] at hx
          subst hx
          simp only [List.length_append, List.length_take, List.length_cons, List.length_nil]
          omega
        · exact ih _ t h1 hc h2 h
      · cases h

theorem parse2DPat_ok {s : Str} {p : Pat2} (h : parse2DPat s = .ok (some p)) : p.net.length < 10 ∧ p.node.length < 10 := by
  unfold parse2DPat at h
  split at h
  · cases h; decide
  · split at h
    · cases h
    · cases h
    · next t ht =>
      have := p2Loop_ok s _ t (by decide) (by simp) (by simp) ht
      split at h
      · cases h
      · next x hx => cases h; exact ⟨this.1, this.2 x hx⟩

/-! ## Areas -/

theorem findIdx_lt {α : Type} {p : α → Bool} {l : List α} {i : Nat} (h : l.findIdx? p = some i) : i < l.length := by
  rw [List.findIdx?_eq_some_iff_getElem] at h
  exact h.1

theorem rdKnown_ok {nodes : List ConfigNode} {n : Node4D} {i : Nat} (h : rdKnown nodes n = .ok i) : i < nodes.length := by
  unfold rdKnown at h
  split at h
  · cases h
  · next j hj => cases h; exact findIdx_lt hj

theorem baseOf_ok {s : Str} {b : Nat} (h : baseOf s = some b) : b = 0 ∨ b = 1 := by
  unfold baseOf at h
  repeat' split at h
  all_goals first | (cases h; simp) | cases h

theorem rdBase_ok {s : Str} {r : Option Nat × Str} (h : rdBase s = .ok r) :
    (r.1 = none ∨ r.1 = some 0 ∨ r.1 = some 1) ∧ (r.1 = none → r.2 = []) ∧ r.2.length < 80 ∧ 10 ∉ r.2 := by
  unfold rdBase at h
  dsimp only at h
  split at h
  · split at h
    · cases h
    · next b hb =>
      obtain ⟨p, h1, h⟩ := ebind_ok.1 h
      rw [epure_ok] at h; subst h
      refine ⟨?_, by simp, rdArg_len h1 (by decide), rdArg_oneLine h1⟩
      rcases baseOf_ok hb with rfl | rfl <;> simp
  · cases h; simp

theorem rdAreaType_ok {w tag path : Str} {base : Option Nat} {ty : AreaType} (h : rdAreaType w tag path base = .ok ty) :
    KindOk { tag := tag, path := path, base := base, type := ty } := by
  unfold rdAreaType at h
  split at h
  · split at h
    · cases h
    · next hb => cases h; simp [KindOk]; intro e; subst e; exact hb rfl
  · split at h
    · split at h
      · cases h
      · next hb => cases h; simp [KindOk]; intro e; subst e; exact hb rfl
    · split at h
      · next hb =>
        split at h
        · cases h
        · next hp => cases h; exact ⟨hb, hp, rfl, rfl⟩
      · next hb =>
        split at h
        · next hd => cases h; exact ⟨by simpa [DefaultTag] using hd, rfl⟩
        · next hd => cases h; exact ⟨hb, by simpa [DefaultTag] using hd, rfl⟩

theorem rdArea_ok {akas : List Aka} {m : Nat} {w rest : Str} {a : Area} (h : rdArea akas w rest = .ok a) : AreaOk akas.length m a := by
  unfold rdArea at h
  obtain ⟨tag, h1, h⟩ := ebind_ok.1 h
  obtain ⟨adr, h2, h⟩ := ebind_ok.1 h
  obtain ⟨n, h3, h⟩ := ebind_ok.1 h
  split at h
  · cases h
  · next i hi =>
    obtain ⟨b, h4, h⟩ := ebind_ok.1 h
    obtain ⟨ty, h5, h⟩ := ebind_ok.1 h
    rw [epure_ok] at h; subst h
    have hb := rdBase_ok h4
    exact { tag := rdArg_len h1 (by decide), description := by simp, path := hb.2.2.1, aka := ⟨i, rfl, findIdx_lt hi⟩,
            base := hb.1, passThru := hb.2.1, links := by simp, banned := by simp, group := Or.inl rfl,
            kind := by have := rdAreaType_ok h5; revert this; cases ty <;> exact id
            oneLine := ⟨rdArg_oneLine h1, by simp, hb.2.2.2⟩
            flags := by show (0 : UInt8) &&& 31 = 0; decide
            unmarked := rfl }

theorem and_or8 (a b c : UInt8) : (a ||| b) &&& c = (a &&& c) ||| (b &&& c) := UInt8.toBitVec_inj.1 BitVec.and_or_distrib_right
theorem and_or32 (a b c : UInt32) : (a ||| b) &&& c = (a &&& c) ||| (b &&& c) := UInt32.toBitVec_inj.1 BitVec.and_or_distrib_right

theorem or8 {f m : UInt8} (hf : f &&& 31 = f) (hm : m &&& 31 = m) : (f ||| m) &&& 31 = f ||| m := by
  rw [and_or8, hf, hm]

theorem or32 {f m : UInt32} (hf : f &&& 4095 = f) (hm : m &&& 4095 = m) : (f ||| m) &&& 4095 = f ||| m := by
  rw [and_or32, hf, hm]

theorem or_has {f m k : UInt32} (h : ((f ||| m) &&& k != 0) = false) : (f &&& k != 0) = false := by
  simp only [bne_eq_false_iff_eq] at h ⊢
  rw [and_or32] at h
  exact (UInt32.or_eq_zero_iff.1 h).1

theorem exportMark_flags (s : Str) : (exportMark s).1 = 0 ∨ (exportMark s).1 = 1 ∨ (exportMark s).1 = 2 ∨ (exportMark s).1 = 4 := by
  unfold exportMark
  dsimp only
  repeat' split
  all_goals (simp only [TOSSNODE_READONLY, TOSSNODE_WRITEONLY, TOSSNODE_FEED]; decide)

theorem rdExport_ok {nodes : List ConfigNode} : ∀ {ws : List Str} {tpl : Node4D} {ts : List TossNode},
    rdExport nodes tpl ws = .ok ts →
    ∀ t ∈ ts, t.node < nodes.length ∧ (t.flags = 0 ∨ t.flags = 1 ∨ t.flags = 2 ∨ t.flags = 4) := by
  intro ws
  induction ws with
  | nil => intro tpl ts h t ht; cases h; cases ht
  | cons w ws ih =>
    intro tpl ts h t ht
    unfold rdExport at h
    dsimp only at h
    split at h
    · cases h
    · obtain ⟨i, h1, h⟩ := ebind_ok.1 h
      obtain ⟨r, h2, h⟩ := ebind_ok.1 h
      rw [epure_ok] at h; subst h
      rcases List.mem_cons.1 ht with rfl | ht
      · exact ⟨rdKnown_ok h1, exportMark_flags w⟩
      · exact ih h2 t ht

theorem rdBanned_ok {nodes : List ConfigNode} : ∀ {ws : List Str} {ts : List Nat}, rdBanned nodes ws = .ok ts → ∀ t ∈ ts, t < nodes.length := by
  intro ws
  induction ws with
  | nil => intro ts h t ht; cases h; cases ht
  | cons w ws ih =>
    intro ts h t ht
    unfold rdBanned at h
    obtain ⟨n, -, h⟩ := ebind_ok.1 h
    obtain ⟨i, h1, h⟩ := ebind_ok.1 h
    obtain ⟨r, h2, h⟩ := ebind_ok.1 h
    rw [epure_ok] at h; subst h
    rcases List.mem_cons.1 ht with rfl | ht
    · exact rdKnown_ok h1
    · exact ih h2 t ht

theorem rdAreaCmd_ok {m : Nat} {nodes : List ConfigNode} {w rest : Str} {a b : Area} (ha : AreaOk m nodes.length a)
    (h : rdAreaCmd nodes w rest a = .ok b) : AreaOk m nodes.length b := by
  unfold rdAreaCmd at h
  rcases iteq.1 h with ⟨-, h⟩ | ⟨-, h⟩
  · cases h; exact { ha with flags := or8 ha.flags (by decide) }
  rcases iteq.1 h with ⟨-, h⟩ | ⟨-, h⟩
  · cases h; exact { ha with flags := or8 ha.flags (by decide) }
  rcases iteq.1 h with ⟨-, h⟩ | ⟨-, h⟩
  · cases h; exact { ha with flags := or8 ha.flags (by decide) }
  rcases iteq.1 h with ⟨-, h⟩ | ⟨-, h⟩
  · cases h; exact { ha with flags := or8 ha.flags (by decide) }
  rcases iteq.1 h with ⟨-, h⟩ | ⟨-, h⟩
  · cases h; exact { ha with flags := or8 ha.flags (by decide) }
  rcases iteq.1 h with ⟨-, h⟩ | ⟨-, h⟩
  · rcases iteq.1 h with ⟨-, h⟩ | ⟨hty, h⟩
    · cases h
    · obtain ⟨t, h1, h⟩ := ebind_ok.1 h
      rw [epure_ok] at h; subst h
      have := rdExport_ok h1
      have hk := ha.kind
      exact { ha with
        links := by
          intro x hx
          rcases List.mem_append.1 hx with hx | hx
          · exact ha.links x hx
          · exact this x hx
        kind := by
          have e : a.type = .echomail ∨ a.type = .default := by
            cases ht : a.type <;> simp [ht] at hty <;> simp
          rcases e with e | e <;> simpa only [KindOk, e] using hk }
  rcases iteq.1 h with ⟨-, h⟩ | ⟨-, h⟩
  · rcases iteq.1 h with ⟨-, h⟩ | ⟨hty, h⟩
    · cases h
    · obtain ⟨t, h1, h⟩ := ebind_ok.1 h
      rw [epure_ok] at h; subst h
      have hk := ha.kind
      have e : a.type = .netmail := by simpa using hty
      exact { ha with kind := by simpa only [KindOk, e] using hk }
  rcases iteq.1 h with ⟨-, h⟩ | ⟨-, h⟩
  · obtain ⟨t, h1, h⟩ := ebind_ok.1 h
    rw [epure_ok] at h; subst h
    have := rdBanned_ok h1
    exact { ha with
      banned := by
        intro x hx
        rcases List.mem_append.1 hx with hx | hx
        · exact ha.banned x hx
        · exact this x hx }
  rcases iteq.1 h with ⟨-, h⟩ | ⟨-, h⟩
  · obtain ⟨t, h1, h⟩ := ebind_ok.1 h
    rw [epure_ok] at h; subst h
    exact { ha with description := rdArg_len h1 (by decide), oneLine := ⟨ha.oneLine.1, rdArg_oneLine h1, ha.oneLine.2.2⟩ }
  rcases iteq.1 h with ⟨-, h⟩ | ⟨-, h⟩
  · obtain ⟨t, h1, h⟩ := ebind_ok.1 h
    obtain ⟨g, h2, h⟩ := ebind_ok.1 h
    rw [epure_ok] at h; subst h
    exact { ha with group := rdGroup_ok h2 }
  rcases iteq.1 h with ⟨-, h⟩ | ⟨-, h⟩
  · obtain ⟨t, h1, h⟩ := ebind_ok.1 h
    rw [epure_ok] at h; subst h
    exact { ha with }
  · obtain ⟨t, h1, h⟩ := ebind_ok.1 h
    rw [epure_ok] at h; subst h
    exact { ha with }

/-! ## Nodes -/

theorem rdSwitch_ok {c : Nat} {n m : ConfigNode} {w : Str} (hn : NodeOk c n) (h : rdSwitch n w = .ok m) : NodeOk c m := by
  unfold rdSwitch at h
  repeat
    rcases iteq.1 h with ⟨-, h⟩ | ⟨-, h⟩
    · cases h
      first
        | exact { hn with flags := or32 hn.flags (by decide), pktFrom := fun h => hn.pktFrom (or_has h) }
        | exact { hn with pri := (by simp only [PKTS_CRASH, PKTS_DIRECT, PKTS_HOLD]; decide) }
  cases h

theorem efoldlM_inv {ε σ α : Type} {f : σ → α → Except ε σ} {P : σ → Prop} (hf : ∀ s a t, P s → f s a = .ok t → P t) :
    ∀ (l : List α) (s t : σ), P s → l.foldlM f s = .ok t → P t := by
  intro l
  induction l with
  | nil => intro s t hs h; rw [List.foldlM_nil, epure_ok] at h; exact h ▸ hs
  | cons a l ih =>
    intro s t hs h
    rw [List.foldlM_cons] at h
    obtain ⟨u, h1, h⟩ := ebind_ok.1 h
    exact ih u t (hf s a u hs h1) h

theorem rdPacker_ok {ps : List Packer} {s : Str} {o : Option Nat} (h : rdPacker ps s = .ok o) : ∀ i, o = some i → i < ps.length := by
  unfold rdPacker at h
  split at h
  · cases h; simp
  · split at h
    · cases h
    · next i hi => cases h; intro j e; cases e; exact findIdx_lt hi

theorem groupList_nil : GroupList [] := ⟨by decide, by simp⟩

theorem rdNodeLine_ok {ps : List Packer} {rest : Str} {n : ConfigNode} (h : rdNodeLine ps rest = .ok n) : NodeOk ps.length n := by
  unfold rdNodeLine at h
  obtain ⟨adr, h1, h⟩ := ebind_ok.1 h
  obtain ⟨n, h2, h⟩ := ebind_ok.1 h
  obtain ⟨pk, h3, h⟩ := ebind_ok.1 h
  obtain ⟨p, h4, h⟩ := ebind_ok.1 h
  obtain ⟨pw, h5, h⟩ := ebind_ok.1 h
  refine efoldlM_inv (P := NodeOk ps.length) (fun s a t hs e => rdSwitch_ok hs e) _ _ _ ?_ h
  exact { packetPW := rdArg_len h5 (by decide), areafixPW := by simp, groups := groupList_nil, readOnly := groupList_nil,
          add := groupList_nil, defaultGroup := Or.inl rfl, sysop := by simp, remoteName := by simp, remotePw := by simp,
          pri := by simp, packer := rdPacker_ok h4, oneLine := ⟨rdArg_oneLine h5, by simp, by simp, by simp, by simp⟩,
          flags := by show (0 : UInt32) &&& 4095 = 0; decide
          pktFrom := fun _ => rfl, unmarked := ⟨rfl, rfl⟩ }

theorem rdPlus_ok {c : Nat} {n m : ConfigNode} {w : Str} (hn : NodeOk c n) (h : rdPlus n w = .ok m) : NodeOk c m := by
  unfold rdPlus at h
  split at h
  · cases h; exact { hn with flags := or32 hn.flags (by decide), pktFrom := fun h => hn.pktFrom (or_has h) }
  · cases h

theorem rdNodeCmd_ok {c : Nat} {w rest : Str} {n m : ConfigNode} (hn : NodeOk c n) (h : rdNodeCmd w rest n = .ok m) : NodeOk c m := by
  unfold rdNodeCmd at h
  rcases iteq.1 h with ⟨-, h⟩ | ⟨-, h⟩
  · obtain ⟨t, h1, h⟩ := ebind_ok.1 h
    obtain ⟨a, h2, h⟩ := ebind_ok.1 h
    rw [epure_ok] at h; subst h
    exact { hn with
      flags := or32 hn.flags (by decide)
      pktFrom := by
        intro h
        exfalso
        simp only [ConfigNode.has, bne_eq_false_iff_eq] at h
        rw [and_or32] at h
        have := (UInt32.or_eq_zero_iff.1 h).2
        revert this; decide }
  rcases iteq.1 h with ⟨-, h⟩ | ⟨-, h⟩
  · obtain ⟨t, h1, h⟩ := ebind_ok.1 h
    obtain ⟨g, h2, h⟩ := ebind_ok.1 h
    obtain ⟨r, h3, h⟩ := ebind_ok.1 h
    obtain ⟨a, h4, h⟩ := ebind_ok.1 h
    rw [epure_ok] at h; subst h
    exact { hn with oneLine := ⟨hn.oneLine.1, rdArg_oneLine h1, hn.oneLine.2.2⟩, areafixPW := rdArg_len h1 (by decide), groups := rdGroups_ok h2, readOnly := rdGroups_ok h3, add := rdGroups_ok h4 }
  rcases iteq.1 h with ⟨-, h⟩ | ⟨-, h⟩
  · obtain ⟨t, h1, h⟩ := ebind_ok.1 h
    obtain ⟨g, h2, h⟩ := ebind_ok.1 h
    rw [epure_ok] at h; subst h
    exact { hn with defaultGroup := rdGroup_ok h2 }
  rcases iteq.1 h with ⟨-, h⟩ | ⟨-, h⟩
  · obtain ⟨t, h1, h⟩ := ebind_ok.1 h
    obtain ⟨p, h2, h⟩ := ebind_ok.1 h
    refine efoldlM_inv (P := NodeOk c) (fun s a t hs e => rdPlus_ok hs e) _ _ _ ?_ h
    exact { hn with oneLine := ⟨hn.oneLine.1, hn.oneLine.2.1, hn.oneLine.2.2.1, rdArg_oneLine h1, rdArg_oneLine h2⟩, remoteName := rdArg_len h1 (by decide), remotePw := rdArg_len h2 (by decide) }
  · obtain ⟨t, h1, h⟩ := ebind_ok.1 h
    rw [epure_ok] at h; subst h
    exact { hn with oneLine := ⟨hn.oneLine.1, hn.oneLine.2.1, rdArg_oneLine h1, hn.oneLine.2.2.2⟩, sysop := rdArg_len h1 (by decide) }

theorem rdSwitch_same {n m : ConfigNode} {w : Str} (h : rdSwitch n w = .ok m) : m.node = n.node ∧ m.packer = n.packer := by
  unfold rdSwitch at h
  repeat
    rcases iteq.1 h with ⟨-, h⟩ | ⟨-, h⟩
    · cases h; exact ⟨rfl, rfl⟩
  cases h

theorem rdNodeCmd_same {w rest : Str} {n m : ConfigNode} (h : rdNodeCmd w rest n = .ok m) : m.node = n.node ∧ m.packer = n.packer := by
  unfold rdNodeCmd at h
  rcases iteq.1 h with ⟨-, h⟩ | ⟨-, h⟩
  · obtain ⟨t, h1, h⟩ := ebind_ok.1 h
    obtain ⟨a, h2, h⟩ := ebind_ok.1 h
    rw [epure_ok] at h; subst h; exact ⟨rfl, rfl⟩
  rcases iteq.1 h with ⟨-, h⟩ | ⟨-, h⟩
  · obtain ⟨t, h1, h⟩ := ebind_ok.1 h
    obtain ⟨g, h2, h⟩ := ebind_ok.1 h
    obtain ⟨r, h3, h⟩ := ebind_ok.1 h
    obtain ⟨a, h4, h⟩ := ebind_ok.1 h
    rw [epure_ok] at h; subst h; exact ⟨rfl, rfl⟩
  rcases iteq.1 h with ⟨-, h⟩ | ⟨-, h⟩
  · obtain ⟨t, h1, h⟩ := ebind_ok.1 h
    obtain ⟨g, h2, h⟩ := ebind_ok.1 h
    rw [epure_ok] at h; subst h; exact ⟨rfl, rfl⟩
  rcases iteq.1 h with ⟨-, h⟩ | ⟨-, h⟩
  · obtain ⟨t, h1, h⟩ := ebind_ok.1 h
    obtain ⟨p, h2, h⟩ := ebind_ok.1 h
    refine efoldlM_inv (P := fun m => m.node = n.node ∧ m.packer = n.packer) ?_ _ _ _ ⟨rfl, rfl⟩ h
    intro a w b ha e
    unfold rdPlus at e
    split at e
    · cases e; exact ha
    · cases e
  · obtain ⟨t, h1, h⟩ := ebind_ok.1 h
    rw [epure_ok] at h; subst h; exact ⟨rfl, rfl⟩

theorem PackerOk.same {ps : List Packer} {n m : ConfigNode} (h : PackerOk ps n) (e : m.packer = n.packer) : PackerOk ps m := by
  intro i hi; exact h i (e ▸ hi)

theorem PackerOk.snoc {ps : List Packer} {n : ConfigNode} (h : PackerOk ps n) (p : Packer) : PackerOk (ps ++ [p]) n := by
  intro i hi
  obtain ⟨q, h1, h2, h3⟩ := h i hi
  have hl := (List.getElem?_eq_some_iff.1 h1).1
  refine ⟨q, by rw [List.getElem?_append_left hl]; exact h1, h2, ?_⟩
  rw [List.take_append_of_le_length (by omega)]
  exact h3

theorem rdPacker_first {ps : List Packer} {s : Str} {o : Option Nat} (h : rdPacker ps s = .ok o) (n : ConfigNode) (hn : n.packer = o) :
    PackerOk ps n := by
  intro i hi
  rw [hn] at hi
  subst hi
  unfold rdPacker at h
  rcases iteq.1 h with ⟨-, h⟩ | ⟨h0, h⟩
  · cases h
  · cases hf : ps.findIdx? (fun p => eqi s p.name) with
    | none => rw [hf] at h; cases h
    | some j =>
      rw [hf] at h
      cases h
      obtain ⟨hi, h1, h2⟩ := List.findIdx?_eq_some_iff_getElem.1 hf
      have e : s.map lower = ps[i].name.map lower := (eqi_iff _ _).1 h1
      refine ⟨ps[i], by simp [hi], ?_, ?_⟩
      · intro e0
        rw [e0] at e
        exact h0 (by simpa using e)
      · intro q hq
        obtain ⟨j, hj, rfl⟩ := List.mem_take_iff_getElem.1 hq
        have := h2 j (by omega)
        cases hb : eqi ps[i].name ps[j].name with
        | false => rfl
        | true =>
          exfalso
          apply this
          rw [eqi_iff, e]
          exact (eqi_iff _ _).1 hb

theorem rdNodeLine_packer {ps : List Packer} {rest : Str} {n : ConfigNode} (h : rdNodeLine ps rest = .ok n) : PackerOk ps n := by
  unfold rdNodeLine at h
  obtain ⟨adr, h1, h⟩ := ebind_ok.1 h
  obtain ⟨a, h2, h⟩ := ebind_ok.1 h
  obtain ⟨pk, h3, h⟩ := ebind_ok.1 h
  obtain ⟨p, h4, h⟩ := ebind_ok.1 h
  obtain ⟨pw, h5, h⟩ := ebind_ok.1 h
  exact efoldlM_inv (P := PackerOk ps) (fun s a t hs e => hs.same (rdSwitch_same e).2) _ _ _ (rdPacker_first h4 _ rfl) h

/-! ## The other lines -/

theorem AreaOk.mono {m n m' n' : Nat} {a : Area} (h : AreaOk m n a) (hm : m ≤ m') (hn : n ≤ n') : AreaOk m' n' a :=
  { h with
    aka := by obtain ⟨i, e, hi⟩ := h.aka; exact ⟨i, e, by omega⟩
    links := fun t ht => ⟨by have := (h.links t ht).1; omega, (h.links t ht).2⟩
    banned := fun b hb => by have := h.banned b hb; omega }

theorem NodeOk.mono {m m' : Nat} {n : ConfigNode} (h : NodeOk m n) (hm : m ≤ m') : NodeOk m' n :=
  { h with packer := fun i e => by have := h.packer i e; omega }

theorem forall_snoc {α : Type} {P : α → Prop} {l : List α} {x : α} (h : ∀ a ∈ l, P a) (hx : P x) : ∀ a ∈ l ++ [x], P a := by
  intro a ha
  rcases List.mem_append.1 ha with ha | ha
  · exact h a ha
  · rw [List.mem_singleton] at ha; exact ha ▸ hx

theorem forall_append {α : Type} {P : α → Prop} {l r : List α} (h : ∀ a ∈ l, P a) (hr : ∀ a ∈ r, P a) : ∀ a ∈ l ++ r, P a := by
  intro a ha
  rcases List.mem_append.1 ha with ha | ha
  · exact h a ha
  · exact hr a ha

theorem getLast_mem {α : Type} {l : List α} {x : α} (h : l.getLast? = some x) : x ∈ l := List.mem_of_getLast? h

theorem getLast_split {α : Type} {l : List α} {x : α} (h : l.getLast? = some x) : l = l.dropLast ++ [x] := by
  have hne : l ≠ [] := by rintro rfl; cases h
  rw [List.getLast?_eq_some_getLast hne] at h
  cases h
  exact (List.dropLast_concat_getLast hne).symm

theorem length_relast {α : Type} {l : List α} {x y : α} (h : l.getLast? = some x) : (l.dropLast ++ [y]).length = l.length := by
  have e := congrArg List.length (getLast_split h)
  rw [e]; simp

theorem forall_relast {α : Type} {P : α → Prop} {l : List α} {x y : α} (h : ∀ a ∈ l, P a) (_hl : l.getLast? = some x) (hy : P y) :
    ∀ a ∈ l.dropLast ++ [y], P a :=
  forall_snoc (fun a ha => h a ((List.dropLast_sublist l).mem ha)) hy

theorem rdAkaCmd_ok {w rest : Str} {k m : Aka} (hk : k.domain.length < 20 ∧ ∀ r ∈ k.remList, r.net.length < 10 ∧ r.node.length < 10)
    (h : rdAkaCmd w rest k = .ok m) : m.node = k.node ∧ m.domain.length < 20 ∧ ∀ r ∈ m.remList, r.net.length < 10 ∧ r.node.length < 10 := by
  unfold rdAkaCmd at h
  rcases iteq.1 h with ⟨-, h⟩ | ⟨-, h⟩
  · obtain ⟨t, h1, h⟩ := ebind_ok.1 h
    rw [epure_ok] at h; subst h
    exact ⟨rfl, hk⟩
  rcases iteq.1 h with ⟨-, h⟩ | ⟨-, h⟩
  · obtain ⟨t, h1, h⟩ := ebind_ok.1 h
    rw [epure_ok] at h; subst h
    refine ⟨rfl, hk.1, forall_append hk.2 ?_⟩
    intro x hx
    obtain ⟨w, -, e⟩ := emapM_mem h1 x hx
    exact parse2DPat_ok (rdPat_ok e)
  · obtain ⟨t, h1, h⟩ := ebind_ok.1 h
    obtain ⟨d, h2, h⟩ := ebind_ok.1 h
    rw [epure_ok] at h; subst h
    obtain ⟨rfl, h3⟩ := rdFit_ok h2
    exact ⟨rfl, h3, hk.2⟩

theorem rdFilterCmd_ok {w rest : Str} {c : Command} (h : rdFilterCmd w rest = .ok c) : CommandOk c := by
  unfold rdFilterCmd at h
  rcases iteq.1 h with ⟨-, h⟩ | ⟨-, h⟩
  · cases h; trivial
  rcases iteq.1 h with ⟨-, h⟩ | ⟨-, h⟩
  · cases h; trivial
  obtain ⟨t, h1, h⟩ := ebind_ok.1 h
  have hl : t.1.length < 200 := rdArg_len h1 (by decide)
  repeat
    rcases iteq.1 h with ⟨-, h⟩ | ⟨-, h⟩
    · rw [epure_ok] at h; subst h; exact hl
  obtain ⟨d, h2, h⟩ := ebind_ok.1 h
  obtain ⟨p, h3, h⟩ := ebind_ok.1 h
  have hp := parse4DDestPat_ok (rdPat_ok h3)
  rcases iteq.1 h with ⟨-, h⟩ | ⟨-, h⟩ <;> (rw [epure_ok] at h; subst h; exact ⟨hl, hp⟩)

theorem rdChange_ok {rest : Str} {c : Change} (h : rdChange rest = .ok c) : PatOk c.pattern := by
  unfold rdChange at h
  obtain ⟨t, h1, h⟩ := ebind_ok.1 h
  obtain ⟨c0, h2, h⟩ := ebind_ok.1 h
  obtain ⟨p, h3, h⟩ := ebind_ok.1 h
  obtain ⟨pat, h4, h⟩ := ebind_ok.1 h
  obtain ⟨d, h5, h⟩ := ebind_ok.1 h
  cases hf : flavourOf d.1 with
  | none => rw [hf] at h; cases h
  | some f => rw [hf] at h; dsimp only at h; rw [epure_ok] at h; subst h; exact parse4DPat_ok (rdPat_ok h4)

theorem rdRoute_ok {akas : List Aka} {rest : Str} {r : Route} (h : rdRoute akas rest = .ok r) :
    PatOk r.pattern ∧ PatOk r.destPat ∧ ∃ k ∈ akas, k.node = r.aka := by
  unfold rdRoute at h
  obtain ⟨t, h1, h⟩ := ebind_ok.1 h
  obtain ⟨p, h2, h⟩ := ebind_ok.1 h
  obtain ⟨d, h3, h⟩ := ebind_ok.1 h
  obtain ⟨q, h4, h⟩ := ebind_ok.1 h
  obtain ⟨k, h5, h⟩ := ebind_ok.1 h
  obtain ⟨n, h6, h⟩ := ebind_ok.1 h
  cases hf : akas.find? fun a => compare4D n a.node == 0 with
  | none => rw [hf] at h; cases h
  | some a =>
    rw [hf] at h; dsimp only at h; rw [epure_ok] at h; subst h
    exact ⟨parse4DPat_ok (rdPat_ok h2), parse4DDestPat_ok (rdPat_ok h4), a, List.mem_of_find?_eq_some hf, rfl⟩

theorem rdArealistSw_ok {m : Nat} : ∀ (n : Nat) {ws : List Str} {al bl : Arealist}, ws.length ≤ n →
    (al.node < m ∧ al.file.length < 80 ∧ GroupLetter al.group) →
    rdArealistSw al ws = .ok bl → bl.node < m ∧ bl.file.length < 80 ∧ GroupLetter bl.group := by
  intro n
  induction n with
  | zero =>
    intro ws al bl hn ha h
    have : ws = [] := List.length_eq_zero_iff.1 (by omega)
    subst this
    rw [rdArealistSw] at h; cases h; exact ha
  | succ n ih =>
    intro ws al bl hn ha h
    cases ws with
    | nil => rw [rdArealistSw] at h; cases h; exact ha
    | cons w ws =>
      simp only [List.length_cons] at hn
      unfold rdArealistSw at h
      rcases iteq.1 h with ⟨-, h⟩ | ⟨-, h⟩
      · exact ih (by omega) (by exact ha) h
      rcases iteq.1 h with ⟨-, h⟩ | ⟨-, h⟩
      · exact ih (by omega) (by exact ha) h
      rcases iteq.1 h with ⟨-, h⟩ | ⟨-, h⟩
      · cases ws with
        | nil => cases h
        | cons g ws =>
          dsimp only at h
          cases hg : rdGroup g with
          | error e => rw [hg] at h; cases h
          | ok g' =>
            rw [hg] at h
            dsimp only at h
            simp only [List.length_cons] at hn
            exact ih (al := { al with group := g' }) (by omega) ⟨ha.1, ha.2.1, rdGroup_ok hg⟩ h
      · cases h

theorem rdArealist_ok {nodes : List ConfigNode} {rest : Str} {al : Arealist} (h : rdArealist nodes rest = .ok al) :
    al.node < nodes.length ∧ al.file.length < 80 ∧ GroupLetter al.group := by
  unfold rdArealist at h
  obtain ⟨t, h1, h⟩ := ebind_ok.1 h
  obtain ⟨n, h2, h⟩ := ebind_ok.1 h
  obtain ⟨i, h3, h⟩ := ebind_ok.1 h
  obtain ⟨f, h4, h⟩ := ebind_ok.1 h
  exact rdArealistSw_ok _ (Nat.le_refl _) ⟨rdKnown_ok h3, rdArg_len h4 (by decide), Or.inl rfl⟩ h

theorem rdFilter_ok {rest : Str} {f : Filter} (h : rdFilter rest = .ok f) :
    f.text ≠ [] ∧ f.text.length < 400 ∧ ∀ x ∈ f.commands, CommandOk x := by
  unfold rdFilter at h
  dsimp only at h
  rcases iteq.1 h with ⟨hc, h⟩ | ⟨-, h⟩
  · cases h
    refine ⟨by simpa [jbstrcpyrest] using hc, ?_, by simp⟩
    simp only [jbstrcpyrest, List.length_take]
    omega
  · cases h

theorem rdPackerLine_ok {rest : Str} {p : Packer} (h : rdPackerLine rest = .ok p) :
    (p.name.length < 10 ∧ 10 ∉ p.name) ∧ p.cmd.length < 80 ∧ p.unpacker.length < 80 ∧ p.recog.length < 80 := by
  unfold rdPackerLine at h
  obtain ⟨n, h1, h⟩ := ebind_ok.1 h
  obtain ⟨c, h2, h⟩ := ebind_ok.1 h
  obtain ⟨u, h3, h⟩ := ebind_ok.1 h
  obtain ⟨r, h4, h⟩ := ebind_ok.1 h
  rw [epure_ok] at h; subst h
  exact ⟨⟨rdArg_len h1 (by decide), rdArg_oneLine h1⟩, rdArg_len h2 (by decide), rdArg_len h3 (by decide), rdArg_len h4 (by decide)⟩

theorem rdGroupName_ok {rest : Str} {g : Nat × Str} (h : rdGroupName rest = .ok g) : g.2.length < 80 := by
  unfold rdGroupName at h
  obtain ⟨t, h1, h⟩ := ebind_ok.1 h
  obtain ⟨l, h2, h⟩ := ebind_ok.1 h
  rcases iteq.1 h with ⟨-, h⟩ | ⟨-, h⟩
  · cases h
  · obtain ⟨n, h3, h⟩ := ebind_ok.1 h
    rw [epure_ok] at h; subst h
    exact rdArg_len h3 (by decide)

/-- Both parts of what is read. -/
def RdOk (s : RdSt) : Prop := ConfigOk s.cfg ∧ SettingsOk s.set

theorem atoiC_level {v : Int} (h : ¬ (v < 1 ∨ 6 < v)) : 1 ≤ UInt32.ofInt v ∧ UInt32.ofInt v ≤ 6 := by
  have : v = 1 ∨ v = 2 ∨ v = 3 ∨ v = 4 ∨ v = 5 ∨ v = 6 := by omega
  rcases this with rfl | rfl | rfl | rfl | rfl | rfl <;> decide

theorem rdOther_ok {s t : RdSt} {w rest : Str} (hs : RdOk s) (h : rdOther s w rest = some (.ok t)) : RdOk t := by
  obtain ⟨hc, hg⟩ := hs
  unfold rdOther at h
  rcases iteq.1 h with ⟨-, h⟩ | ⟨-, h⟩
  · replace h := Option.some.inj h
    obtain ⟨g, h1, h⟩ := ebind_ok.1 h
    rw [epure_ok] at h; subst h
    refine ⟨{ hc with groupNames := ?_ }, hg⟩
    intro i
    dsimp only
    split
    · exact rdGroupName_ok h1
    · exact hc.groupNames i
  rcases iteq.1 h with ⟨-, h⟩ | ⟨-, h⟩
  · replace h := Option.some.inj h
    obtain ⟨g, h1, h⟩ := ebind_ok.1 h
    rw [epure_ok] at h; subst h
    exact ⟨{ hc with names := forall_snoc hc.names (rdArg_len h1 (by decide)) }, hg⟩
  rcases iteq.1 h with ⟨-, h⟩ | ⟨-, h⟩
  · replace h := Option.some.inj h
    obtain ⟨g, h1, h⟩ := ebind_ok.1 h
    rw [epure_ok] at h; subst h
    refine ⟨{ hc with attach := forall_append hc.attach ?_ }, hg⟩
    intro x hx
    obtain ⟨w, -, e⟩ := emapM_mem h1 x hx
    exact parse4DPat_ok (rdPat_ok e)
  rcases iteq.1 h with ⟨-, h⟩ | ⟨-, h⟩
  · replace h := Option.some.inj h
    obtain ⟨g, h1, h⟩ := ebind_ok.1 h
    rw [epure_ok] at h; subst h
    refine ⟨{ hc with bounce := forall_append hc.bounce ?_ }, hg⟩
    intro x hx
    obtain ⟨w, -, e⟩ := emapM_mem h1 x hx
    exact parse4DPat_ok (rdPat_ok e)
  rcases iteq.1 h with ⟨-, h⟩ | ⟨-, h⟩
  · replace h := Option.some.inj h
    obtain ⟨f, h1, h⟩ := ebind_ok.1 h
    obtain ⟨k, h2, h⟩ := ebind_ok.1 h
    cases hf : nodelistOf k.1 with
    | none => rw [hf] at h; cases h
    | some i =>
      rw [hf] at h; dsimp only at h; rw [epure_ok] at h; subst h
      exact ⟨{ hc with }, { hg with files := ⟨hg.files.1, hg.files.2.1, hg.files.2.2.1, hg.files.2.2.2.1, rdArg_len h1 (by decide)⟩ }⟩
  rcases iteq.1 h with ⟨-, h⟩ | ⟨-, h⟩
  · replace h := Option.some.inj h
    obtain ⟨f, h1, h⟩ := ebind_ok.1 h
    dsimp only at h
    rcases iteq.1 h with ⟨-, h⟩ | ⟨hv, h⟩
    · cases h
    · rw [epure_ok] at h; subst h
      exact ⟨hc, { hg with logLevel := atoiC_level hv }⟩
  rcases iteq.1 h with ⟨-, h⟩ | ⟨-, h⟩
  · replace h := Option.some.inj h
    obtain ⟨f, h1, h⟩ := ebind_ok.1 h
    obtain ⟨k, h2, h⟩ := ebind_ok.1 h
    rw [epure_ok] at h; subst h
    exact ⟨{ hc with }, { hg with files := ⟨hg.files.1, hg.files.2.1, rdArg_len h1 (by decide), hg.files.2.2.2.1, hg.files.2.2.2.2⟩ }⟩
  rcases iteq.1 h with ⟨-, h⟩ | ⟨-, h⟩
  · replace h := Option.some.inj h
    obtain ⟨f, h1, h⟩ := ebind_ok.1 h
    repeat
      rcases iteq.1 h with ⟨-, h⟩ | ⟨-, h⟩
      · rw [epure_ok] at h; subst h
        exact ⟨{ hc with modes := ⟨by simp, hc.modes.2⟩ }, hg⟩
    cases h
  rcases iteq.1 h with ⟨-, h⟩ | ⟨-, h⟩
  · replace h := Option.some.inj h
    obtain ⟨f, h1, h⟩ := ebind_ok.1 h
    repeat
      rcases iteq.1 h with ⟨-, h⟩ | ⟨-, h⟩
      · rw [epure_ok] at h; subst h
        exact ⟨{ hc with modes := ⟨hc.modes.1, by simp⟩ }, hg⟩
    cases h
  rcases iteq.1 h with ⟨-, h⟩ | ⟨-, h⟩
  · replace h := Option.some.inj h
    obtain ⟨p, h1, h⟩ := ebind_ok.1 h
    rw [epure_ok] at h; subst h
    refine ⟨{ hc with packers := forall_snoc hc.packers (rdPackerLine_ok h1), nodes := ?_, packing := ?_ }, hg⟩
    · intro n hn
      exact (hc.nodes n hn).mono (by simp)
    · intro n hn
      exact (hc.packing n hn).snoc p
  rcases iteq.1 h with ⟨-, h⟩ | ⟨-, h⟩
  · replace h := Option.some.inj h
    obtain ⟨p, h1, h⟩ := ebind_ok.1 h
    rw [epure_ok] at h; subst h
    exact ⟨{ hc with routes := forall_snoc hc.routes (rdRoute_ok h1) }, hg⟩
  rcases iteq.1 h with ⟨-, h⟩ | ⟨-, h⟩
  · replace h := Option.some.inj h
    obtain ⟨p, h1, h⟩ := ebind_ok.1 h
    rw [epure_ok] at h; subst h
    exact ⟨{ hc with changes := forall_snoc hc.changes (rdChange_ok h1) }, hg⟩
  rcases iteq.1 h with ⟨-, h⟩ | ⟨-, h⟩
  · replace h := Option.some.inj h
    obtain ⟨p, h1, h⟩ := ebind_ok.1 h
    rw [epure_ok] at h; subst h
    exact ⟨{ hc with arealists := forall_snoc hc.arealists (rdArealist_ok h1) }, hg⟩
  rcases iteq.1 h with ⟨-, h⟩ | ⟨-, h⟩
  · replace h := Option.some.inj h
    obtain ⟨p, h1, h⟩ := ebind_ok.1 h
    rw [epure_ok] at h; subst h
    exact ⟨{ hc with filters := forall_snoc hc.filters (rdFilter_ok h1) }, hg⟩
  repeat
    rcases iteq.1 h with ⟨-, h⟩ | ⟨-, h⟩
    · replace h := Option.some.inj h
      obtain ⟨p, h1, h⟩ := ebind_ok.1 h
      rw [epure_ok] at h; subst h
      exact ⟨{ hc with }, { hg with }⟩
  cases h

theorem pathSettings_ok {p : Str × Nat × (RdSt → Str → RdSt)} (hp : p ∈ pathSettings) {s : RdSt} (hs : RdOk s) {v : Str}
    (hv : v.length < p.2.1) : RdOk (p.2.2 s v) := by
  obtain ⟨hc, hg⟩ := hs
  simp only [pathSettings, List.mem_cons, List.not_mem_nil, or_false] at hp
  rcases hp with rfl | rfl | rfl | rfl | rfl | rfl | rfl | rfl | rfl | rfl | rfl <;> dsimp only at hv
  · exact ⟨{ hc with paths := ⟨hc.paths.1, hv, hc.paths.2.2⟩ }, hg⟩
  · exact ⟨hc, { hg with dirs := ⟨hv, hg.dirs.2⟩ }⟩
  · exact ⟨{ hc with paths := ⟨by dsimp only; omega, hc.paths.2⟩ }, hg⟩
  · exact ⟨hc, { hg with commands := ⟨by dsimp only; omega, hg.commands.2⟩ }⟩
  · exact ⟨hc, { hg with commands := ⟨hg.commands.1, by dsimp only; omega⟩ }⟩
  · exact ⟨hc, { hg with files := ⟨hg.files.1, hg.files.2.1, hg.files.2.2.1, hv, hg.files.2.2.2.2⟩ }⟩
  · exact ⟨hc, { hg with files := ⟨hv, hg.files.2⟩ }⟩
  · exact ⟨hc, { hg with files := ⟨hg.files.1, hv, hg.files.2.2⟩ }⟩
  · exact ⟨hc, { hg with dirs := ⟨hg.dirs.1, hv, hg.dirs.2.2⟩ }⟩
  · exact ⟨hc, { hg with dirs := ⟨hg.dirs.1, hg.dirs.2.1, hv⟩ }⟩
  · exact ⟨{ hc with paths := ⟨hc.paths.1, hc.paths.2.1, hv⟩ }, hg⟩

theorem pathSettings_pos {p : Str × Nat × (RdSt → Str → RdSt)} (hp : p ∈ pathSettings) : 0 < p.2.1 := by
  simp only [pathSettings, List.mem_cons, List.not_mem_nil, or_false] at hp
  rcases hp with rfl | rfl | rfl | rfl | rfl | rfl | rfl | rfl | rfl | rfl | rfl <;> decide

theorem rdRest_ok {s t : RdSt} {w rest : Str} (hs : RdOk s) (h : rdRest s w rest = .ok t) : RdOk t := by
  have hs' := hs
  obtain ⟨hc, hg⟩ := hs'
  unfold rdRest at h
  rcases iteq.1 h with ⟨-, h⟩ | ⟨-, h⟩
  · obtain ⟨k, h1, h⟩ := ebind_ok.1 h
    rw [epure_ok] at h; subst h
    unfold rdAka at h1
    obtain ⟨x, h2, h1⟩ := ebind_ok.1 h1
    obtain ⟨n, h3, h1⟩ := ebind_ok.1 h1
    rw [epure_ok] at h1; subst h1
    refine ⟨{ hc with akas := forall_snoc hc.akas ⟨by simp, by simp⟩, areas := ?_, routes := ?_ }, hg⟩
    · intro a ha; exact (hc.areas a ha).mono (by simp) (Nat.le_refl _)
    · intro r hr
      obtain ⟨e1, e2, k, hk, e3⟩ := hc.routes r hr
      exact ⟨e1, e2, k, by simp [hk], e3⟩
  rcases iteq.1 h with ⟨-, h⟩ | ⟨-, h⟩
  · cases hk : s.cfg.akas.getLast? with
    | none => rw [hk] at h; cases h
    | some k =>
      rw [hk] at h; dsimp only at h
      obtain ⟨m, h1, h⟩ := ebind_ok.1 h
      rw [epure_ok] at h; subst h
      obtain ⟨e1, e2⟩ := rdAkaCmd_ok (hc.akas k (getLast_mem hk)) h1
      have hlen : (s.cfg.akas.dropLast ++ [m]).length = s.cfg.akas.length := length_relast hk
      refine ⟨{ hc with akas := forall_relast hc.akas hk e2, areas := ?_, routes := ?_ }, hg⟩
      · intro a ha; exact (hc.areas a ha).mono (by dsimp only; omega) (Nat.le_refl _)
      · intro r hr
        obtain ⟨e3, e4, k', hk', e5⟩ := hc.routes r hr
        refine ⟨e3, e4, ?_⟩
        rw [getLast_split hk] at hk'
        rcases List.mem_append.1 hk' with hk' | hk'
        · exact ⟨k', by simp [hk'], e5⟩
        · rw [List.mem_singleton] at hk'; subst hk'
          exact ⟨m, by simp, by rw [e1, e5]⟩
  rcases iteq.1 h with ⟨-, h⟩ | ⟨-, h⟩
  · cases hf : s.cfg.filters.getLast? with
    | none => rw [hf] at h; cases h
    | some f =>
      rw [hf] at h; dsimp only at h
      obtain ⟨m, h1, h⟩ := ebind_ok.1 h
      rw [epure_ok] at h; subst h
      have := hc.filters f (getLast_mem hf)
      refine ⟨{ hc with filters := forall_relast hc.filters hf ⟨this.1, this.2.1, forall_snoc this.2.2 (rdFilterCmd_ok h1)⟩ }, hg⟩
  cases h1 : switchOf cfgSwitches w with
  | some v => rw [h1] at h; dsimp only at h; cases h; exact ⟨{ hc with }, hg⟩
  | none =>
    rw [h1] at h; dsimp only at h
    cases h2 : switchOf msgSwitches w with
    | some v => rw [h2] at h; dsimp only at h; cases h; exact ⟨hc, { hg with }⟩
    | none =>
      rw [h2] at h; dsimp only at h
      cases h3 : switchOf jamSwitches w with
      | some v => rw [h3] at h; dsimp only at h; cases h; exact ⟨hc, { hg with }⟩
      | none =>
        rw [h3] at h; dsimp only at h
        cases h4 : pathSettings.find? fun p => eqi w p.1 with
        | some p =>
          rw [h4] at h; dsimp only at h
          have hp := List.mem_of_find?_eq_some h4
          obtain ⟨v, h5, h⟩ := ebind_ok.1 h
          rw [epure_ok] at h; subst h
          exact pathSettings_ok hp hs (rdArg_len h5 (pathSettings_pos hp))
        | none =>
          rw [h4] at h; dsimp only at h
          cases h5 : rdOther s w rest with
          | some r => rw [h5] at h; dsimp only at h; subst h; exact rdOther_ok hs h5
          | none =>
            rw [h5] at h; dsimp only at h
            rcases iteq.1 h with ⟨-, h⟩ | ⟨-, h⟩
            · cases h
            · cases h; exact hs

theorem rdLine_ok {s t : RdSt} {l : Str} (hs : RdOk s) (h : rdLine s l = .ok t) : RdOk t := by
  have hs' := hs
  obtain ⟨hc, hg⟩ := hs'
  unfold rdLine at h
  dsimp only at h
  rcases iteq.1 h with ⟨-, h⟩ | ⟨-, h⟩
  · obtain ⟨a, h1, h⟩ := ebind_ok.1 h
    rw [epure_ok] at h; subst h
    exact ⟨{ hc with areas := forall_snoc hc.areas (rdArea_ok h1) }, hg⟩
  rcases iteq.1 h with ⟨-, h⟩ | ⟨-, h⟩
  · cases ha : s.cfg.areas.getLast? with
    | none => rw [ha] at h; cases h
    | some a =>
      rw [ha] at h; dsimp only at h
      obtain ⟨b, h1, h⟩ := ebind_ok.1 h
      rw [epure_ok] at h; subst h
      exact ⟨{ hc with areas := forall_relast hc.areas ha (rdAreaCmd_ok (hc.areas a (getLast_mem ha)) h1) }, hg⟩
  rcases iteq.1 h with ⟨-, h⟩ | ⟨-, h⟩
  · obtain ⟨n, h1, h⟩ := ebind_ok.1 h
    rw [epure_ok] at h; subst h
    refine ⟨{ hc with nodes := forall_snoc hc.nodes (rdNodeLine_ok h1), packing := forall_snoc hc.packing (rdNodeLine_packer h1), areas := ?_, arealists := ?_ }, hg⟩
    · intro a ha; exact (hc.areas a ha).mono (Nat.le_refl _) (by simp)
    · intro l hl
      have := hc.arealists l hl
      exact ⟨by simp; omega, this.2⟩
  rcases iteq.1 h with ⟨-, h⟩ | ⟨-, h⟩
  · cases hn : s.cfg.nodes.getLast? with
    | none => rw [hn] at h; cases h
    | some n =>
      rw [hn] at h; dsimp only at h
      obtain ⟨m, h1, h⟩ := ebind_ok.1 h
      rw [epure_ok] at h; subst h
      have hlen : (s.cfg.nodes.dropLast ++ [m]).length = s.cfg.nodes.length := length_relast hn
      refine ⟨{ hc with nodes := forall_relast hc.nodes hn (rdNodeCmd_ok (hc.nodes n (getLast_mem hn)) h1), packing := forall_relast hc.packing hn ((hc.packing n (getLast_mem hn)).same (rdNodeCmd_same h1).2), areas := ?_, arealists := ?_ }, hg⟩
      · intro a ha; exact (hc.areas a ha).mono (Nat.le_refl _) (by dsimp only; omega)
      · intro l hl
        have := hc.arealists l hl
        exact ⟨by dsimp only; omega, this.2⟩
  · exact rdRest_ok hs h

end CM
