import Verif.Lemmas.ReadConfig
import Verif.Spec.ReadHazard
/-! # When reading the configuration has undefined behaviour -/
set_option linter.unusedSimpArgs false

namespace CM

/-- No undefined behaviour. -/
def NoUb {α : Type} (x : Except RdErr α) : Prop := ∀ u, x ≠ .error (.ub u)

theorem NoUb.ok {α : Type} (a : α) : NoUb (.ok a : Except RdErr α) := fun _ h => nomatch h
theorem NoUb.pure {α : Type} (a : α) : NoUb (Pure.pure a : Except RdErr α) := fun _ h => nomatch h
theorem NoUb.invalid {α : Type} : NoUb (.error .invalid : Except RdErr α) := fun _ h => nomatch h

theorem NoUb.bind {α β : Type} {x : Except RdErr α} {f : α → Except RdErr β} (hx : NoUb x) (hf : ∀ a, x = .ok a → NoUb (f a)) :
    NoUb (x >>= f) := by
  cases x with
  | error e =>
    intro u h
    cases h
    exact hx u rfl
  | ok a => exact hf a rfl

theorem NoUb.ite {α : Type} {c : Prop} [Decidable c] {x y : Except RdErr α} (hx : c → NoUb x) (hy : ¬ c → NoUb y) :
    NoUb (if c then x else y) := by
  by_cases h : c
  · rw [if_pos h]; exact hx h
  · rw [if_neg h]; exact hy h

theorem NoUb.mapM {α β : Type} {f : α → Except RdErr β} : ∀ {l : List α}, (∀ a ∈ l, NoUb (f a)) → NoUb (l.mapM f) := by
  intro l
  induction l with
  | nil => intro _; rw [List.mapM_nil]; exact .pure _
  | cons a l ih =>
    intro h
    rw [List.mapM_cons]
    exact .bind (h a (by simp)) fun _ _ => .bind (ih fun b hb => h b (by simp [hb])) fun _ _ => .pure _

theorem NoUb.foldlM {σ α : Type} {f : σ → α → Except RdErr σ} (h : ∀ s a, NoUb (f s a)) : ∀ (l : List α) (s : σ), NoUb (l.foldlM f s) := by
  intro l
  induction l with
  | nil => intro s; rw [List.foldlM_nil]; exact .pure _
  | cons a l ih => intro s; rw [List.foldlM_cons]; exact .bind (h s a) fun t _ => ih t

theorem rdArg_noUb (n : Nat) (s : Str) : NoUb (rdArg n s) := by
  unfold rdArg; exact .ite (fun _ => .ok _) fun _ => .invalid

theorem rdNode_noUb (s : Str) : NoUb (rdNode s) := by
  unfold rdNode; split
  · exact .ok _
  · exact .invalid

theorem rdKnown_noUb (ns : List ConfigNode) (n : Node4D) : NoUb (rdKnown ns n) := by
  unfold rdKnown; split
  · exact .invalid
  · exact .ok _

theorem rdGroup_noUb (s : Str) : NoUb (rdGroup s) := by
  unfold rdGroup; exact .ite (fun _ => .ok _) fun _ => .invalid

theorem rdExport_noUb (ns : List ConfigNode) : ∀ (ws : List Str) (t : Node4D), NoUb (rdExport ns t ws) := by
  intro ws
  induction ws with
  | nil => intro t; exact .ok _
  | cons w ws ih =>
    intro t
    unfold rdExport
    dsimp only
    split
    · exact .invalid
    · exact .bind (rdKnown_noUb _ _) fun _ _ => .bind (ih _) fun _ _ => .pure _

theorem rdBanned_noUb (ns : List ConfigNode) : ∀ (ws : List Str), NoUb (rdBanned ns ws) := by
  intro ws
  induction ws with
  | nil => exact .ok _
  | cons w ws ih =>
    unfold rdBanned
    exact .bind (rdNode_noUb _) fun _ _ => .bind (rdKnown_noUb _ _) fun _ _ => .bind ih fun _ _ => .pure _

theorem rdBase_noUb (s : Str) : NoUb (rdBase s) := by
  unfold rdBase
  refine .ite (fun _ => ?_) fun _ => .ok _
  split
  · exact .invalid
  · exact .bind (rdArg_noUb _ _) fun _ _ => .pure _

theorem rdAreaType_noUb (w t p : Str) (b : Option Nat) : NoUb (rdAreaType w t p b) := by
  unfold rdAreaType
  exact .ite (fun _ => .ite (fun _ => .invalid) fun _ => .ok _) fun _ => .ite (fun _ => .ite (fun _ => .invalid) fun _ => .ok _) fun _ =>
    .ite (fun _ => .ite (fun _ => .invalid) fun _ => .ok _) fun _ => .ite (fun _ => .ok _) fun _ => .ok _

theorem rdArea_noUb (ks : List Aka) (w r : Str) : NoUb (rdArea ks w r) := by
  unfold rdArea
  refine .bind (rdArg_noUb _ _) fun _ _ => .bind (rdArg_noUb _ _) fun _ _ => .bind (rdNode_noUb _) fun _ _ => ?_
  split
  · exact .invalid
  · exact .bind (rdBase_noUb _) fun _ _ => .bind (rdAreaType_noUb _ _ _ _) fun _ _ => .pure _

theorem rdAreaCmd_noUb (ns : List ConfigNode) (w r : Str) (a : Area) : NoUb (rdAreaCmd ns w r a) := by
  unfold rdAreaCmd
  refine .ite (fun _ => .ok _) fun _ => .ite (fun _ => .ok _) fun _ => .ite (fun _ => .ok _) fun _ => .ite (fun _ => .ok _) fun _ =>
    .ite (fun _ => .ok _) fun _ => .ite (fun _ => ?_) fun _ => .ite (fun _ => ?_) fun _ => .ite (fun _ => ?_) fun _ =>
    .ite (fun _ => ?_) fun _ => .ite (fun _ => ?_) fun _ => .ite (fun _ => ?_) fun _ => ?_
  · exact .ite (fun _ => .invalid) fun _ => .bind (rdExport_noUb _ _ _) fun _ _ => .pure _
  · exact .ite (fun _ => .invalid) fun _ => .bind (.mapM fun _ _ => rdNode_noUb _) fun _ _ => .pure _
  · exact .bind (rdBanned_noUb _ _) fun _ _ => .pure _
  · exact .bind (rdArg_noUb _ _) fun _ _ => .pure _
  · exact .bind (rdArg_noUb _ _) fun _ _ => .bind (rdGroup_noUb _) fun _ _ => .pure _
  · exact .bind (rdArg_noUb _ _) fun _ _ => .pure _
  · exact .bind (rdArg_noUb _ _) fun _ _ => .pure _

theorem rdSwitch_noUb (n : ConfigNode) (w : Str) : NoUb (rdSwitch n w) := by
  unfold rdSwitch
  repeat refine .ite (fun _ => .ok _) fun _ => ?_
  exact .invalid

theorem rdPacker_noUb (ps : List Packer) (s : Str) : NoUb (rdPacker ps s) := by
  unfold rdPacker
  refine .ite (fun _ => .ok _) fun _ => ?_
  split
  · exact .invalid
  · exact .ok _

theorem rdNodeLine_noUb (ps : List Packer) (r : Str) : NoUb (rdNodeLine ps r) := by
  unfold rdNodeLine
  exact .bind (rdArg_noUb _ _) fun _ _ => .bind (rdNode_noUb _) fun _ _ => .bind (rdArg_noUb _ _) fun _ _ =>
    .bind (rdPacker_noUb _ _) fun _ _ => .bind (rdArg_noUb _ _) fun _ _ => .foldlM rdSwitch_noUb _ _

theorem rdFit_noUb {n : Nat} {s : Str} (h : s.length < n) : NoUb (rdFit n s) := by
  unfold rdFit; rw [if_pos h]; exact .ok _

theorem rdGroups_noUb {s : Str} (h : (jbstrcpy 70 s).1.length < 30) : NoUb (rdGroups s) := by
  unfold rdGroups
  refine .ite (fun _ => ?_) fun _ => .ok _
  exact .bind (rdFit_noUb h) fun _ _ => .ite (fun _ => .pure _) fun _ => .invalid

theorem rdGroups_rest {s : Str} {r : Str × Str} (h : rdGroups s = .ok r) : r.2 = (jbstrcpy 70 s).2.1 := by
  unfold rdGroups at h
  dsimp only at h
  rcases iteq.1 h with ⟨-, h⟩ | ⟨-, h⟩
  · obtain ⟨g, -, h⟩ := ebind_ok.1 h
    rcases iteq.1 h with ⟨-, h⟩ | ⟨-, h⟩
    · rw [epure_ok] at h; subst h; rfl
    · cases h
  · cases h; rfl

theorem rdNodeCmd_noUb {w r : Str} (hz : ¬ HazardWords w r) (n : ConfigNode) : NoUb (rdNodeCmd w r n) := by
  unfold rdNodeCmd
  refine .ite (fun _ => ?_) fun _ => .ite (fun hw => ?_) fun _ => .ite (fun _ => ?_) fun _ => .ite (fun _ => ?_) fun _ => ?_
  · exact .bind (rdArg_noUb _ _) fun _ _ => .bind (rdNode_noUb _) fun _ _ => .pure _
  · have hg : ∀ g ∈ (fieldsAt [40, 70, 70, 70] r).tail, g.length < 30 := by
      intro g hg
      apply Nat.lt_of_not_le
      intro hl
      exact hz (Or.inr (Or.inl ⟨hw, g, hg, hl⟩))
    simp only [fieldsAt, List.tail_cons, List.mem_cons, List.not_mem_nil, or_false] at hg
    refine .bind (rdArg_noUb _ _) fun t ht => ?_
    rw [(rdArg_ok ht).2]
    dsimp only
    refine .bind (rdGroups_noUb (hg _ (Or.inl rfl))) fun g e1 => ?_
    rw [rdGroups_rest e1]
    refine .bind (rdGroups_noUb (hg _ (Or.inr (Or.inl rfl)))) fun g2 e2 => ?_
    rw [rdGroups_rest e2]
    exact .bind (rdGroups_noUb (hg _ (Or.inr (Or.inr rfl)))) fun g3 e3 => .pure _
  · exact .bind (rdArg_noUb _ _) fun _ _ => .bind (rdGroup_noUb _) fun _ _ => .pure _
  · refine .bind (rdArg_noUb _ _) fun _ _ => .bind (rdArg_noUb _ _) fun _ _ => .foldlM (fun n w => ?_) _ _
    unfold rdPlus
    exact .ite (fun _ => .ok _) fun _ => .invalid
  · exact .bind (rdArg_noUb _ _) fun _ _ => .pure _

/-! ## Patterns -/

theorem rdPat_noUb {α : Type} {x : Except UB (Option α)} (h : ∀ u, x ≠ .error u) : NoUb (rdPat x) := by
  cases x with
  | error u => exact absurd rfl (h u)
  | ok o => cases o with
    | none => exact .invalid
    | some p => exact .ok _

theorem rpStep_temp {s t : RP} {c : UInt8} (h : rpStep s c = .ok (some t)) (hs : s.temp ≠ none) : t.temp ≠ none := by
  unfold rpStep useTemp at h
  cases ht : s.temp with
  | none => exact absurd ht hs
  | some x =>
    rw [ht] at h
    dsimp only at h
    rcases iteq.1 h with ⟨-, h⟩ | ⟨-, h⟩
    · rcases iteq.1 h with ⟨-, h⟩ | ⟨-, h⟩
      · cases h
      · cases h; simp [ht]
    rcases iteq.1 h with ⟨-, h⟩ | ⟨-, h⟩
    · rcases iteq.1 h with ⟨-, h⟩ | ⟨-, h⟩
      · cases h
      · cases h; simp [ht]
    rcases iteq.1 h with ⟨-, h⟩ | ⟨-, h⟩
    · rcases iteq.1 h with ⟨-, h⟩ | ⟨-, h⟩
      · cases h
      · cases h; simp [ht]
    rcases iteq.1 h with ⟨-, h⟩ | ⟨-, h⟩
    · rcases iteq.1 h with ⟨-, h⟩ | ⟨-, h⟩
      · cases h; simp
      · cases h; exact hs
    · cases h

theorem rpStep_noUb {s : RP} {c : UInt8} (hs : s.temp ≠ none) (u : UB) : rpStep s c ≠ .error u := by
  intro h
  unfold rpStep useTemp at h
  cases ht : s.temp with
  | none => exact absurd ht hs
  | some x =>
    rw [ht] at h
    dsimp only at h
    rcases iteq.1 h with ⟨-, h⟩ | ⟨-, h⟩
    · rcases iteq.1 h with ⟨-, h⟩ | ⟨-, h⟩ <;> cases h
    rcases iteq.1 h with ⟨-, h⟩ | ⟨-, h⟩
    · rcases iteq.1 h with ⟨-, h⟩ | ⟨-, h⟩ <;> cases h
    rcases iteq.1 h with ⟨-, h⟩ | ⟨-, h⟩
    · rcases iteq.1 h with ⟨-, h⟩ | ⟨-, h⟩ <;> cases h
    rcases iteq.1 h with ⟨-, h⟩ | ⟨-, h⟩
    · rcases iteq.1 h with ⟨-, h⟩ | ⟨-, h⟩ <;> cases h
    · cases h

theorem rpLoop_noUb : ∀ (r : Str) (s : RP), s.temp ≠ none → (∀ u, rpLoop s r ≠ .error u) ∧ ∀ t, rpLoop s r = .ok (some t) → t.temp ≠ none := by
  intro r
  induction r with
  | nil => intro s hs; exact ⟨fun _ h => (nomatch h), fun _ h => by cases h; exact hs⟩
  | cons c r ih =>
    intro s hs
    unfold rpLoop
    cases h : rpStep s c with
    | error e => exact absurd h (rpStep_noUb hs e)
    | ok o =>
      cases o with
      | none => exact ⟨fun _ h => (nomatch h), fun _ h => (nomatch h)⟩
      | some s' => exact ih s' (rpStep_temp h hs)

theorem rpFin_noUb {s : RP} (hs : s.temp ≠ none) (u : UB) : rpFin s ≠ .error u := by
  intro h
  unfold rpFin useTemp at h
  cases ht : s.temp with
  | none => exact absurd ht hs
  | some x =>
    rw [ht] at h
    dsimp only at h
    rcases iteq.1 h with ⟨-, h⟩ | ⟨-, h⟩
    · cases h
    rcases iteq.1 h with ⟨-, h⟩ | ⟨-, h⟩ <;> cases h

theorem raw_noUb {ty : PatType} {s : Str} (h : ¬ NoFirstPart s) (u : UB) : rawParse4DPat ty s ≠ .error u := by
  intro e
  unfold rawParse4DPat at e
  dsimp only at e
  rcases iteq.1 e with ⟨-, e⟩ | ⟨-, e⟩
  · cases e
  cases s with
  | nil => exact h (Or.inl rfl)
  | cons c r =>
    have h1 : c ≠ 58 := fun hc => h (Or.inr (Or.inl (by simp [hc])))
    have h2 : c ≠ 47 := fun hc => h (Or.inr (Or.inr (Or.inl (by simp [hc]))))
    have h3 : c ≠ 46 := fun hc => h (Or.inr (Or.inr (Or.inr (by simp [hc]))))
    unfold rpLoop rpStep at e
    rw [if_neg h1, if_neg h2, if_neg h3] at e
    by_cases hp : isPatChar c = true
    · rw [if_pos hp, if_pos (by simp)] at e
      dsimp only at e
      have k := rpLoop_noUb r { pat := ⟨ty, b!"*", b!"*", b!"*", b!"*"⟩, temp := some (((none : Option Str).getD []).take 0 ++ [c]), tempc := 0 + 1 } (by simp)
      generalize rpLoop _ r = x at e k
      cases x with
      | error e' => exact k.1 e' rfl
      | ok o =>
        cases o with
        | none => cases e
        | some t =>
          dsimp only at e
          cases hf : rpFin t with
          | error e' => exact rpFin_noUb (k.2 t rfl) e' hf
          | ok p => rw [hf] at e; cases e
    · rw [if_neg hp] at e; cases e

theorem map_noUb {α β : Type} {x : Except UB α} {f : α → β} (h : ∀ u, x ≠ .error u) (u : UB) : x.map f ≠ .error u := by
  cases x with
  | error e => exact absurd rfl (h e)
  | ok a => intro h; cases h

theorem parse4DPat_noUb {s : Str} (h : ¬ NoFirstPart' s) (u : UB) : parse4DPat s ≠ .error u := by
  simp only [NoFirstPart', not_or, not_and] at h
  intro e
  unfold parse4DPat at e
  rcases iteq.1 e with ⟨c, e⟩ | ⟨-, e⟩
  · exact map_noUb (raw_noUb (h.2.1 c)) _ e
  rcases iteq.1 e with ⟨c, e⟩ | ⟨-, e⟩
  · exact map_noUb (raw_noUb (h.2.2.1 c)) _ e
  rcases iteq.1 e with ⟨c, e⟩ | ⟨-, e⟩
  · exact map_noUb (raw_noUb (h.2.2.2.1 c)) _ e
  rcases iteq.1 e with ⟨c, e⟩ | ⟨-, e⟩
  · exact map_noUb (raw_noUb (h.2.2.2.2.1 c)) _ e
  rcases iteq.1 e with ⟨c, e⟩ | ⟨-, e⟩
  · exact map_noUb (raw_noUb (h.2.2.2.2.2 c)) _ e
  · exact raw_noUb h.1 _ e

theorem parse4DDestPat_noUb {s : Str} (h : ¬ NoFirstPart' s) (u : UB) : parse4DDestPat s ≠ .error u := by
  intro e
  unfold parse4DDestPat at e
  rcases iteq.1 e with ⟨c, e⟩ | ⟨-, e⟩
  · cases e
  rcases iteq.1 e with ⟨c, e⟩ | ⟨-, e⟩
  · cases e
  rcases iteq.1 e with ⟨c, e⟩ | ⟨-, e⟩
  · cases e
  rcases iteq.1 e with ⟨c, e⟩ | ⟨-, e⟩
  · cases e
  rcases iteq.1 e with ⟨c, e⟩ | ⟨-, e⟩
  · cases e
  · exact raw_noUb (fun hn => h (Or.inl hn)) _ e

theorem p2Loop_noUb : ∀ (r : Str) (s : P2), s.temp ≠ none → (∀ u, p2Loop s r ≠ .error u) ∧ ∀ t, p2Loop s r = .ok (some t) → t.temp ≠ none := by
  intro r
  induction r with
  | nil => intro s hs; exact ⟨fun _ h => (nomatch h), fun _ h => by cases h; exact hs⟩
  | cons c r ih =>
    intro s hs
    unfold p2Loop
    by_cases h1 : c = 47
    · rw [if_pos h1]
      by_cases h2 : s.gotNet = true
      · rw [if_pos h2]; exact ⟨fun _ h => (nomatch h), fun _ h => (nomatch h)⟩
      · rw [if_neg h2]
        cases ht : s.temp with
        | none => exact absurd ht hs
        | some x => exact ih _ (by simpa using hs)
    · rw [if_neg h1]
      by_cases h2 : isPatChar c = true
      · rw [if_pos h2]
        by_cases h3 : s.tempc < 9
        · rw [if_pos h3]; exact ih _ (by simp)
        · rw [if_neg h3]; exact ih _ hs
      · rw [if_neg h2]; exact ⟨fun _ h => (nomatch h), fun _ h => (nomatch h)⟩

theorem parse2DPat_noUb {s : Str} (h : ¬ NoFirstPart s) (u : UB) : parse2DPat s ≠ .error u := by
  intro e
  unfold parse2DPat at e
  rcases iteq.1 e with ⟨-, e⟩ | ⟨-, e⟩
  · cases e
  cases s with
  | nil => exact h (Or.inl rfl)
  | cons c r =>
    have h2 : c ≠ 47 := fun hc => h (Or.inr (Or.inr (Or.inl (by simp [hc]))))
    unfold p2Loop at e
    rw [if_neg h2] at e
    by_cases hp : isPatChar c = true
    · rw [if_pos hp, if_pos (by simp)] at e
      have k := p2Loop_noUb r { pat := ⟨b!"*", b!"*"⟩, temp := some (((none : Option Str).getD []).take 0 ++ [c]), tempc := 0 + 1 } (by simp)
      generalize p2Loop _ r = x at e k
      cases x with
      | error e' => exact k.1 e' rfl
      | ok o =>
        cases o with
        | none => cases e
        | some t =>
          dsimp only at e
          cases ht : t.temp with
          | none => exact k.2 t rfl ht
          | some x => rw [ht] at e; cases e
    · rw [if_neg hp] at e; cases e

/-! ## The other lines -/

theorem rdAkaCmd_noUb {w r : Str} (hz : ¬ HazardWords w r) (k : Aka) (hw : akaCmdWords.any (eqi w) = true) : NoUb (rdAkaCmd w r k) := by
  simp only [HazardWords, not_or, not_and, not_exists] at hz
  unfold rdAkaCmd
  refine .ite (fun _ => ?_) fun h1 => .ite (fun hw => ?_) fun h2 => ?_
  · exact .bind (.mapM fun _ _ => rdNode_noUb _) fun _ _ => .pure _
  · refine .bind (.mapM fun p hp => rdPat_noUb (parse2DPat_noUb ?_)) fun _ _ => .pure _
    exact hz.2.2.2.1 hw p hp
  · have hd : eqi w b!"DOMAIN" = true := by simpa [akaCmdWords, h1, h2] using hw
    refine .bind (rdArg_noUb _ _) fun t ht => ?_
    rw [(rdArg_ok ht).2]
    refine .bind (rdFit_noUb ?_) fun _ _ => .pure _
    have := hz.1 hd (jbstrcpy 200 r).1 (by simp [fieldsAt])
    dsimp only
    omega

theorem rdFilterCmd_noUb {w r : Str} (hz : ¬ HazardWords w r) (hw : filterCmdWords.any (eqi w) = true) : NoUb (rdFilterCmd w r) := by
  simp only [HazardWords, not_or, not_and, not_exists] at hz
  unfold rdFilterCmd
  refine .ite (fun _ => .ok _) fun n1 => .ite (fun _ => .ok _) fun n2 => .bind (rdArg_noUb _ _) fun t ht => ?_
  refine .ite (fun _ => .pure _) fun n3 => .ite (fun _ => .pure _) fun n4 => .ite (fun _ => .pure _) fun n5 =>
    .ite (fun _ => .pure _) fun n6 => .ite (fun _ => .pure _) fun n7 => .ite (fun _ => .pure _) fun n8 => ?_
  have hd : eqi w b!"REMAPMSG" = true ∨ eqi w b!"MASQUERADE" = true := by
    simpa [filterCmdWords, n1, n2, n3, n4, n5, n6, n7, n8] using hw
  rw [(rdArg_ok ht).2]
  refine .bind (rdArg_noUb _ _) fun d hd' => ?_
  rw [(rdArg_ok hd').2]
  refine .bind (rdPat_noUb (parse4DDestPat_noUb ?_)) fun _ _ => .ite (fun _ => .pure _) fun _ => .pure _
  exact hz.2.2.2.2.2.2.2.2.1 hd _ (by simp [fieldsAt])

theorem atoiC_small {s : Str} (h : ¬ TooBig s) : atoiC s = atoi s := by
  simp only [TooBig, not_or] at h
  have h1 : -2097152 ≤ atoi s := by omega
  have h2 : atoi s ≤ 2097151 := by omega
  have ha : atol s = atoi s := by unfold atol; omega
  unfold atoiC
  rw [ha]
  have : (UInt32.ofInt (atoi s)).toInt32 = Int32.ofInt (atoi s) := by
    apply Int32.toBitVec_inj.1
    apply BitVec.eq_of_toNat_eq
    show (UInt32.ofInt (atoi s)).toNat = (BitVec.ofInt 32 (atoi s)).toNat
    rw [BitVec.toNat_ofInt, UInt32.ofInt, UInt32.toNat_ofNat']
    omega
  rw [this]
  exact Int32.toInt_ofInt_of_le (by omega) (by omega)

theorem rdSize_noUb {r : Str} (h : ¬ TooBig (jbstrcpy 200 r).1) : NoUb (rdSize r) := by
  unfold rdSize
  refine .bind (rdArg_noUb _ _) fun t ht => ?_
  rw [(rdArg_ok ht).2]
  dsimp only
  rw [atoiC_small h]
  simp only [TooBig, not_or] at h
  rw [if_pos (by omega)]
  exact .pure _

theorem rdNum_noUb (r : Str) : NoUb (rdNum r) := by
  unfold rdNum; exact .bind (rdArg_noUb _ _) fun _ _ => .pure _

theorem rdArealistSw_noUb : ∀ (n : Nat) (ws : List Str) (al : Arealist), ws.length ≤ n → NoUb (rdArealistSw al ws) := by
  intro n
  induction n with
  | zero =>
    intro ws al hn
    have : ws = [] := List.length_eq_zero_iff.1 (by omega)
    subst this
    rw [rdArealistSw]; exact .ok _
  | succ n ih =>
    intro ws al hn
    cases ws with
    | nil => rw [rdArealistSw]; exact .ok _
    | cons w ws =>
      simp only [List.length_cons] at hn
      unfold rdArealistSw
      refine .ite (fun _ => ih _ _ (by omega)) fun _ => .ite (fun _ => ih _ _ (by omega)) fun _ => .ite (fun _ => ?_) fun _ => .invalid
      cases ws with
      | nil => exact .invalid
      | cons g ws =>
        dsimp only
        simp only [List.length_cons] at hn
        have hg := rdGroup_noUb g
        cases he : rdGroup g with
        | error e => rw [he] at hg; cases e with
          | ub u => exact absurd rfl (hg u)
          | invalid => exact .invalid
        | ok g' => exact ih _ _ (by omega)

theorem rdArealist_noUb (ns : List ConfigNode) (r : Str) : NoUb (rdArealist ns r) := by
  unfold rdArealist
  exact .bind (rdArg_noUb _ _) fun _ _ => .bind (rdNode_noUb _) fun _ _ => .bind (rdKnown_noUb _ _) fun _ _ =>
    .bind (rdArg_noUb _ _) fun _ _ => rdArealistSw_noUb _ _ _ (Nat.le_refl _)

theorem rdChange_noUb {r : Str} (h : ∀ p ∈ (fieldsAt [200, 200] r).tail, ¬ NoFirstPart' p) : NoUb (rdChange r) := by
  unfold rdChange
  refine .bind (rdArg_noUb _ _) fun t ht => ?_
  have hf : NoUb (rdFlavours t.1) := by
    unfold rdFlavours
    refine .ite (fun _ => .ok _) fun _ => .foldlM (fun c s => ?_) _ _
    unfold rdFlavour
    split <;> first | exact .ok _ | exact .invalid
  refine .bind hf fun _ _ => ?_
  rw [(rdArg_ok ht).2]
  refine .bind (rdArg_noUb _ _) fun p hp => ?_
  rw [(rdArg_ok hp).2]
  refine .bind (rdPat_noUb (parse4DPat_noUb (h _ (by simp [fieldsAt])))) fun _ _ => .bind (rdArg_noUb _ _) fun d hd => ?_
  cases flavourOf d.1 with
  | none => exact .invalid
  | some f => exact .pure _

theorem rdRoute_noUb {ks : List Aka} {r : Str} (h : ∀ p ∈ fieldsAt [200, 200] r, ¬ NoFirstPart' p) : NoUb (rdRoute ks r) := by
  unfold rdRoute
  refine .bind (rdArg_noUb _ _) fun t ht => ?_
  rw [(rdArg_ok ht).2]
  refine .bind (rdPat_noUb (parse4DPat_noUb (h _ (by simp [fieldsAt])))) fun _ _ => .bind (rdArg_noUb _ _) fun d hd => ?_
  rw [(rdArg_ok hd).2]
  refine .bind (rdPat_noUb (parse4DDestPat_noUb (h _ (by simp [fieldsAt])))) fun _ _ => .bind (rdArg_noUb _ _) fun k hk =>
    .bind (rdNode_noUb _) fun n hn => ?_
  split
  · exact .invalid
  · exact .pure _

theorem rdOther_noUb {s : RdSt} {w r : Str} (hz : ¬ HazardWords w r) {x : Except RdErr RdSt} (h : rdOther s w r = some x) : NoUb x := by
  simp only [HazardWords, not_or, not_and, not_exists] at hz
  unfold rdOther at h
  rcases iteq.1 h with ⟨c, h⟩ | ⟨-, h⟩
  · cases h
    refine .bind ?_ fun _ _ => .pure _
    unfold rdGroupName
    refine .bind (rdArg_noUb _ _) fun t ht => .bind (rdGroup_noUb _) fun g hg => .ite (fun h0 => ?_) fun _ => .bind (rdArg_noUb _ _) fun _ _ => .pure _
    exfalso
    have hne : (jbstrcpy 2 r).1 ≠ [] := by simpa [fieldsAt] using hz.2.2.1 c
    subst h0
    rw [(rdArg_ok ht).2] at hg
    dsimp only at hg
    have hc := hg
    unfold rdGroup at hg
    dsimp only at hg
    rcases iteq.1 hg with ⟨e, hg⟩ | ⟨-, hg⟩
    · have hu := upper_letters _ e
      have hl : (correctFlags (jbstrcpy 2 r).1).1.length = (jbstrcpy 2 r).1.length := by rw [correctFlags_upper _ e, List.length_map]
      cases hs : (correctFlags (jbstrcpy 2 r).1).1 with
      | nil =>
        rw [hs] at hl
        exact hne (List.length_eq_zero_iff.1 (by simpa using hl.symm))
      | cons x y =>
        rw [hs] at hu hg
        have := (hu x (by simp)).1
        simp only [List.headD_cons, Except.ok.injEq] at hg
        subst hg
        exact absurd this (by decide)
    · cases hg
  rcases iteq.1 h with ⟨-, h⟩ | ⟨-, h⟩
  · cases h; exact .bind (rdArg_noUb _ _) fun _ _ => .pure _
  rcases iteq.1 h with ⟨c, h⟩ | ⟨-, h⟩
  · cases h
    exact .bind (.mapM fun p hp => rdPat_noUb (parse4DPat_noUb (hz.2.2.2.2.1 c p hp))) fun _ _ => .pure _
  rcases iteq.1 h with ⟨c, h⟩ | ⟨-, h⟩
  · cases h
    exact .bind (.mapM fun p hp => rdPat_noUb (parse4DPat_noUb (hz.2.2.2.2.2.1 c p hp))) fun _ _ => .pure _
  rcases iteq.1 h with ⟨-, h⟩ | ⟨-, h⟩
  · cases h
    refine .bind (rdArg_noUb _ _) fun _ _ => .bind (rdArg_noUb _ _) fun k _ => ?_
    cases nodelistOf k.1 with
    | none => exact .invalid
    | some i => exact .pure _
  rcases iteq.1 h with ⟨-, h⟩ | ⟨-, h⟩
  · cases h; exact .bind (rdArg_noUb _ _) fun _ _ => .ite (fun _ => .invalid) fun _ => .pure _
  rcases iteq.1 h with ⟨-, h⟩ | ⟨-, h⟩
  · cases h; exact .bind (rdArg_noUb _ _) fun _ _ => .bind (rdArg_noUb _ _) fun _ _ => .pure _
  rcases iteq.1 h with ⟨-, h⟩ | ⟨-, h⟩
  · cases h
    exact .bind (rdArg_noUb _ _) fun _ _ => .ite (fun _ => .pure _) fun _ => .ite (fun _ => .pure _) fun _ => .ite (fun _ => .pure _) fun _ => .invalid
  rcases iteq.1 h with ⟨-, h⟩ | ⟨-, h⟩
  · cases h
    exact .bind (rdArg_noUb _ _) fun _ _ => .ite (fun _ => .pure _) fun _ => .ite (fun _ => .pure _) fun _ => .ite (fun _ => .pure _) fun _ => .invalid
  rcases iteq.1 h with ⟨-, h⟩ | ⟨-, h⟩
  · cases h
    refine .bind ?_ fun _ _ => .pure _
    unfold rdPackerLine
    exact .bind (rdArg_noUb _ _) fun _ _ => .bind (rdArg_noUb _ _) fun _ _ => .bind (rdArg_noUb _ _) fun _ _ => .bind (rdArg_noUb _ _) fun _ _ => .pure _
  rcases iteq.1 h with ⟨c, h⟩ | ⟨-, h⟩
  · cases h; exact .bind (rdRoute_noUb (hz.2.2.2.2.2.2.1 c)) fun _ _ => .pure _
  rcases iteq.1 h with ⟨c, h⟩ | ⟨-, h⟩
  · cases h; exact .bind (rdChange_noUb (hz.2.2.2.2.2.2.2.1 c)) fun _ _ => .pure _
  rcases iteq.1 h with ⟨c, h⟩ | ⟨-, h⟩
  · cases h; exact .bind (rdArealist_noUb _ _) fun _ _ => .pure _
  rcases iteq.1 h with ⟨c, h⟩ | ⟨-, h⟩
  · cases h
    refine .bind ?_ fun _ _ => .pure _
    unfold rdFilter
    exact .ite (fun _ => .ok _) fun _ => .invalid
  rcases iteq.1 h with ⟨c, h⟩ | ⟨-, h⟩
  · cases h; exact .bind (rdSize_noUb (hz.2.2.2.2.2.2.2.2.2 (Or.inl c) _ (by simp [fieldsAt]))) fun _ _ => .pure _
  rcases iteq.1 h with ⟨c, h⟩ | ⟨-, h⟩
  · cases h; exact .bind (rdSize_noUb (hz.2.2.2.2.2.2.2.2.2 (Or.inr c) _ (by simp [fieldsAt]))) fun _ _ => .pure _
  rcases iteq.1 h with ⟨c, h⟩ | ⟨-, h⟩
  · cases h; exact .bind (rdNum_noUb _) fun _ _ => .pure _
  rcases iteq.1 h with ⟨c, h⟩ | ⟨-, h⟩
  · cases h; exact .bind (rdNum_noUb _) fun _ _ => .pure _
  rcases iteq.1 h with ⟨c, h⟩ | ⟨-, h⟩
  · cases h; exact .bind (rdNum_noUb _) fun _ _ => .pure _
  cases h

theorem rdRest_noUb {s : RdSt} {w r : Str} (hz : ¬ HazardWords w r) : NoUb (rdRest s w r) := by
  unfold rdRest
  refine .ite (fun _ => ?_) fun _ => .ite (fun c => ?_) fun _ => .ite (fun c => ?_) fun _ => ?_
  · refine .bind ?_ fun _ _ => .pure _
    unfold rdAka
    exact .bind (rdArg_noUb _ _) fun _ _ => .bind (rdNode_noUb _) fun _ _ => .pure _
  · cases s.cfg.akas.getLast? with
    | none => exact .invalid
    | some k => exact .bind (rdAkaCmd_noUb hz k c) fun _ _ => .pure _
  · cases s.cfg.filters.getLast? with
    | none => exact .invalid
    | some k => exact .bind (rdFilterCmd_noUb hz c) fun _ _ => .pure _
  · cases switchOf cfgSwitches w with
    | some v => exact .ok _
    | none =>
      cases switchOf msgSwitches w with
      | some v => exact .ok _
      | none =>
        cases switchOf jamSwitches w with
        | some v => exact .ok _
        | none =>
          dsimp only
          cases pathSettings.find? fun p => eqi w p.1 with
          | some p => exact .bind (rdArg_noUb _ _) fun _ _ => .pure _
          | none =>
            dsimp only
            cases h : rdOther s w r with
            | some x => exact rdOther_noUb hz h
            | none => exact .ite (fun _ => .invalid) fun _ => .ok _

theorem rdLine_noUb {s : RdSt} {l : Str} (hz : ¬ Hazard l) : NoUb (rdLine s l) := by
  unfold rdLine
  refine .ite (fun _ => ?_) fun _ => .ite (fun _ => ?_) fun _ => .ite (fun _ => ?_) fun _ => .ite (fun _ => ?_) fun _ => rdRest_noUb hz
  · exact .bind (rdArea_noUb _ _ _) fun _ _ => .pure _
  · cases s.cfg.areas.getLast? with
    | none => exact .invalid
    | some a => exact .bind (rdAreaCmd_noUb _ _ _ _) fun _ _ => .pure _
  · exact .bind (rdNodeLine_noUb _ _) fun _ _ => .pure _
  · cases s.cfg.nodes.getLast? with
    | none => exact .invalid
    | some a => exact .bind (rdNodeCmd_noUb hz _) fun _ _ => .pure _

end CM
