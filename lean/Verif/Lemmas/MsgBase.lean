import Verif.Lemmas.Base
import Verif.Lemmas.Bytes
import Verif.Lemmas.Disk
import Verif.Props.SeenBy
import Verif.Props.Strings
import Verif.Spec.MsgBase
/-! # Numbers, names and headers of messages -/

namespace CM

theorem msgPath_eq {dir : Str} (h : DirName dir) (n : UInt32) : msgPath dir n = msgFile dir n.toNat := by
  unfold msgPath msgFile inDir
  have := dec_length_le (n := n.toNat) (k := 10) (by omega) (by have := n.toNat_lt; omega)
  have l4 : (b!".msg").length = 4 := rfl
  rw [makeFullPath_fits _ _ _ h.1 (by rw [List.length_append, l4]; have := h.2; omega)]

theorem msgFile_inj {dir : Str} {a b : Nat} (h : msgFile dir a = msgFile dir b) : a = b := by
  unfold msgFile inDir at h
  exact dec_inj (List.append_cancel_right (List.append_cancel_left h))

theorem hwFile_eq {dir : Str} (h : DirName dir) : makeFullPath dir b!"1.msg" 200 = msgFile dir 1 := by
  unfold msgFile inDir
  have l4 : (b!"1.msg").length = 5 := rfl
  rw [makeFullPath_fits _ _ _ h.1 (by rw [l4]; have := h.2; omega)]
  rfl

theorem msgFile_fits {dir : Str} (h : DirName dir) (n : Nat) (hn : n < 2 ^ 32) : msgFile dir n = makeFullPath dir (dec n ++ b!".msg") 200 := by
  have := msgPath_eq h (UInt32.ofNat n)
  rw [UInt32.toNat_ofNat_of_lt' hn] at this
  rw [← this]
  unfold msgPath
  rw [UInt32.toNat_ofNat_of_lt' hn]

theorem isMsgName_dec (n : Nat) : isMsgName (dec n ++ b!".msg") = true := by
  unfold isMsgName
  have l4 : (b!".msg").length = 4 := rfl
  have : 0 < (dec n).length := List.length_pos_iff.2 (dec_ne_nil n)
  rw [List.length_append, l4, Nat.add_sub_cancel, List.drop_left]
  simp only [Bool.and_eq_true, decide_eq_true_eq]
  exact ⟨by omega, by decide⟩

theorem no_slash_dec (n : Nat) : (47 : UInt8) ∉ dec n ++ b!".msg" := by
  rw [List.mem_append, not_or]
  exact ⟨fun h => absurd (dec_digits n _ h) (by decide), by decide⟩

theorem atoi_msgName (n : Nat) : atoi (dec n ++ b!".msg") = n := atoi_dec n _ (by intro c h; cases h; decide)

theorem atol_of_atoi {s : Str} (h1 : atoi s < 2 ^ 63) (h2 : 0 ≤ atoi s) : atol s = atoi s := by
  unfold atol; omega

theorem u32_ofInt {v : Int} (h0 : 0 ≤ v) (h : v < 2 ^ 32) : ((UInt32.ofInt v).toNat : Int) = v := by
  unfold UInt32.ofInt
  rw [UInt32.toNat_ofNat']
  omega

/-- What the numbers after a scan say about the names. -/
structure Scanned (names : List Str) (r : UInt32 × UInt32) : Prop where
  high : ∀ f ∈ names, atol f ≤ r.2.toNat
  low : ∀ f ∈ names, 2 ≤ atol f → 2 ≤ r.1.toNat ∧ (r.1.toNat : Int) ≤ atol f
  highIs : r.2 = 0 ∨ ∃ f ∈ names, atol f = r.2.toNat
  lowIs : r.1 = 0 ∨ (2 ≤ r.1.toNat ∧ ∃ f ∈ names, atol f = r.1.toNat)

theorem scanned (names : List Str) (h : ∀ f ∈ names, atol f < 2 ^ 32) : Scanned names (names.foldl scanName (0, 0)) := by
  induction names using snocInd with
  | nil => exact ⟨by simp, by simp, .inl rfl, .inl rfl⟩
  | snoc l f ih =>
    have ih := ih fun g hg => h g (by simp [hg])
    rw [List.foldl_append]
    simp only [List.foldl_cons, List.foldl_nil]
    generalize l.foldl scanName (0, 0) = r at ih
    have hf := h f (by simp)
    unfold scanName
    dsimp only
    refine ⟨?_, ?_, ?_, ?_⟩
    · intro g hg
      dsimp only
      split
      · next hlt =>
        rw [u32_ofInt (by omega) hf]
        rcases List.mem_append.1 hg with h' | h'
        · have := ih.high g h'; omega
        · simp at h'; subst h'; omega
      · rcases List.mem_append.1 hg with h' | h'
        · exact ih.high g h'
        · simp at h'; subst h'; omega
    · intro g hg h2
      dsimp only
      split
      · next hlt =>
        have e := u32_ofInt (by omega : 0 ≤ atol f) hf
        rcases List.mem_append.1 hg with h' | h'
        · have := ih.low g h' h2
          rcases hlt.1 with c | c | c
          · omega
          · rw [c] at this; exact absurd this.1 (by decide)
          · rw [c] at this; exact absurd this.1 (by decide)
        · simp at h'; subst h'; omega
      · next hlt =>
        rcases List.mem_append.1 hg with h' | h'
        · exact ih.low g h' h2
        · simp at h'; subst h'
          rw [not_and] at hlt
          have : ¬(atol g < (r.1.toNat : Int) ∨ r.1 = 0 ∨ r.1 = 1) := fun c => hlt c h2
          simp only [not_or] at this
          have e0 : r.1.toNat ≠ 0 := fun e => this.2.1 (UInt32.toNat_inj.1 e)
          have e1 : r.1.toNat ≠ 1 := fun e => this.2.2 (UInt32.toNat_inj.1 e)
          omega
    · dsimp only
      split
      · next hlt => exact .inr ⟨f, by simp, (u32_ofInt (by omega) hf).symm⟩
      · rcases ih.highIs with e | ⟨g, hg, e⟩
        · exact .inl e
        · exact .inr ⟨g, by simp [hg], e⟩
    · dsimp only
      split
      · next hlt =>
        have e := u32_ofInt (by omega : 0 ≤ atol f) hf
        exact .inr ⟨by omega, f, by simp, e.symm⟩
      · rcases ih.lowIs with e | ⟨h1, g, hg, e⟩
        · exact .inl e
        · exact .inr ⟨h1, g, by simp [hg], e⟩

/-- The record of an area after its directory was read. -/
theorem scanRec_spec (names : List Str) (b : Nat) (hb : b ≤ 2 ^ 32) (h2 : 2 ≤ b) (h : ∀ f ∈ names, atol f < b) :
    1 ≤ (scanRec names).high.toNat ∧ (scanRec names).high.toNat < b ∧ 2 ≤ (scanRec names).low.toNat ∧ (scanRec names).hw = 0 ∧
    (scanRec names).oldHW = 0 ∧
    ∀ f ∈ names, 2 ≤ atol f → ((scanRec names).low.toNat : Int) ≤ atol f ∧ atol f ≤ (scanRec names).high.toNat := by
  have s := scanned names fun f hf => by have := h f hf; omega
  unfold scanRec
  dsimp only
  generalize names.foldl scanName (0, 0) = r at s
  refine ⟨?_, ?_, ?_, rfl, rfl, ?_⟩
  · split
    · decide
    · next e => have : r.2.toNat ≠ 0 := fun x => e (UInt32.toNat_inj.1 x); omega
  · split
    · show 1 < b; omega
    · next e =>
      rcases s.highIs with c | ⟨f, hf, c⟩
      · exact absurd c e
      · have := h f hf; omega
  · split
    · decide
    · next e =>
      rw [not_or] at e
      have e0 : r.1.toNat ≠ 0 := fun x => e.1 (UInt32.toNat_inj.1 x)
      have e1 : r.1.toNat ≠ 1 := fun x => e.2 (UInt32.toNat_inj.1 x)
      omega
  · intro f hf hv
    have a := s.high f hf
    have c := s.low f hf hv
    refine ⟨?_, ?_⟩
    · split
      · next e => rcases e with e | e <;> · rw [e] at c; exact absurd c.1 (by decide)
      · exact c.2
    · split
      · next e => rw [e] at a; exact absurd a (by have : (0 : UInt32).toNat = 0 := rfl; omega)
      · exact a

end CM
