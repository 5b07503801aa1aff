import Verif.Spec.StripRe
import Verif.Lemmas.Readdress
import Verif.Lemmas.Says
import Verif.Props.Echo
import Verif.Props.Netmail
/-! # Subjects, loop-mails and bad messages as they are stored (C110) -/

set_option linter.unusedSimpArgs false

namespace CM

theorem reMark_pos {p : Str} (h : ReMark p) : 0 < p.length := by
  cases h with
  | colon p h =>
    have : p.length = 3 := by simpa using congrArg List.length h
    omega
  | caret p x h => simp
  | bracket p x h => simp

theorem ci3 {p : Str} {a b c : UInt8} (h : Ci p [a, b, c]) : ∃ x y z, p = [x, y, z] ∧ lower x = lower a ∧ lower y = lower b ∧ lower z = lower c := by
  have hl : p.length = 3 := by simpa using congrArg List.length h
  obtain ⟨x, y, z, rfl⟩ : ∃ x y z, p = [x, y, z] := by
    match p, hl with
    | [x, y, z], _ => exact ⟨x, y, z, rfl⟩
  exact ⟨x, y, z, rfl, by simpa [Ci] using h⟩

theorem reMark_shape {p : Str} (h : ReMark p) :
    ∃ x y z q, p = x :: y :: z :: q ∧ lower x = 114 ∧ lower y = 101 ∧
      (lower z = 58 ∧ q = [] ∨ lower z = 94 ∧ (∃ c, q = [c, 58]) ∨ lower z = 91 ∧ ∃ c, q = [c, 93, 58]) := by
  cases h with
  | colon p h =>
    obtain ⟨x, y, z, rfl, h1, h2, h3⟩ := ci3 h
    exact ⟨x, y, z, [], rfl, h1, h2, .inl ⟨h3, rfl⟩⟩
  | caret p c h =>
    obtain ⟨x, y, z, rfl, h1, h2, h3⟩ := ci3 h
    exact ⟨x, y, z, [c, 58], rfl, h1, h2, .inr (.inl ⟨h3, c, rfl⟩)⟩
  | bracket p c h =>
    obtain ⟨x, y, z, rfl, h1, h2, h3⟩ := ci3 h
    exact ⟨x, y, z, [c, 93, 58], rfl, h1, h2, .inr (.inr ⟨h3, c, rfl⟩)⟩

theorem stripReLoop_mark {p r : Str} (h : ReMark p) (f : Nat) :
    stripReLoop (f + 1) (p ++ r) = stripReLoop f (if r.head? = some 32 then r.tail else r) := by
  obtain ⟨x, y, z, q, rfl, h1, h2, h3⟩ := reMark_shape h
  have e : ∀ w : UInt8, eqin (x :: y :: z :: (q ++ r)) [82, 101, w] 3 = decide (lower z = lower w) := by
    intro w
    have a : lower 82 = 114 := by decide
    have b : lower 101 = 101 := by decide
    simp [eqin, h1, h2, a, b]
    rfl
  rw [stripReLoop]
  simp only [List.cons_append]
  rw [e 58, e 94, e 91]
  rcases h3 with ⟨h3, rfl⟩ | ⟨h3, c, rfl⟩ | ⟨h3, c, rfl⟩
  · rw [if_pos (by rw [h3]; decide)]
    simp [skipRe]
  · rw [if_neg (by rw [h3]; decide), if_pos (by rw [h3]; simp; decide)]
    simp [skipRe]
  · rw [if_neg (by rw [h3]; decide), if_neg (by rw [h3]; intro h; exact absurd h.1 (by decide)), if_pos (by rw [h3]; simp; decide)]
    simp [skipRe]

theorem take3 {s : Str} {a b c : UInt8} (h : eqin s [a, b, c] 3 = true) : ∃ p r, s = p ++ r ∧ Ci p [a, b, c] ∧ r = s.drop 3 := by
  refine ⟨s.take 3, s.drop 3, (List.take_append_drop 3 s).symm, ?_, rfl⟩
  unfold eqin at h
  simpa [Ci] using h

theorem stripReLoop_none {s : Str} (h : ∀ p r, ReMark p → s ≠ p ++ r) (f : Nat) : stripReLoop f s = s := by
  cases f with
  | zero => rfl
  | succ f =>
    rw [stripReLoop, if_neg, if_neg, if_neg]
    · rintro ⟨h1, h2, h3⟩
      obtain ⟨p, r, e1, e2, e3⟩ := take3 h1
      match s, e3, h2, h3 with
      | a :: b :: c :: d :: x :: y :: s, e3, h2, h3 =>
        simp at h2 h3 e3
        subst h2 h3
        refine h (p ++ [d] ++ b!"]:") s (.bracket p d e2) ?_
        rw [e1, e3]; simp
    · rintro ⟨h1, h2⟩
      obtain ⟨p, r, e1, e2, e3⟩ := take3 h1
      match s, e3, h2 with
      | a :: b :: c :: d :: x :: s, e3, h2 =>
        simp at h2 e3
        subst h2
        refine h (p ++ [d] ++ b!":") s (.caret p d e2) ?_
        rw [e1, e3]; simp
    · intro h1
      obtain ⟨p, r, e1, e2, _⟩ := take3 h1
      exact h p r (.colon p e2) e1

/-- C110. Stripping a subject removes exactly the marks of replies in front of it. -/
theorem stripRe_iff (s t : Str) : Stripped s t ↔ stripRe s = t := by
  have sound : ∀ {s t : Str}, Stripped s t → ∀ f, s.length < f → stripReLoop f s = t := by
    intro s t h
    induction h with
    | done s h => intro f _; exact stripReLoop_none h f
    | mark p r t hp hr _ ih =>
      intro f hf
      have := reMark_pos hp
      obtain ⟨g, rfl⟩ : ∃ g, f = g + 1 := ⟨f - 1, by omega⟩
      rw [stripReLoop_mark hp, if_neg hr]
      exact ih g (by simp at hf; omega)
    | blank p r t hp _ ih =>
      intro f hf
      have := reMark_pos hp
      obtain ⟨g, rfl⟩ : ∃ g, f = g + 1 := ⟨f - 1, by omega⟩
      rw [List.append_assoc, stripReLoop_mark hp, if_pos (by simp)]
      exact ih g (by simp at hf ⊢; omega)
  have total : ∀ (n : Nat) (s : Str), s.length < n → ∃ t, Stripped s t := by
    intro n
    induction n with
    | zero => intro s h; omega
    | succ n ih =>
      intro s h
      by_cases hm : ∃ p r, ReMark p ∧ s = p ++ r
      · obtain ⟨p, r, hp, rfl⟩ := hm
        have := reMark_pos hp
        by_cases hr : r.head? = some 32
        · obtain ⟨q, rfl⟩ : ∃ q, r = 32 :: q := by
            cases r with
            | nil => simp at hr
            | cons c q => simp at hr; exact ⟨q, by rw [hr]⟩
          obtain ⟨t, ht⟩ := ih q (by simp at h; omega)
          refine ⟨t, ?_⟩
          have := Stripped.blank p q t hp ht
          simpa using this
        · obtain ⟨t, ht⟩ := ih r (by simp at h; omega)
          exact ⟨t, .mark p r t hp hr ht⟩
      · exact ⟨s, .done s fun p r hp e => hm ⟨p, r, hp, e⟩⟩
  constructor
  · intro h
    exact sound h _ (Nat.lt_succ_self _)
  · rintro rfl
    obtain ⟨t, ht⟩ := total (s.length + 1) s (Nat.lt_succ_self _)
    rw [show stripRe s = t from sound ht _ (Nat.lt_succ_self _)]
    exact ht

/-- C110. What is left begins with no mark, and is the end of the subject. -/
theorem stripRe_left (s : Str) : (∀ p r, ReMark p → stripRe s ≠ p ++ r) ∧ stripRe s <:+ s := by
  have h := (stripRe_iff s (stripRe s)).2 rfl
  generalize stripRe s = t at h
  induction h with
  | done s h => exact ⟨h, List.suffix_refl _⟩
  | mark p r t _ _ _ ih => exact ⟨ih.1, ih.2.trans (List.suffix_append _ _)⟩
  | blank p r t _ _ ih => exact ⟨ih.1, ih.2.trans (List.suffix_append _ _)⟩

theorem stripRe_idem {s t : Str} (h : Stripped s t) : stripRe t = t := by
  have := (stripRe_left s).1
  rw [(stripRe_iff s t).1 h] at this
  exact (stripRe_iff t t).1 (.done t this)

/-- C110. An echomail that is stored (see C20) has its subject without marks if STRIPRE is configured, and as it was
otherwise. -/
theorem echo_subject {cfg : Config} {i : Nat} {m : MemMsg} {e : Effect} (h : Stored cfg i m e) :
    ∃ c, e = .importMsg i c ∧ (cfg.has CFG_STRIPRE = true → Stripped m.subject c.subject) ∧
      (cfg.has CFG_STRIPRE = false → c.subject = m.subject) := by
  obtain ⟨ty, d, o, rfl⟩ := h
  refine ⟨_, rfl, fun hc => ?_, fun hc => ?_⟩
  · dsimp only
    rw [if_pos hc]
    exact (stripRe_iff _ _).2 rfl
  · dsimp only
    rw [if_neg (by simp [hc])]

/-- C110. Copies of an echomail that are sent have the subject as it was. -/
theorem copy_subject (aka : Node4D) (m : MemMsg) (l : TossNode × ConfigNode) :
    ∃ idx c, copyFor aka m l = .echo idx aka c ∧ c.subject = m.subject := ⟨_, _, rfl, rfl⟩

/-- C110. A netmail that is to be stored is stored with its subject without marks if STRIPRE is configured, and as it was
otherwise; nothing else but the attributes SENT and LOCAL is changed. -/
theorem netmail_subject (env : Env) (self : MemMsg → M Unit) {i : Nat} {m : MemMsg} {s : HSt} (h1 : m.has MMFLAG_TWIT = false)
    (h2 : s.cfg.has CFG_IMPORTEMPTYNETMAIL = true ∨ hasText m.text = .ok true) (h3 : (s.cfg.areas[i]?.bind (·.base)).isSome = true) :
    ∃ sub, (s.cfg.has CFG_STRIPRE = true → Stripped m.subject sub) ∧ (s.cfg.has CFG_STRIPRE = false → sub = m.subject) ∧
      let c := { m with
        subject := sub
        attr := (m.attr ||| FLAG_SENT) &&& ~~~FLAG_LOCAL }
      importNetmail env self i m s =
        (do importMsg env i c; if c.attrHas FLAG_RREQ && s.cfg.has CFG_ANSWERRECEIPT then answerReceipt env self c else pure () : M Unit) s := by
  have key : ∀ sub, stripSubject s.cfg m = { m with subject := sub } → stripSubject s.cfg { m with subject := sub } = { m with subject := sub } →
      importNetmail env self i m s = (do
        importMsg env i (markSent { m with subject := sub })
        if (markSent { m with subject := sub }).attrHas FLAG_RREQ && s.cfg.has CFG_ANSWERRECEIPT then answerReceipt env self (markSent { m with subject := sub }) else pure () : M Unit) s := by
    intro sub e1 e2
    unfold importNetmail
    rw [if_neg (by simp [h1]), get_bind]
    dsimp only
    rw [e1, e2]
    have ht : (if s.cfg.has CFG_IMPORTEMPTYNETMAIL then pure true else M.lift (hasText m.text) : M Bool) s = .ok true s := by
      rcases h2 with h | h
      · rw [if_pos h]; rfl
      · split
        · rfl
        · rw [h]; rfl
    show ((if s.cfg.has CFG_IMPORTEMPTYNETMAIL then pure true else M.lift (hasText m.text) : M Bool) >>= _) s = _
    simp only [bind, M.bind, ht]
    simp only [h3, Bool.and_self, if_true]
    generalize markSent { m with subject := sub } = c
    unfold M.bind
    cases importMsg env i c s <;> rfl
  cases hc : s.cfg.has CFG_STRIPRE with
  | true =>
    have hs := (stripRe_iff m.subject _).2 rfl
    refine ⟨stripRe m.subject, fun _ => hs, by simp, ?_⟩
    refine key (stripRe m.subject) ?_ ?_
    · unfold stripSubject; rw [if_pos hc]
    · unfold stripSubject; rw [if_pos hc]; dsimp only; rw [stripRe_idem hs]
  | false =>
    refine ⟨m.subject, by simp, fun _ => rfl, ?_⟩
    refine key m.subject ?_ ?_ <;> (unfold stripSubject; rw [if_neg (by simp [hc])])

/-! ## Loop-mails and the BAD area -/

/-- C110. The note in front of a bad message tells where the message comes from and the reason. -/
theorem badHeader_note (m : MemMsg) (reason : Str) : BadNote m reason (badHeader m reason) := by
  unfold BadNote badHeader
  simp only [shown_eq]
  by_cases h : m.area = []
  · refine ⟨b!"DEST:" ++ addr4 m.dest ++ [13] ++ b!"ORIG:" ++ addr4 m.orig ++ [13], ?_, fun h' => absurd h h', fun _ => rfl⟩
    rw [if_pos h]
  · refine ⟨b!"AREA:" ++ m.area ++ [13], ?_, fun _ => rfl, fun h' => absurd h' h⟩
    rw [if_neg h]

/-- The copy of a loop-mail: only the kludges of its text are left. -/
theorem loopCopy_ok (m : MemMsg) (s : HSt) (h : WholeText m.text) :
    ∃ cs, KludgesOf m.text.flatten cs.flatten ∧ loopCopy m s = .ok { m with
      msgnum := 0
      origin4D := ⟨0, 0, 0, 0⟩
      text := cs
      seenBy := []
      path := [] } s := by
  obtain ⟨lss, f1, f2, f3, f4⟩ := allLines_ok m.text h.2
  have hlen := mem_lss h.1 f3 f4
  obtain ⟨cs, g1, g2, _⟩ := addBufs_ok ((lss.flatten.filter fun l => l.head? == some 1).map fun l => 64 :: l.tail) [] s
    ⟨by simp, by simp⟩ (by
    intro l hl
    obtain ⟨x, hx, rfl⟩ := List.mem_map.1 hl
    have := hlen x (List.mem_filter.1 hx).1
    simp only [chunkLen, List.length_cons, List.length_tail] at this ⊢
    omega)
  refine ⟨cs, ⟨lss.flatten, f2, by rw [g2]; simp [List.drop_one]⟩, ?_⟩
  unfold loopCopy
  rw [f1]
  show (addBufs [] _ >>= _) s = _
  simp only [bind, M.bind, g1]
  rfl

/-- C110. A loop-mail that is seen in mode LOG+BAD leaves one message in the BAD area: the note, and of the text the kludges
only. In the other modes, and if it is no loop-mail, nothing is done. -/
theorem loop_stored (env : Env) {m : MemMsg} {s t : HSt} (ht : WholeText m.text) (h : checkLoop env m s = .ok () t) :
    (t = s ∧ (s.cfg.loopMode ≠ 2 ∨ m.has MMFLAG_EXPORTED = true ∨ isLoopMail s.cfg m.text = .ok false ∨
      (∀ a ∈ s.cfg.areas, a.type ≠ .bad) ∨ ∃ a ∈ s.cfg.areas, a.type = .bad ∧ a.base = none)) ∨
    (s.cfg.loopMode = 2 ∧ m.has MMFLAG_EXPORTED = false ∧ isLoopMail s.cfg m.text = .ok true ∧
      ∃ i a c note cs, s.cfg.areas[i]? = some a ∧ a.type = .bad ∧ t = { s with log := s.log ++ [.importMsg i c] } ∧
        c = { m with
          msgnum := 0
          origin4D := ⟨0, 0, 0, 0⟩
          text := note :: cs
          seenBy := []
          path := [] } ∧ BadNote m b!"Possible loopmail" note ∧ KludgesOf m.text.flatten cs.flatten) := by
  unfold checkLoop at h
  rw [get_bind] at h
  by_cases hc : (decide (s.cfg.loopMode ≠ 0) && !m.has MMFLAG_EXPORTED) = true
  · rw [if_pos hc] at h
    simp only [Bool.and_eq_true, decide_eq_true_eq, Bool.not_eq_true'] at hc
    cases hl : isLoopMail s.cfg m.text with
    | error u => rw [hl] at h; cases h
    | ok l =>
      rw [hl] at h
      replace h : (if l && s.cfg.loopMode == 2 then do
          let t ← loopCopy m
          writeBad env t b!"Possible loopmail"
        else pure () : M Unit) s = .ok () t := h
      by_cases h2 : (l && s.cfg.loopMode == 2) = true
      · rw [if_pos h2] at h
        simp only [Bool.and_eq_true, beq_iff_eq] at h2
        obtain ⟨cs, k1, k2⟩ := loopCopy_ok m s ht
        rw [bind_ok] at h
        obtain ⟨x, u, e1, e2⟩ := h
        rw [k2] at e1
        cases e1
        obtain ⟨es, r1, _, r3⟩ := writeBad_ends (env := env) (t := t) (s := s) (b := true) (by unfold Ret; rw [if_pos rfl]; exact ⟨(), e2⟩)
        rcases r3 rfl with ⟨i, a, w1, w2, w3⟩ | ⟨w1, w2⟩
        · refine .inr ⟨h2.2, hc.2, by rw [h2.1], i, a, _, _, cs, w1, w2, by rw [r1, w3], rfl, ?_, k1⟩
          exact badHeader_note _ _
        · refine .inl ⟨by rw [r1, w1]; simp, ?_⟩
          rcases w2 with w | w
          · exact .inr (.inr (.inr (.inl w)))
          · exact .inr (.inr (.inr (.inr w)))
      · rw [if_neg h2] at h
        cases h
        refine .inl ⟨rfl, ?_⟩
        simp only [Bool.and_eq_true, beq_iff_eq, not_and] at h2
        cases l with
        | true => exact .inl (h2 rfl)
        | false => exact .inr (.inr (.inl rfl))
  · rw [if_neg hc] at h
    cases h
    refine .inl ⟨rfl, ?_⟩
    simp only [Bool.and_eq_true, decide_eq_true_eq, Bool.not_eq_true', not_and] at hc
    by_cases h0 : s.cfg.loopMode = 0
    · exact .inl (by rw [h0]; decide)
    · exact .inr (.inl (by simpa using hc h0))

/-! ## Concrete cases -/

namespace Ex

/-- C110. Several marks, with and without blanks. -/
theorem strip_many : Stripped b!"Re: RE^2:re[3]: Test: Re: x" b!"Test: Re: x" := by
  rw [stripRe_iff]; decide +kernel

/-- C110. Numbers of more than one digit are not recognised as marks. -/
theorem strip_digits : stripRe b!"Re[12]: Test" = b!"Re[12]: Test" := by decide +kernel

/-- A loop-mail. -/
def loopMsg : MemMsg :=
  { orig := ⟨2, 200, 207, 0⟩, dest := ⟨2, 221, 360, 0⟩, text := [[1] ++ b!"Via 2:200/1" ++ [13] ++ b!"secret" ++ [13]] }

theorem loop_whole : WholeText loopMsg.text := by
  refine ⟨⟨by decide, by simp [loopMsg]⟩, ?_⟩
  intro c hc
  obtain rfl : c = [1] ++ b!"Via 2:200/1" ++ [13] ++ b!"secret" ++ [13] := by simpa [loopMsg] using hc
  unfold EndsCR; decide

/-- C110. Its kludges. -/
theorem loop_kludges : KludgesOf loopMsg.text.flatten (b!"@Via 2:200/1" ++ [13]) :=
  ⟨[[1] ++ b!"Via 2:200/1" ++ [13], b!"secret" ++ [13]], ⟨by decide, by
    intro l hl
    simp only [List.mem_cons, List.not_mem_nil, or_false] at hl
    rcases hl with rfl | rfl
    · exact ⟨[1] ++ b!"Via 2:200/1", rfl, by decide⟩
    · exact ⟨b!"secret", rfl, by decide⟩⟩, by decide⟩

end Ex

end CM
