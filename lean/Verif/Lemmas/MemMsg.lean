import Verif.Lemmas.Pkt

set_option linter.unusedSimpArgs false
namespace CM

/-- Every field of a message is within the capacity of its array. -/
structure MsgInv (m : MemMsg) : Prop where
  text : TextOK m.text
  area : m.area.length ≤ 79
  to : m.to.length ≤ 35
  frm : m.frm.length ≤ 35
  subject : m.subject.length ≤ 71
  date : m.date.length ≤ 19
  msgid : m.msgid.length ≤ 79
  reply : m.reply.length ≤ 79
  seenBy : Blocks m.seenBy
  path : PathOK m.path

/-- The fields `ProcessKludge` leaves alone. -/
structure KFrame (m m' : MemMsg) : Prop where
  text : m'.text = m.text
  area : m'.area = m.area
  to : m'.to = m.to
  frm : m'.frm = m.frm
  subject : m'.subject = m.subject
  date : m'.date = m.date
  attr : m'.attr = m.attr
  cost : m'.cost = m.cost
  type : m'.type = m.type
  pktOrig : m'.pktOrig = m.pktOrig
  pktDest : m'.pktDest = m.pktDest
  origin4D : m'.origin4D = m.origin4D
  seenBy : m'.seenBy = m.seenBy
  path : m'.path = m.path
  msgid : m'.msgid = m.msgid ∨ m'.msgid.length ≤ 79
  reply : m'.reply = m.reply ∨ m'.reply.length ≤ 79

theorem KFrame.refl (m : MemMsg) : KFrame m m := by
  constructor <;> first | rfl | (left; rfl)

theorem KFrame.trans {a b c : MemMsg} (h1 : KFrame a b) (h2 : KFrame b c) : KFrame a c where
  text := h2.text.trans h1.text
  area := h2.area.trans h1.area
  to := h2.to.trans h1.to
  frm := h2.frm.trans h1.frm
  subject := h2.subject.trans h1.subject
  date := h2.date.trans h1.date
  attr := h2.attr.trans h1.attr
  cost := h2.cost.trans h1.cost
  type := h2.type.trans h1.type
  pktOrig := h2.pktOrig.trans h1.pktOrig
  pktDest := h2.pktDest.trans h1.pktDest
  origin4D := h2.origin4D.trans h1.origin4D
  seenBy := h2.seenBy.trans h1.seenBy
  path := h2.path.trans h1.path
  msgid := by
    rcases h2.msgid with h | h
    · rw [h]; exact h1.msgid
    · exact Or.inr h
  reply := by
    rcases h2.reply with h | h
    · rw [h]; exact h1.reply
    · exact Or.inr h

theorem kRescanned_frame (m : MemMsg) (k : Str) : KFrame m (kRescanned m k) := by
  unfold kRescanned
  split <;> (constructor <;> first | rfl | (left; rfl))

theorem strAt_ok {s v : Str} {i : Nat} (h : strAt s i = .ok v) : i ≤ s.length ∧ v = s.drop i := by
  unfold strAt at h
  split at h
  · simp at h; exact ⟨by assumption, h.symm⟩
  · simp at h

theorem kMsgid_frame {m m' : MemMsg} {k : Str} (h : kMsgid m k = .ok m') : KFrame m m' := by
  simp only [kMsgid, bind, Except.bind] at h
  split at h
  · cases hs : strAt k 8 with
    | error e => rw [hs] at h; simp at h
    | ok v =>
      rw [hs] at h; simp only [Except.ok.injEq] at h; subst h
      constructor <;> first | rfl | (left; rfl) | (right; simp only [List.length_take]; omega)
  · simp only [Except.ok.injEq] at h; subst h; exact .refl m

theorem kReply_frame {m m' : MemMsg} {k : Str} (h : kReply m k = .ok m') : KFrame m m' := by
  simp only [kReply, bind, Except.bind] at h
  split at h
  · cases hs : strAt k 8 with
    | error e => rw [hs] at h; simp at h
    | ok v =>
      rw [hs] at h; simp only [Except.ok.injEq] at h; subst h
      constructor <;> first | rfl | (left; rfl) | (right; simp only [List.length_take]; omega)
  · simp only [Except.ok.injEq] at h; subst h; exact .refl m

theorem kFmpt_frame {m m' : MemMsg} {k : Str} (h : kFmpt m k = .ok m') : KFrame m m' := by
  simp only [kFmpt, bind, Except.bind] at h
  split at h
  · cases hs : strAt k 6 with
    | error e => rw [hs] at h; simp at h
    | ok v =>
      rw [hs] at h; simp only [Except.ok.injEq] at h; subst h
      constructor <;> first | rfl | (left; rfl)
  · simp only [Except.ok.injEq] at h; subst h; exact .refl m

theorem kTopt_frame {m m' : MemMsg} {k : Str} (h : kTopt m k = .ok m') : KFrame m m' := by
  simp only [kTopt, bind, Except.bind] at h
  split at h
  · cases hs : strAt k 6 with
    | error e => rw [hs] at h; simp at h
    | ok v =>
      rw [hs] at h; simp only [Except.ok.injEq] at h; subst h
      constructor <;> first | rfl | (left; rfl)
  · simp only [Except.ok.injEq] at h; subst h; exact .refl m

theorem kIntl_frame {m m' : MemMsg} {k : Str} (h : kIntl m k = .ok m') : KFrame m m' := by
  simp only [kIntl, bind, Except.bind] at h
  split at h
  · cases hs : strAt k (if k[5]? = some 58 then 7 else 6) with
    | error e => rw [hs] at h; simp at h
    | ok v =>
      rw [hs] at h; simp only [Except.ok.injEq] at h; subst h
      constructor <;> first | rfl | (left; rfl)
  · simp only [Except.ok.injEq] at h; subst h; exact .refl m

theorem processKludge_frame {m m' : MemMsg} {k : Str} (h : processKludge m k = .ok m') : KFrame m m' := by
  simp only [processKludge, bind, Except.bind] at h
  cases h1 : kMsgid (kRescanned m k) k with
  | error e => rw [h1] at h; simp at h
  | ok m1 =>
    rw [h1] at h; simp only at h
    have f1 := (kRescanned_frame m k).trans (kMsgid_frame h1)
    cases h2 : kReply m1 k with
    | error e => rw [h2] at h; simp at h
    | ok m2 =>
      rw [h2] at h; simp only at h
      have f2 := f1.trans (kReply_frame h2)
      split at h
      · cases h3 : kFmpt m2 k with
        | error e => rw [h3] at h; simp at h
        | ok m3 =>
          rw [h3] at h; simp only at h
          have f3 := f2.trans (kFmpt_frame h3)
          cases h4 : kTopt m3 k with
          | error e => rw [h4] at h; simp at h
          | ok m4 =>
            rw [h4] at h
            exact (f3.trans (kTopt_frame h4)).trans (kIntl_frame h)
      · simp only [Except.ok.injEq] at h; subst h; exact f2

/-- A complete control line of at least `n` bytes. -/
theorem strAt_of_le {s : Str} {i : Nat} (h : i ≤ s.length) : strAt s i = .ok (s.drop i) := by
  simp [strAt, h]

theorem startsWith_iff (s p : Str) : startsWith s p = true ↔ p <+: s := by
  simp only [startsWith, beq_iff_eq, List.prefix_iff_eq_take]
  exact eq_comm

/-- A complete control line that starts with a keyword is longer than the keyword. -/
theorem safe_len {k p : Str} (h : SafeKludge k) (hp : startsWith k (1 :: p) = true)
    (h13 : ∀ c ∈ p, c ≠ 13 ∧ c ≠ 10) : min 8 (p.length + 2) ≤ k.length := by
  rw [startsWith_iff] at hp
  obtain ⟨t, rfl⟩ := hp
  rcases h (by simp) with h | h | h
  · omega
  · cases t with
    | nil =>
      exfalso
      simp only [List.append_nil] at h
      have := List.mem_of_getLast? h
      simp only [List.mem_cons] at this
      rcases this with h | h
      · simp at h
      · exact (h13 _ h).1 rfl
    | cons c t => simp; omega
  · cases t with
    | nil =>
      exfalso
      simp only [List.append_nil] at h
      have := List.mem_of_getLast? h
      simp only [List.mem_cons] at this
      rcases this with h | h
      · simp at h
      · exact (h13 _ h).2 rfl
    | cons c t => simp; omega

/-- A complete control line is processed within the line buffer. -/
theorem processKludge_safe (m : MemMsg) (k : Str) (h : SafeKludge k) : ∃ m', processKludge m k = .ok m' := by
  have e1 : ∀ m, ∃ m', kMsgid m k = .ok m' := by
    intro m
    unfold kMsgid
    split
    · have := safe_len (p := b!"MSGID:") h (by assumption) (by decide)
      simp only [List.length_cons, List.length_nil] at this
      rw [strAt_of_le (by omega)]
      exact ⟨_, rfl⟩
    · exact ⟨_, rfl⟩
  have e2 : ∀ m, ∃ m', kReply m k = .ok m' := by
    intro m
    unfold kReply
    split
    · have := safe_len (p := b!"REPLY:") h (by assumption) (by decide)
      simp only [List.length_cons, List.length_nil] at this
      rw [strAt_of_le (by omega)]
      exact ⟨_, rfl⟩
    · exact ⟨_, rfl⟩
  have e3 : ∀ m, ∃ m', kFmpt m k = .ok m' := by
    intro m
    unfold kFmpt
    split
    · have := safe_len (p := b!"FMPT") h (by assumption) (by decide)
      simp only [List.length_cons, List.length_nil] at this
      rw [strAt_of_le (by omega)]
      exact ⟨_, rfl⟩
    · exact ⟨_, rfl⟩
  have e4 : ∀ m, ∃ m', kTopt m k = .ok m' := by
    intro m
    unfold kTopt
    split
    · have := safe_len (p := b!"TOPT") h (by assumption) (by decide)
      simp only [List.length_cons, List.length_nil] at this
      rw [strAt_of_le (by omega)]
      exact ⟨_, rfl⟩
    · exact ⟨_, rfl⟩
  have e5 : ∀ m, ∃ m', kIntl m k = .ok m' := by
    intro m
    unfold kIntl
    split
    · rename_i hs
      have h6 := safe_len (p := b!"INTL") h hs (by decide)
      simp only [List.length_cons, List.length_nil] at h6
      by_cases h5 : k[5]? = some 58
      · have h7 : 7 ≤ k.length := by
          rw [startsWith_iff] at hs
          obtain ⟨t, rfl⟩ := hs
          cases t with
          | nil => simp at h6
          | cons c t =>
            simp at h5
            subst h5
            have := safe_len (p := b!"INTL:") h (by rw [startsWith_iff]; exact ⟨t, by simp⟩) (by decide)
            simpa using this
        simp only [h5, if_true]
        rw [strAt_of_le h7]
        exact ⟨_, rfl⟩
      · simp only [h5, if_false]
        rw [strAt_of_le (by omega)]
        exact ⟨_, rfl⟩
    · exact ⟨_, rfl⟩
  obtain ⟨m1, h1⟩ := e1 (kRescanned m k)
  obtain ⟨m2, h2⟩ := e2 m1
  simp only [processKludge, bind, Except.bind, h1, h2]
  split
  · obtain ⟨m3, h3⟩ := e3 m2
    obtain ⟨m4, h4⟩ := e4 m3
    obtain ⟨m5, h5⟩ := e5 m4
    exact ⟨m5, by simp only [h3, h4, h5]⟩
  · exact ⟨m2, rfl⟩

theorem copyAddr_cons (k : Nat) (c : UInt8) (r : Str) :
    copyAddr (k + 1) (c :: r) = if c = 41 then .ok [] else (copyAddr k r).map (c :: ·) := by
  cases k <;> rfl

/-! ## Adding a line keeps every field within its capacity -/

theorem addSeenby_blocks {s : Str} {bs r : List (List N2)} (h : addSeenby s bs = some r) (hb : Blocks bs) :
    Blocks r := by
  have gen : ∀ (f : Nat) (ln : UInt16) (bs : List (List N2)) (s : Str), Blocks bs →
      addSeenbyLoop f ln bs s = some r → Blocks r := by
    intro f
    induction f with
    | zero => intro ln bs s _ h; simp [addSeenbyLoop] at h
    | succ f ih =>
      intro ln bs s hb h
      cases s with
      | nil => simp [addSeenbyLoop] at h; subst h; exact hb
      | cons c t =>
        unfold addSeenbyLoop at h
        by_cases h13 : c = 13
        · simp [h13] at h; subst h; exact hb
        · simp only [h13, if_false] at h
          refine ih _ _ _ ?_ h
          generalize (seenWord ln (List.take 59 (List.takeWhile seenChar (c :: t)))).2 = e
          cases e with
          | none => exact hb
          | some x => exact mmAddNodes2D_blocks bs x hb
  exact gen _ _ _ _ hb h

theorem striptrail_len {s t : Str} (h : striptrail s = .ok t) : t.length ≤ s.length := by
  obtain ⟨tail, e, _⟩ := (striptrail_iff s t).1 h
  rw [e]; simp

theorem mmAddPath_ok {s : Str} {ps r : List (List Str)} (h : mmAddPath s ps = .ok r) (hp : PathOK ps) :
    PathOK r := by
  unfold mmAddPath at h
  split at h
  · simp at h; subst h; exact hp
  · split at h
    · simp at h
    · rename_i l hl
      simp only [Except.ok.injEq] at h; subst h
      refine pathPush_ok ps l hp ?_
      have := striptrail_len hl
      simp [mystrncpy] at this
      omega

/-- A control line of an echomail that is kept apart from the text. -/
def EchoControl (m : MemMsg) (l : Str) : Prop :=
  m.area ≠ [] ∧ (b!"SEEN-BY:" <+: l ∨ (1 :: b!"PATH:") <+: l)

instance (m : MemMsg) (l : Str) : Decidable (EchoControl m l) := by unfold EchoControl; infer_instance

/-- The fields no line of text changes. -/
structure LFrame (m m' : MemMsg) : Prop where
  area : m'.area = m.area
  to : m'.to = m.to
  frm : m'.frm = m.frm
  subject : m'.subject = m.subject
  date : m'.date = m.date
  attr : m'.attr = m.attr
  cost : m'.cost = m.cost
  type : m'.type = m.type
  pktOrig : m'.pktOrig = m.pktOrig
  pktDest : m'.pktDest = m.pktDest

theorem LFrame.refl (m : MemMsg) : LFrame m m := by constructor <;> rfl

theorem LFrame.trans {a b c : MemMsg} (h1 : LFrame a b) (h2 : LFrame b c) : LFrame a c where
  area := h2.area.trans h1.area
  to := h2.to.trans h1.to
  frm := h2.frm.trans h1.frm
  subject := h2.subject.trans h1.subject
  date := h2.date.trans h1.date
  attr := h2.attr.trans h1.attr
  cost := h2.cost.trans h1.cost
  type := h2.type.trans h1.type
  pktOrig := h2.pktOrig.trans h1.pktOrig
  pktDest := h2.pktDest.trans h1.pktDest

/-- What adding a line of text does. -/
structure Added (m m' : MemMsg) (l : Str) : Prop where
  inv : MsgInv m'
  frame : LFrame m m'
  text : m'.text.flatten = m.text.flatten ++ (if EchoControl m l then [] else l)
  seenBy : ¬ EchoControl m l → m'.seenBy = m.seenBy
  path : ¬ EchoControl m l → m'.path = m.path

theorem addText_added (m m1 : MemMsg) (l : Str) (hi : MsgInv m1) (hf : LFrame m m1) (ht : m1.text = m.text)
    (hc : ¬ EchoControl m l) (hs : m1.seenBy = m.seenBy) (hp : m1.path = m.path)
    (hl : l.length + chunkLen < 2 ^ 32) : ∃ m', addText m1 l = .ok (some m') ∧ Added m m' l := by
  obtain ⟨t, h1, h2, h3⟩ := addText_ok m1 l hi.text hl
  refine ⟨_, h1, { hi with text := h2 }, ?_, ?_, fun _ => hs, fun _ => hp⟩
  · constructor
    · exact hf.area
    · exact hf.to
    · exact hf.frm
    · exact hf.subject
    · exact hf.date
    · exact hf.attr
    · exact hf.cost
    · exact hf.type
    · exact hf.pktOrig
    · exact hf.pktDest
  · rw [if_neg hc, ← ht]; exact h3

/-- Adding a line: the only alternatives are a message with the line added and a read outside the
line buffer. -/
theorem mmAddLine_cases (m : MemMsg) (l : Str) (hi : MsgInv m) (hl : l.length + chunkLen < 2 ^ 32) :
    mmAddLine m l = .error .oobRead ∨ ∃ m', mmAddLine m l = .ok (some m') ∧ Added m m' l := by
  have hstr : ∀ s i, strAt s i = .error .oobRead ∨ strAt s i = .ok (s.drop i) := by
    intro s i; unfold strAt; split
    · exact Or.inr rfl
    · exact Or.inl rfl
  unfold mmAddLine
  by_cases h1 : m.area ≠ [] ∧ startsWith l b!"SEEN-BY:"
  · rw [if_pos h1]
    rcases hstr l 9 with h | h
    · left; rw [h]; rfl
    · right
      rw [h]
      obtain ⟨r, hr⟩ := addSeenby_total (l.drop 9) m.seenBy
      simp only [bind, Except.bind, hr, Option.map_some]
      have hc : EchoControl m l := ⟨h1.1, Or.inl ((startsWith_iff _ _).1 h1.2)⟩
      refine ⟨_, rfl, { hi with seenBy := addSeenby_blocks hr hi.seenBy }, by constructor <;> rfl, ?_, ?_, ?_⟩
      · rw [if_pos hc]; simp
      · exact fun h => absurd hc h
      · exact fun h => absurd hc h
  · rw [if_neg h1]
    by_cases h2 : m.area ≠ [] ∧ startsWith l (1 :: b!"PATH:")
    · rw [if_pos h2]
      rcases hstr l 7 with h | h
      · left; rw [h]; rfl
      · rw [h]
        have hc : EchoControl m l := ⟨h2.1, Or.inr ((startsWith_iff _ _).1 h2.2)⟩
        simp only [bind, Except.bind]
        cases hp : mmAddPath (l.drop 7) m.path with
        | error e =>
          left
          unfold mmAddPath at hp
          split at hp
          · simp at hp
          · split at hp
            · rename_i u hu
              simp only [Except.error.injEq] at hp
              subst hp
              cases hu' : u with
              | oobRead => rfl
              | _ =>
                exfalso
                have hg : ∀ (s : Str) (e : UB), striptrailLoop s = .error e → e = .oobRead := by
                  intro s
                  induction s with
                  | nil => intro e h; simp [striptrailLoop] at h; exact h.symm
                  | cons c s ih =>
                    intro e h
                    unfold striptrailLoop at h
                    split at h
                    · exact ih e h
                    · simp at h
                unfold striptrail at hu
                cases hx : striptrailLoop (mystrncpy (l.drop 7) 100).reverse with
                | ok v => rw [hx] at hu; simp [Except.map] at hu
                | error e =>
                  rw [hx] at hu
                  simp only [Except.map, Except.error.injEq] at hu
                  have := hg _ _ hx
                  subst this
                  rw [hu'] at hu
                  simp at hu
            · simp at hp
        | ok p =>
          right
          refine ⟨_, rfl, { hi with path := mmAddPath_ok hp hi.path }, by constructor <;> rfl, ?_, ?_, ?_⟩
          · rw [if_pos hc]; simp
          · exact fun h => absurd hc h
          · exact fun h => absurd hc h
    · rw [if_neg h2]
      have hc : ¬ EchoControl m l := by
        rintro ⟨ha, h | h⟩
        · exact h1 ⟨ha, (startsWith_iff _ _).2 h⟩
        · exact h2 ⟨ha, (startsWith_iff _ _).2 h⟩
      by_cases h3 : m.area ≠ [] ∧ startsWith l b!" * Origin: "
      · rw [if_pos h3]
        cases he : extractAddress l with
        | error e =>
          left
          have hsk : ∀ (s : Str) (e : UB), skipToDigit s = .error e → e = .oobRead := by
            intro s
            induction s with
            | nil => intro e h; simp [skipToDigit] at h; exact h.symm
            | cons c s ih =>
              intro e h
              unfold skipToDigit at h
              split at h
              · simp at h
              · exact ih e h
          have hca : ∀ (s : Str) (k : Nat) (e : UB), copyAddr k s = .error e → e = .oobRead := by
            intro s
            induction s with
            | nil =>
              intro k e h
              match k with
              | 0 => simp [copyAddr] at h
              | 1 => simp [copyAddr] at h
              | k + 2 => simp [copyAddr] at h; exact h.symm
            | cons c s ih =>
              intro k e h
              match k with
              | 0 => simp [copyAddr] at h
              | k + 1 =>
                rw [copyAddr_cons] at h
                split at h
                · simp at h
                · cases hx : copyAddr k s with
                  | ok v => rw [hx] at h; simp [Except.map] at h
                  | error u =>
                    rw [hx] at h
                    simp only [Except.map, Except.error.injEq] at h
                    subst h
                    exact ih k u hx
          have : e = .oobRead := by
            unfold extractAddress at he
            split at he
            · simp at he
            · rename_i r _
              simp only [bind, Except.bind] at he
              cases hx : skipToDigit r with
              | error u =>
                rw [hx] at he
                simp only [Except.error.injEq] at he
                subst he
                exact hsk _ _ hx
              | ok v =>
                rw [hx] at he
                simp only at he
                cases hy : copyAddr 49 v with
                | error u =>
                  rw [hy] at he
                  simp only [Except.error.injEq] at he
                  subst he
                  exact hca _ _ _ hy
                | ok w => rw [hy] at he; simp at he
          subst this
          rfl
        | ok o =>
          right
          cases o with
          | none => exact addText_added m m l hi (.refl m) rfl hc rfl rfl hl
          | some a =>
            simp only [bind, Except.bind]
            refine addText_added m _ l ?_ ?_ rfl hc rfl rfl hl
            · exact { hi with }
            · constructor <;> rfl
      · rw [if_neg h3]
        by_cases h4 : l.head? = some 1
        · rw [if_pos h4]
          cases hk : processKludge m l with
          | error e =>
            left
            have : e = .oobRead := by
              have hx : ∀ {m : MemMsg} {e : UB}, kMsgid m l = .error e → e = .oobRead := by
                intro m e h
                simp only [kMsgid, bind, Except.bind] at h
                split at h
                · rcases hstr l 8 with hs | hs <;> rw [hs] at h <;> simp at h
                  exact h.symm
                · simp at h
              have hx2 : ∀ {m : MemMsg} {e : UB}, kReply m l = .error e → e = .oobRead := by
                intro m e h
                simp only [kReply, bind, Except.bind] at h
                split at h
                · rcases hstr l 8 with hs | hs <;> rw [hs] at h <;> simp at h
                  exact h.symm
                · simp at h
              have hx3 : ∀ {m : MemMsg} {e : UB}, kFmpt m l = .error e → e = .oobRead := by
                intro m e h
                simp only [kFmpt, bind, Except.bind] at h
                split at h
                · rcases hstr l 6 with hs | hs <;> rw [hs] at h <;> simp at h
                  exact h.symm
                · simp at h
              have hx4 : ∀ {m : MemMsg} {e : UB}, kTopt m l = .error e → e = .oobRead := by
                intro m e h
                simp only [kTopt, bind, Except.bind] at h
                split at h
                · rcases hstr l 6 with hs | hs <;> rw [hs] at h <;> simp at h
                  exact h.symm
                · simp at h
              have hx5 : ∀ {m : MemMsg} {e : UB}, kIntl m l = .error e → e = .oobRead := by
                intro m e h
                simp only [kIntl, bind, Except.bind] at h
                split at h
                · rcases hstr l (if l[5]? = some 58 then 7 else 6) with hs | hs <;> rw [hs] at h <;> simp at h
                  exact h.symm
                · simp at h
              simp only [processKludge, bind, Except.bind] at hk
              split at hk
              · rename_i hq; simp only [Except.error.injEq] at hk; subst hk; exact hx hq
              · split at hk
                · rename_i hq; simp only [Except.error.injEq] at hk; subst hk; exact hx2 hq
                · split at hk
                  · split at hk
                    · rename_i hq; simp only [Except.error.injEq] at hk; subst hk; exact hx3 hq
                    · split at hk
                      · rename_i hq; simp only [Except.error.injEq] at hk; subst hk; exact hx4 hq
                      · exact hx5 hk
                  · simp at hk
            subst this
            rfl
          | ok m1 =>
            right
            simp only [bind, Except.bind]
            have f := processKludge_frame hk
            refine addText_added m m1 l ?_ ?_ f.text hc f.seenBy f.path hl
            · constructor
              · rw [f.text]; exact hi.text
              · rw [f.area]; exact hi.area
              · rw [f.to]; exact hi.to
              · rw [f.frm]; exact hi.frm
              · rw [f.subject]; exact hi.subject
              · rw [f.date]; exact hi.date
              · rcases f.msgid with h | h
                · rw [h]; exact hi.msgid
                · exact h
              · rcases f.reply with h | h
                · rw [h]; exact hi.reply
                · exact h
              · rw [f.seenBy]; exact hi.seenBy
              · rw [f.path]; exact hi.path
            · exact ⟨f.area, f.to, f.frm, f.subject, f.date, f.attr, f.cost, f.type, f.pktOrig, f.pktDest⟩
        · rw [if_neg h4]
          right
          exact addText_added m m l hi (.refl m) rfl hc rfl rfl hl

theorem afterLastParen_append (o : Option Str) (a b : Str) (h : 40 ∉ b) :
    afterLastParen o (a ++ 40 :: b) = some b := by
  have h0 : ∀ (b : Str) (o : Option Str), 40 ∉ b → afterLastParen o b = o := by
    intro b
    induction b with
    | nil => intro o _; rfl
    | cons c b ih =>
      intro o h
      simp only [List.mem_cons, not_or] at h
      unfold afterLastParen
      rw [if_neg (fun e => h.1 e.symm)]
      exact ih o h.2
  induction a generalizing o with
  | nil =>
    simp only [List.nil_append, afterLastParen, if_true]
    exact h0 b _ h
  | cons c a ih =>
    simp only [List.cons_append, afterLastParen]
    exact ih _

theorem afterLastParen_none (b : Str) (h : 40 ∉ b) : afterLastParen none b = none := by
  induction b with
  | nil => rfl
  | cons c b ih =>
    simp only [List.mem_cons, not_or] at h
    unfold afterLastParen
    rw [if_neg (fun e => h.1 e.symm)]
    exact ih h.2

theorem extractAddress_safe (l : Str) (h : SafeOrigin l) : ∃ o, extractAddress l = .ok o := by
  unfold extractAddress
  rcases h with h | ⟨a, b, d, c, e, h1, h2, h3, x, h4, h5⟩
  · rw [afterLastParen_none l h]; exact ⟨none, rfl⟩
  · subst h4
    rw [h1, afterLastParen_append _ _ _ h2]
    have hs : ∀ (b : Str) (r : Str), (∀ y ∈ b, isDigit y = false ∧ y ≠ 13) →
        skipToDigit (b ++ (x :: r)) = .ok (x :: r) := by
      intro b r
      induction b with
      | nil => intro _; simp [skipToDigit, h5]
      | cons y b ih =>
        intro hb
        obtain ⟨q1, q2⟩ := hb y (by simp)
        simp only [List.cons_append, skipToDigit, q1, q2, Bool.false_eq_true, or_self, if_false]
        exact ih fun z hz => hb z (by simp [hz])
    have hc : ∀ (s : Str) (k : Nat), 41 ∈ s → ∃ v, copyAddr k s = .ok v := by
      intro s
      induction s with
      | nil => intro k h; simp at h
      | cons y s ih =>
        intro k h
        cases k with
        | zero => exact ⟨[], rfl⟩
        | succ k =>
          rw [copyAddr_cons]
          by_cases hy : y = 41
          · rw [if_pos hy]; exact ⟨[], rfl⟩
          · rw [if_neg hy]
            simp only [List.mem_cons] at h
            rcases h with h | h
            · exact absurd h.symm hy
            · obtain ⟨v, hv⟩ := ih k h
              rw [hv]; exact ⟨_, rfl⟩
    simp only [bind, Except.bind, List.singleton_append]
    rw [hs b _ h3]
    obtain ⟨v, hv⟩ := hc (x :: (c ++ 41 :: e)) 49 (by simp)
    simp only [hv]
    exact ⟨_, rfl⟩

theorem mmAddLine_nil (m : MemMsg) : mmAddLine m [] = .ok (some m) := by
  have h : ∀ p : Str, p ≠ [] → startsWith [] p = false := by
    intro p hp
    cases p with
    | nil => exact absurd rfl hp
    | cons c p => simp [startsWith]
  unfold mmAddLine
  rw [h _ (by simp), h _ (by simp), h _ (by simp)]
  simp [addText, mmAddBuf, bind, Except.bind]

/-- A safe line is added without leaving the line buffer. -/
theorem mmAddLine_safe (m : MemMsg) (l : Str) (hi : MsgInv m) (hl : l.length + chunkLen < 2 ^ 32)
    (hn : m.area = [] → SafeKludge l) (he : m.area ≠ [] → SafeEcho l) :
    ∃ m', mmAddLine m l = .ok (some m') ∧ Added m m' l := by
  rcases mmAddLine_cases m l hi hl with h | h
  · exfalso
    unfold mmAddLine at h
    by_cases h1 : m.area ≠ [] ∧ startsWith l b!"SEEN-BY:"
    · rw [if_pos h1, strAt_of_le ((he h1.1).2.1 ((startsWith_iff _ _).1 h1.2))] at h
      simp [bind, Except.bind] at h
    · rw [if_neg h1] at h
      by_cases h2 : m.area ≠ [] ∧ startsWith l (1 :: b!"PATH:")
      · obtain ⟨hlen, hv⟩ := (he h2.1).2.2.1 ((startsWith_iff _ _).1 h2.2)
        rw [if_pos h2, strAt_of_le hlen] at h
        simp only [bind, Except.bind] at h
        cases hp : mmAddPath (l.drop 7) m.path with
        | ok p => rw [hp] at h; simp at h
        | error e =>
          unfold mmAddPath at hp
          split at hp
          · simp at hp
          · rename_i hne
            rcases hv with hv | ⟨c, hc, hc1, hc2⟩
            · exact hne (by simp [hv])
            · split at hp
              · rename_i u hu
                -- a visible byte stops the loop
                have hg : ∀ (s : Str), c ∈ s → ∃ t, striptrailLoop s = .ok t := by
                  intro s
                  induction s with
                  | nil => intro h; simp at h
                  | cons y s ih =>
                    intro h
                    unfold striptrailLoop
                    by_cases hy : below33 y = true
                    · rw [if_pos hy]
                      simp only [List.mem_cons] at h
                      rcases h with rfl | h
                      · have : ∀ c : UInt8, 33 ≤ c.toNat → c.toNat < 128 → below33 c = false := by decide +kernel
                        rw [this _ hc1 hc2] at hy
                        simp at hy
                      · exact ih h
                    · rw [if_neg hy]; exact ⟨_, rfl⟩
                obtain ⟨t, ht⟩ := hg (mystrncpy (l.drop 7) 100).reverse (by simpa [mystrncpy] using hc)
                rw [striptrail, ht] at hu
                simp [Except.map] at hu
              · simp at hp
      · rw [if_neg h2] at h
        by_cases h3 : m.area ≠ [] ∧ startsWith l b!" * Origin: "
        · obtain ⟨o, ho⟩ := extractAddress_safe l ((he h3.1).2.2.2 ((startsWith_iff _ _).1 h3.2))
          rw [if_pos h3, ho] at h
          have hx : ∀ (m : MemMsg), TextOK m.text → addText m l ≠ .error .oobRead := by
            intro m ht he
            obtain ⟨t, h1, _⟩ := addText_ok m l ht hl
            rw [h1] at he; simp at he
          cases o with
          | none => exact hx m hi.text h
          | some a => exact hx { m with origin4D := if a.zone = 0 then { a with zone := m.pktOrig.zone } else a } hi.text h
        · rw [if_neg h3] at h
          have hx : ∀ (m : MemMsg), TextOK m.text → addText m l ≠ .error .oobRead := by
            intro m ht he
            obtain ⟨t, h1, _⟩ := addText_ok m l ht hl
            rw [h1] at he; simp at he
          by_cases h4 : l.head? = some 1
          · rw [if_pos h4] at h
            have hk : SafeKludge l := by
              by_cases ha : m.area = []
              · exact hn ha
              · exact (he ha).1
            obtain ⟨m1, hm1⟩ := processKludge_safe m l hk
            rw [hm1] at h
            have f := processKludge_frame hm1
            exact hx m1 (by rw [f.text]; exact hi.text) h
          · rw [if_neg h4] at h
            exact hx m hi.text h
  · exact h

end CM
