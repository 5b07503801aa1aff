import Verif.Lemmas.Monad
import Verif.Lemmas.MemMsg
import Verif.Model.Handle
/-! # What filters and generated lines leave alone in a message -/

namespace CM

/-- Flags a filter command or a line of text may set. -/
def softFlags : UInt16 := MMFLAG_KILL ||| MMFLAG_TWIT ||| MMFLAG_RESCANNED

/-- Area, packet addresses, attributes and all other flags are the same. -/
structure Keep (m m' : MemMsg) : Prop where
  area : m'.area = m.area
  pktOrig : m'.pktOrig = m.pktOrig
  pktDest : m'.pktDest = m.pktDest
  attr : m'.attr = m.attr
  flags : ∀ mask : UInt16, softFlags &&& mask = 0 → m'.flags &&& mask = m.flags &&& mask

theorem Keep.refl (m : MemMsg) : Keep m m := ⟨rfl, rfl, rfl, rfl, fun _ _ => rfl⟩

theorem Keep.trans {a b c : MemMsg} (h1 : Keep a b) (h2 : Keep b c) : Keep a c :=
  ⟨h2.area.trans h1.area, h2.pktOrig.trans h1.pktOrig, h2.pktDest.trans h1.pktDest, h2.attr.trans h1.attr,
    fun k h => (h2.flags k h).trans (h1.flags k h)⟩

theorem Keep.has {a b : MemMsg} (h : Keep a b) (mask : UInt16) (hm : softFlags &&& mask = 0) :
    b.has mask = a.has mask := by
  unfold MemMsg.has; rw [h.flags mask hm]

theorem Keep.attrHas {a b : MemMsg} (h : Keep a b) (mask : UInt16) : b.attrHas mask = a.attrHas mask := by
  unfold MemMsg.attrHas; rw [h.attr]

theorem or_and_u16 (f k mask : UInt16) (h : k &&& mask = 0) : (f ||| k) &&& mask = f &&& mask := by
  have h' : k.toBitVec &&& mask.toBitVec = 0 := by
    have := congrArg UInt16.toBitVec h
    simpa using this
  apply UInt16.toBitVec_inj.1
  simp only [UInt16.toBitVec_and, UInt16.toBitVec_or, BitVec.and_or_distrib_right, h']
  simp

theorem soft_sub (k mask : UInt16) (hk : k &&& softFlags = k) (h : softFlags &&& mask = 0) : k &&& mask = 0 := by
  rw [← hk, UInt16.and_assoc, h]; simp

theorem Keep.or (m : MemMsg) (k : UInt16) (hk : k &&& softFlags = k) : Keep m { m with flags := m.flags ||| k } :=
  ⟨rfl, rfl, rfl, rfl, fun mask h => or_and_u16 _ _ _ (soft_sub k mask hk h)⟩

theorem addText_keep {m m' : MemMsg} {l : Str} (h : addText m l = .ok (some m')) :
    m' = { m with text := m'.text } := by
  unfold addText at h
  cases ht : mmAddBuf m.text l with
  | error e => rw [ht] at h; simp [bind, Except.bind] at h
  | ok o =>
    rw [ht] at h
    cases o with
    | none => simp [bind, Except.bind] at h
    | some t =>
      simp only [bind, Except.bind, Option.map_some, Except.ok.injEq, Option.some.injEq] at h
      subst h; rfl

theorem keep_of_addText {m m' : MemMsg} {l : Str} (h : addText m l = .ok (some m')) : Keep m m' := by
  rw [addText_keep h]; exact ⟨rfl, rfl, rfl, rfl, fun _ _ => rfl⟩

theorem kRescanned_keep (m : MemMsg) (k : Str) : Keep m (kRescanned m k) := by
  unfold kRescanned; split
  · exact Keep.or m 1 (by decide)
  · exact Keep.refl _

theorem strAt_bind_ok {s : Str} {i : Nat} {f : Str → Except UB MemMsg} {m : MemMsg}
    (h : (do let v ← strAt s i; f v) = Except.ok m) : ∃ v, f v = .ok m := by
  cases hx : strAt s i with
  | error e => rw [hx] at h; simp [bind, Except.bind] at h
  | ok v => rw [hx] at h; exact ⟨v, h⟩

theorem processKludge_keep {m m' : MemMsg} {k : Str} (h : processKludge m k = .ok m') : Keep m m' := by
  have hM : ∀ {a b : MemMsg}, kMsgid a k = .ok b → Keep a b := by
    intro a b h; unfold kMsgid at h; split at h
    · obtain ⟨v, h⟩ := strAt_bind_ok h; cases h; exact ⟨rfl, rfl, rfl, rfl, fun _ _ => rfl⟩
    · cases h; exact Keep.refl _
  have hR : ∀ {a b : MemMsg}, kReply a k = .ok b → Keep a b := by
    intro a b h; unfold kReply at h; split at h
    · obtain ⟨v, h⟩ := strAt_bind_ok h; cases h; exact ⟨rfl, rfl, rfl, rfl, fun _ _ => rfl⟩
    · cases h; exact Keep.refl _
  have hF : ∀ {a b : MemMsg}, kFmpt a k = .ok b → Keep a b := by
    intro a b h; unfold kFmpt at h; split at h
    · obtain ⟨v, h⟩ := strAt_bind_ok h; cases h; exact ⟨rfl, rfl, rfl, rfl, fun _ _ => rfl⟩
    · cases h; exact Keep.refl _
  have hT : ∀ {a b : MemMsg}, kTopt a k = .ok b → Keep a b := by
    intro a b h; unfold kTopt at h; split at h
    · obtain ⟨v, h⟩ := strAt_bind_ok h; cases h; exact ⟨rfl, rfl, rfl, rfl, fun _ _ => rfl⟩
    · cases h; exact Keep.refl _
  have hI : ∀ {a b : MemMsg}, kIntl a k = .ok b → Keep a b := by
    intro a b h; unfold kIntl at h; split at h
    · obtain ⟨v, h⟩ := strAt_bind_ok h; cases h; exact ⟨rfl, rfl, rfl, rfl, fun _ _ => rfl⟩
    · cases h; exact Keep.refl _
  unfold processKludge at h
  simp only [bind, Except.bind] at h
  cases q1 : kMsgid (kRescanned m k) k with
  | error e => rw [q1] at h; simp at h
  | ok m1 =>
    rw [q1] at h
    simp only at h
    cases q2 : kReply m1 k with
    | error e => rw [q2] at h; simp at h
    | ok m2 =>
      rw [q2] at h
      simp only at h
      have k2 : Keep m m2 := ((kRescanned_keep m k).trans (hM q1)).trans (hR q2)
      split at h
      · cases q3 : kFmpt m2 k with
        | error e => rw [q3] at h; simp at h
        | ok m3 =>
          rw [q3] at h
          simp only at h
          cases q4 : kTopt m3 k with
          | error e => rw [q4] at h; simp at h
          | ok m4 =>
            rw [q4] at h
            exact ((k2.trans (hF q3)).trans (hT q4)).trans (hI h)
      · cases h; exact k2

theorem mmAddLine_keep {m m' : MemMsg} {l : Str} (h : mmAddLine m l = .ok (some m')) : Keep m m' := by
  unfold mmAddLine at h
  split at h
  · cases hs : strAt l 9 with
    | error e => rw [hs] at h; simp [bind, Except.bind] at h
    | ok v =>
      rw [hs] at h
      simp only [bind, Except.bind, Except.ok.injEq, Option.map_eq_some_iff] at h
      obtain ⟨a, _, rfl⟩ := h
      exact ⟨rfl, rfl, rfl, rfl, fun _ _ => rfl⟩
  · split at h
    · cases hs : strAt l 7 with
      | error e => rw [hs] at h; simp [bind, Except.bind] at h
      | ok v =>
        rw [hs] at h
        simp only [bind, Except.bind] at h
        cases hp : mmAddPath v m.path with
        | error e => rw [hp] at h; simp at h
        | ok p =>
          rw [hp] at h
          simp only [Except.ok.injEq, Option.some.injEq] at h
          subst h; exact ⟨rfl, rfl, rfl, rfl, fun _ _ => rfl⟩
    · split at h
      · cases hs : extractAddress l with
        | error e => rw [hs] at h; simp [bind, Except.bind] at h
        | ok o =>
          rw [hs] at h
          simp only [bind, Except.bind] at h
          cases o with
          | none => exact keep_of_addText h
          | some a =>
            have hx := keep_of_addText h
            exact ⟨hx.area, hx.pktOrig, hx.pktDest, hx.attr, hx.flags⟩
      · split at h
        · cases hs : processKludge m l with
          | error e => rw [hs] at h; simp [bind, Except.bind] at h
          | ok m1 =>
            rw [hs] at h
            simp only [bind, Except.bind] at h
            exact (processKludge_keep hs).trans (keep_of_addText h)
        · exact keep_of_addText h

theorem foldlM_none (ls : List Str) (f : Option MemMsg → Str → Except UB (Option MemMsg))
    (hf : ∀ l, f none l = .ok none) : ls.foldlM f none = .ok none := by
  induction ls with
  | nil => rfl
  | cons l ls ih => simp only [List.foldlM_cons, hf, bind, Except.bind]; exact ih

theorem makeNetmailKludges_same {force : Bool} {m m' : MemMsg} (h : makeNetmailKludges force m = .ok (some m')) :
    m' = { m with text := m'.text } := by
  unfold makeNetmailKludges at h
  generalize netmailKludgeLines force m.orig m.dest = ls at h
  induction ls generalizing m with
  | nil => cases h; rfl
  | cons l ls ih =>
    simp only [List.foldlM_cons, bind, Except.bind] at h
    cases ha : addText m l with
    | error e => rw [ha] at h; simp at h
    | ok o =>
      rw [ha] at h
      cases o with
      | none => simp only at h; rw [foldlM_none _ _ (fun _ => rfl)] at h; cases h
      | some m1 =>
        have e1 := addText_keep ha
        have e2 := ih h
        rw [e1] at e2
        exact e2

theorem makeNetmailKludges_keep {force : Bool} {m m' : MemMsg} (h : makeNetmailKludges force m = .ok (some m')) :
    Keep m m' := by
  rw [makeNetmailKludges_same h]; exact ⟨rfl, rfl, rfl, rfl, fun _ _ => rfl⟩

theorem mmAddLines_keep {m m' : MemMsg} {ls : List Str} {s t : HSt} (h : mmAddLines m ls s = .ok m' t) :
    Keep m m' := by
  induction ls generalizing m s with
  | nil => cases h; exact Keep.refl _
  | cons l ls ih =>
    rw [mmAddLines, bind_ok] at h
    obtain ⟨m1, s1, h1, h⟩ := h
    rw [liftO_ok] at h1
    exact (mmAddLine_keep h1.1).trans (ih h)

/-! ## Generated messages -/

/-- A generated message that asks for nothing: netmail, AUTOGEN, no receipt or audit requested. -/
structure Gen (m : MemMsg) : Prop where
  area : m.area = []
  autogen : m.has MMFLAG_AUTOGEN = true
  rreq : m.attrHas FLAG_RREQ = false
  audit : m.attrHas FLAG_AUDIT = false

theorem Gen.keep {m m' : MemMsg} (h : Gen m) (k : Keep m m') : Gen m' :=
  ⟨k.area.trans h.area, (k.has _ (by decide)).trans h.autogen, (k.attrHas _).trans h.rreq,
    (k.attrHas _).trans h.audit⟩

theorem Gen.text {m : MemMsg} (h : Gen m) (cs : List Str) : Gen { m with text := cs } :=
  ⟨h.area, h.autogen, h.rreq, h.audit⟩

theorem newNetmail_ok {env : Env} {dest aka : Node4D} {to subject : Str} {attr flags : UInt16} {s t : HSt}
    {m : MemMsg} (h : newNetmail env dest aka to subject attr flags s = .ok m t) :
    m.area = [] ∧ m.attr = attr ∧ ∀ mask : UInt16, softFlags &&& mask = 0 → m.flags &&& mask = flags &&& mask := by
  unfold newNetmail at h
  rw [get_bind, bind_ok] at h
  obtain ⟨m1, s1, h1, h⟩ := h
  rw [liftO_ok] at h1
  have k1 := makeNetmailKludges_keep h1.1
  have : Keep m1 m := by
    split at h
    · rw [liftO_ok] at h; exact mmAddLine_keep h.1
    · cases h; exact Keep.refl _
  have k := k1.trans this
  exact ⟨k.area, k.attr, k.flags⟩

theorem newNetmail_gen {env : Env} {dest aka : Node4D} {to subject : Str} {s t : HSt} {m : MemMsg}
    (h : newNetmail env dest aka to subject FLAG_PVT MMFLAG_AUTOGEN s = .ok m t) : Gen m := by
  obtain ⟨h1, h2, h3⟩ := newNetmail_ok h
  refine ⟨h1, ?_, ?_, ?_⟩
  · unfold MemMsg.has; rw [h3 _ (by decide)]; decide
  · unfold MemMsg.attrHas; rw [h2]; decide
  · unfold MemMsg.attrHas; rw [h2]; decide

/-! ## Filter commands -/

theorem copyInto_keep {env : Env} {i : Nat} {m m' : MemMsg} {cs : List Str} {s t : HSt}
    (h : copyInto env i m cs s = .ok m' t) : m' = { m with text := m'.text } := by
  unfold copyInto at h
  split at h
  · cases h; rfl
  · cases h; rfl
  · cases h
  · cases h

theorem filterCopy_text {env : Env} {m m' : MemMsg} {tag : Str} {s t : HSt}
    (h : filterCopy env m tag s = .ok m' t) : m' = { m with text := m'.text } := by
  unfold filterCopy at h
  rw [get_bind] at h
  cases hf : s.cfg.findArea tag with
  | none => rw [hf] at h; cases h; rfl
  | some i =>
    rw [hf] at h
    dsimp only at h
    rw [bind_ok] at h
    obtain ⟨cs, s1, _, h⟩ := h
    split at h
    · exact copyInto_keep h
    · cases h

theorem filterExecute_keep {env : Env} {m m' : MemMsg} {cmd : Str} {s t : HSt}
    (h : filterExecute env m cmd s = .ok m' t) :
    m' = m ∨ m' = { m with flags := m.flags ||| MMFLAG_KILL } := by
  unfold filterExecute at h
  rw [get_bind] at h
  dsimp only at h
  rw [bind_ok] at h
  obtain ⟨l, s1, _, h⟩ := h
  rw [emit_bind] at h
  split at h
  · cases h; exact Or.inr rfl
  · split at h
    · cases h
    · cases h; exact Or.inl rfl

theorem filterRemap_keep {m m' : MemMsg} {name : Str} {dest : Pat4} {s t : HSt}
    (h : filterRemap m name dest s = .ok m' t) : Keep m m' ∧ (m.area ≠ [] → m' = m) := by
  unfold filterRemap at h
  split at h
  · cases h; exact ⟨Keep.refl _, fun _ => rfl⟩
  · next ha =>
    refine ⟨?_, fun h => absurd h ha⟩
    rw [get_bind] at h
    dsimp only at h
    rw [bind_ok] at h
    obtain ⟨to, s1, _, h⟩ := h
    rw [bind_ok] at h
    obtain ⟨n, s2, hn, h⟩ := h
    rw [bind_ok] at h
    obtain ⟨ls, s3, _, h⟩ := h
    rw [bind_ok] at h
    obtain ⟨cs, s4, _, h⟩ := h
    rw [liftO_ok] at hn
    have k1 := makeNetmailKludges_keep hn.1
    have k2 : Keep n { n with text := cs } := ⟨rfl, rfl, rfl, rfl, fun _ _ => rfl⟩
    have k3 : Keep { n with text := cs } m' := by
      split at h
      · split at h
        · cases h
        · exact mmAddLines_keep h
      · split at h
        · cases h
        · exact mmAddLines_keep h
    have k := (k1.trans k2).trans k3
    exact ⟨k.area, k.pktOrig, k.pktDest, k.attr, k.flags⟩

theorem filterMasquerade_keep {m m' : MemMsg} {name : Str} {dest : Pat4} {s t : HSt}
    (h : filterMasquerade m name dest s = .ok m' t) : Keep m m' := by
  unfold filterMasquerade at h
  rw [get_bind] at h
  dsimp only at h
  rw [bind_ok] at h
  obtain ⟨frm, s1, _, h⟩ := h
  rw [bind_ok] at h
  obtain ⟨cs, s2, _, h⟩ := h
  rw [bind_ok] at h
  obtain ⟨n, s3, hn, h⟩ := h
  rw [bind_ok] at h
  obtain ⟨ls, s4, _, h⟩ := h
  rw [bind_ok] at h
  obtain ⟨out, s5, _, h⟩ := h
  rw [bind_ok] at h
  obtain ⟨cs', s6, _, h⟩ := h
  rw [bind_ok] at h
  obtain ⟨p, s7, _, h⟩ := h
  cases h
  split at hn
  · rw [liftO_ok] at hn
    have k := makeNetmailKludges_keep hn.1
    exact ⟨k.area, k.pktOrig, k.pktDest, k.attr, k.flags⟩
  · cases hn
    exact ⟨rfl, rfl, rfl, rfl, fun _ _ => rfl⟩

theorem runCommand_keep {env : Env} {self : MemMsg → M Unit} {m m' : MemMsg} {c : Command} {s t : HSt}
    (h : runCommand env self m c s = .ok m' t) : Keep m m' := by
  cases c with
  | kill => cases h; exact Keep.or m _ (by decide)
  | twit => cases h; exact Keep.or m _ (by decide)
  | copy tag => rw [filterCopy_text h]; exact ⟨rfl, rfl, rfl, rfl, fun _ _ => rfl⟩
  | execute cmd =>
    rcases filterExecute_keep h with e | e
    · rw [e]; exact Keep.refl _
    · rw [e]; exact Keep.or m _ (by decide)
  | writeLog x =>
    simp only [runCommand, filterWriteLog] at h
    rw [bind_ok] at h
    obtain ⟨l, s1, _, h⟩ := h
    rw [emit_bind] at h
    cases h; exact Keep.refl _
  | writeBad x =>
    simp only [runCommand] at h
    rw [bind_ok] at h
    obtain ⟨l, s1, _, h⟩ := h
    cases h; exact Keep.refl _
  | bounce b x =>
    simp only [runCommand, filterBounce] at h
    rw [bind_ok] at h
    obtain ⟨l, s1, _, h⟩ := h
    rw [bind_ok] at h
    obtain ⟨_, s2, _, h⟩ := h
    cases h; exact Keep.refl _
  | remap n d => exact (filterRemap_keep h).1
  | masquerade n d => exact filterMasquerade_keep h

theorem runCommands_keep {env : Env} {self : MemMsg → M Unit} {m : MemMsg} {cs : List Command} {s t : HSt}
    {r : MemMsg × Bool} (h : runCommands env self m cs s = .ok r t) : Keep m r.1 := by
  induction cs generalizing m s with
  | nil => cases h; exact Keep.refl _
  | cons c cs ih =>
    rw [runCommands, bind_ok] at h
    obtain ⟨m1, s1, h1, h⟩ := h
    have k := runCommand_keep h1
    split at h
    · cases h; exact k
    · exact k.trans (ih h)

theorem runFilters_keep {env : Env} {self : MemMsg → M Unit} {m m' : MemMsg} {fs : List Filter} {s t : HSt}
    (h : runFilters env self m fs s = .ok m' t) : Keep m m' := by
  induction fs generalizing m s with
  | nil => cases h; exact Keep.refl _
  | cons f fs ih =>
    rw [runFilters, get_bind, bind_ok] at h
    obtain ⟨v, s1, h1, h⟩ := h
    split at h
    · cases h; exact Keep.refl _
    · exact ih h
    · rw [bind_ok] at h
      obtain ⟨r, s2, h2, h⟩ := h
      have k := runCommands_keep h2
      obtain ⟨m1, b⟩ := r
      dsimp only at h k
      split at h
      · cases h; exact k
      · exact k.trans (ih h)

theorem filterMsg_keep {env : Env} {self : MemMsg → M Unit} {m m' : MemMsg} {s t : HSt}
    (h : filterMsg env self m s = .ok m' t) : Keep m m' := runFilters_keep h

theorem prepNetmail_keep {m m' : MemMsg} {s t : HSt} (h : prepNetmail m s = .ok m' t) : Keep m m' := by
  unfold prepNetmail at h
  dsimp only at h
  cases hf : m.text.head?.bind List.getLast? with
  | none => rw [hf] at h; cases h; exact ⟨rfl, rfl, rfl, rfl, fun _ _ => rfl⟩
  | some c =>
    rw [hf] at h
    dsimp only at h
    split at h
    · rw [bind_ok] at h
      obtain ⟨cs, s1, _, h⟩ := h
      cases h; exact ⟨rfl, rfl, rfl, rfl, fun _ _ => rfl⟩
    · cases h; exact ⟨rfl, rfl, rfl, rfl, fun _ _ => rfl⟩

/-! ## The KILL flag of netmail -/

/-- At most the RESCANNED flag has been set. -/
def OrResc (m m' : MemMsg) : Prop := m'.flags = m.flags ∨ m'.flags = m.flags ||| MMFLAG_RESCANNED

theorem OrResc.refl (m : MemMsg) : OrResc m m := .inl rfl

theorem OrResc.trans {a b c : MemMsg} (h1 : OrResc a b) (h2 : OrResc b c) : OrResc a c := by
  rcases h1 with h1 | h1 <;> rcases h2 with h2 | h2 <;> rw [OrResc, h2, h1]
  · exact .inl rfl
  · exact .inr rfl
  · exact .inr rfl
  · rw [UInt16.or_assoc]; exact .inr (by rw [UInt16.or_self])

theorem OrResc.kill {a b : MemMsg} (h : OrResc a b) : b.has MMFLAG_KILL = a.has MMFLAG_KILL := by
  rcases h with h | h <;> unfold MemMsg.has <;> rw [h]
  rw [or_and_u16 _ _ _ (by decide)]

theorem flags_of_addText {m m' : MemMsg} {l : Str} (h : addText m l = .ok (some m')) : OrResc m m' := by
  rw [addText_keep h]; exact .inl rfl

theorem kRescanned_flags (m : MemMsg) (k : Str) : OrResc m (kRescanned m k) := by
  unfold kRescanned; split
  · exact .inr rfl
  · exact .inl rfl

theorem processKludge_flags {m m' : MemMsg} {k : Str} (h : processKludge m k = .ok m') : OrResc m m' := by
  have hM : ∀ {a b : MemMsg}, kMsgid a k = .ok b → OrResc a b := by
    intro a b h; unfold kMsgid at h; split at h
    · obtain ⟨v, h⟩ := strAt_bind_ok h; cases h; exact .inl rfl
    · cases h; exact OrResc.refl _
  have hR : ∀ {a b : MemMsg}, kReply a k = .ok b → OrResc a b := by
    intro a b h; unfold kReply at h; split at h
    · obtain ⟨v, h⟩ := strAt_bind_ok h; cases h; exact .inl rfl
    · cases h; exact OrResc.refl _
  have hF : ∀ {a b : MemMsg}, kFmpt a k = .ok b → OrResc a b := by
    intro a b h; unfold kFmpt at h; split at h
    · obtain ⟨v, h⟩ := strAt_bind_ok h; cases h; exact .inl rfl
    · cases h; exact OrResc.refl _
  have hT : ∀ {a b : MemMsg}, kTopt a k = .ok b → OrResc a b := by
    intro a b h; unfold kTopt at h; split at h
    · obtain ⟨v, h⟩ := strAt_bind_ok h; cases h; exact .inl rfl
    · cases h; exact OrResc.refl _
  have hI : ∀ {a b : MemMsg}, kIntl a k = .ok b → OrResc a b := by
    intro a b h; unfold kIntl at h; split at h
    · obtain ⟨v, h⟩ := strAt_bind_ok h; cases h; exact .inl rfl
    · cases h; exact OrResc.refl _
  unfold processKludge at h
  simp only [bind, Except.bind] at h
  cases q1 : kMsgid (kRescanned m k) k with
  | error e => rw [q1] at h; simp at h
  | ok m1 =>
    rw [q1] at h
    simp only at h
    cases q2 : kReply m1 k with
    | error e => rw [q2] at h; simp at h
    | ok m2 =>
      rw [q2] at h
      simp only at h
      have k2 : OrResc m m2 := ((kRescanned_flags m k).trans (hM q1)).trans (hR q2)
      split at h
      · cases q3 : kFmpt m2 k with
        | error e => rw [q3] at h; simp at h
        | ok m3 =>
          rw [q3] at h
          simp only at h
          cases q4 : kTopt m3 k with
          | error e => rw [q4] at h; simp at h
          | ok m4 =>
            rw [q4] at h
            exact ((k2.trans (hF q3)).trans (hT q4)).trans (hI h)
      · cases h; exact k2

theorem mmAddLine_flags {m m' : MemMsg} {l : Str} (h : mmAddLine m l = .ok (some m')) : OrResc m m' := by
  unfold mmAddLine at h
  split at h
  · cases hs : strAt l 9 with
    | error e => rw [hs] at h; simp [bind, Except.bind] at h
    | ok v =>
      rw [hs] at h
      simp only [bind, Except.bind, Except.ok.injEq, Option.map_eq_some_iff] at h
      obtain ⟨a, _, rfl⟩ := h
      exact .inl rfl
  · split at h
    · cases hs : strAt l 7 with
      | error e => rw [hs] at h; simp [bind, Except.bind] at h
      | ok v =>
        rw [hs] at h
        simp only [bind, Except.bind] at h
        cases hp : mmAddPath v m.path with
        | error e => rw [hp] at h; simp at h
        | ok p =>
          rw [hp] at h
          simp only [Except.ok.injEq, Option.some.injEq] at h
          subst h; exact .inl rfl
    · split at h
      · cases hs : extractAddress l with
        | error e => rw [hs] at h; simp [bind, Except.bind] at h
        | ok o =>
          rw [hs] at h
          simp only [bind, Except.bind] at h
          cases o with
          | none => exact flags_of_addText h
          | some a =>
            have hx := flags_of_addText h
            exact hx
      · split at h
        · cases hs : processKludge m l with
          | error e => rw [hs] at h; simp [bind, Except.bind] at h
          | ok m1 =>
            rw [hs] at h
            simp only [bind, Except.bind] at h
            exact (processKludge_flags hs).trans (flags_of_addText h)
        · exact flags_of_addText h

theorem mmAddLines_flags {m m' : MemMsg} {ls : List Str} {s t : HSt} (h : mmAddLines m ls s = .ok m' t) :
    OrResc m m' := by
  induction ls generalizing m s with
  | nil => cases h; exact OrResc.refl _
  | cons l ls ih =>
    rw [mmAddLines, bind_ok] at h
    obtain ⟨m1, s1, h1, h⟩ := h
    rw [liftO_ok] at h1
    exact (mmAddLine_flags h1.1).trans (ih h)

theorem filterRemap_flags {m m' : MemMsg} {name : Str} {dest : Pat4} {s t : HSt}
    (h : filterRemap m name dest s = .ok m' t) : OrResc m m' := by
  unfold filterRemap at h
  split at h
  · cases h; exact OrResc.refl _
  · next ha =>
    rw [get_bind] at h
    dsimp only at h
    rw [bind_ok] at h
    obtain ⟨to, s1, _, h⟩ := h
    rw [bind_ok] at h
    obtain ⟨n, s2, hn, h⟩ := h
    rw [bind_ok] at h
    obtain ⟨ls, s3, _, h⟩ := h
    rw [bind_ok] at h
    obtain ⟨cs, s4, _, h⟩ := h
    rw [liftO_ok] at hn
    have k1 : n.flags = m.flags := by rw [makeNetmailKludges_same hn.1]
    have k3 : OrResc { n with text := cs } m' := by
      split at h
      · split at h
        · cases h
        · exact mmAddLines_flags h
      · split at h
        · cases h
        · exact mmAddLines_flags h
    rcases k3 with k3 | k3
    · exact .inl (k3.trans k1)
    · exact .inr (k3.trans (congrArg (· ||| MMFLAG_RESCANNED) k1))

theorem filterMasquerade_flags {m m' : MemMsg} {name : Str} {dest : Pat4} {s t : HSt}
    (h : filterMasquerade m name dest s = .ok m' t) : m'.flags = m.flags := by
  unfold filterMasquerade at h
  rw [get_bind] at h
  rw [bind_ok] at h
  obtain ⟨frm, s1, _, h⟩ := h
  dsimp only at h
  rw [bind_ok] at h
  obtain ⟨cs, s2, _, h⟩ := h
  rw [bind_ok] at h
  obtain ⟨n, s3, hn, h⟩ := h
  rw [bind_ok] at h
  obtain ⟨ls, s4, _, h⟩ := h
  rw [bind_ok] at h
  obtain ⟨out, s5, _, h⟩ := h
  rw [bind_ok] at h
  obtain ⟨cs', s6, _, h⟩ := h
  rw [bind_ok] at h
  obtain ⟨p, s7, _, h⟩ := h
  cases h
  split at hn
  · rw [liftO_ok] at hn
    rw [makeNetmailKludges_same hn.1]
  · cases hn; rfl

end CM
