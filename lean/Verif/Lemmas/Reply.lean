import Verif.Lemmas.AreafixRun
import Verif.Spec.Reply
import Verif.Props.Path
/-! # Lemmas about replies -/

set_option linter.unusedSimpArgs false
namespace CM

theorem Sends.append {self : MemMsg → M Unit} {s u t : HSt} {ms ns : List MemMsg} (h1 : Sends self s ms u)
    (h2 : Sends self u ns t) : Sends self s (ms ++ ns) t := by
  induction h1 with
  | nil => exact h2
  | cons h _ ih => exact .cons h (ih h2)

theorem afSend_sends {self : MemMsg → M Unit} {r : AfReply} {s t : HSt} (h : afSend self r s = .ok () t) :
    Sends self s [{ r.mm with subject := r.title }] t := by
  unfold afSend M.attempt at h
  cases hx : self { r.mm with subject := r.title } s with
  | ok a u => rw [hx] at h; cases h; exact .cons (.inl hx) (.nil _)
  | fail u => rw [hx] at h; cases h; exact .cons (.inr hx) (.nil _)
  | ub u => rw [hx] at h; cases h
  | stuck => rw [hx] at h; cases h

theorem chunkOf_append (a b : List Str) : chunkOf (a ++ b) = chunkOf a ++ chunkOf b := by simp [chunkOf]

theorem kludgeLines_control (force : Bool) (orig dest : Node4D) :
    ControlLines (netmailKludgeLines force orig dest).flatten := by
  refine ⟨_, rfl, fun l hl => ?_⟩
  unfold netmailKludgeLines at hl
  simp only [List.mem_append] at hl
  rcases hl with (hl | hl) | hl <;> (split at hl <;> simp only [List.mem_singleton, List.not_mem_nil] at hl) <;>
    (subst hl; exact ⟨by simp, List.getLast?_concat⟩)

/-- A line of a netmail goes to the end of its text. -/
theorem mmAddLine_netmail {m m' : MemMsg} {l : Str} (ha : m.area = []) (ht : TextOK m.text) (hl : l.length < 1000)
    (h : mmAddLine m l = .ok (some m')) : TextOK m'.text ∧ m'.text.flatten = m.text.flatten ++ l := by
  have hx : l.length + chunkLen < 2 ^ 32 := by unfold chunkLen; omega
  have key : ∀ m1 : MemMsg, m1.text = m.text → addText m1 l = .ok (some m') →
      TextOK m'.text ∧ m'.text.flatten = m.text.flatten ++ l := by
    intro m1 e h
    obtain ⟨t, e1, e2, e3⟩ := addText_ok m1 l (e ▸ ht) hx
    rw [e1] at h
    cases h
    exact ⟨e2, e ▸ e3⟩
  unfold mmAddLine at h
  simp only [ha, ne_eq, not_true_eq_false, false_and, if_false] at h
  split at h
  · simp only [bind, Except.bind] at h
    cases hp : processKludge m l with
    | error e => rw [hp] at h; cases h
    | ok m1 => rw [hp] at h; exact key m1 (processKludge_frame hp).text h
  · exact key m rfl h

/-- The same letterhead; the same addresses if no line is a control line. -/
structure Kin (ls : List Str) (m m' : MemMsg) : Prop where
  to : m'.to = m.to
  frm : m'.frm = m.frm
  attr : m'.attr = m.attr
  addr : (∀ l ∈ ls, l.head? ≠ some 1) → m'.orig = m.orig ∧ m'.dest = m.dest

theorem Kin.trans {a b c : MemMsg} {ls ms : List Str} (h1 : Kin ls a b) (h2 : Kin ms b c) : Kin (ls ++ ms) a c where
  to := h2.to.trans h1.to
  frm := h2.frm.trans h1.frm
  attr := h2.attr.trans h1.attr
  addr h := by
    obtain ⟨x1, x2⟩ := h1.addr fun l hl => h l (List.mem_append_left _ hl)
    obtain ⟨y1, y2⟩ := h2.addr fun l hl => h l (List.mem_append_right _ hl)
    exact ⟨y1.trans x1, y2.trans x2⟩

theorem Kin.weak {a b : MemMsg} {ls ms : List Str} (h : Kin ls a b) (hi : ∀ l ∈ ls, l.head? = some 1 → l ∈ ms) : Kin ms a b :=
  ⟨h.to, h.frm, h.attr, fun hm => h.addr fun l hl e => hm l (hi l hl e) e⟩

theorem mmAddLine_kin {m m' : MemMsg} {l : Str} (ha : m.area = []) (h : mmAddLine m (l ++ [13]) = .ok (some m')) : Kin [l] m m' := by
  have key : ∀ {m1 : MemMsg} {x : Str}, addText m1 x = .ok (some m') → m'.to = m1.to ∧ m'.frm = m1.frm ∧ m'.attr = m1.attr ∧
      m'.orig = m1.orig ∧ m'.dest = m1.dest := by
    intro m1 x h; rw [addText_keep h]; exact ⟨rfl, rfl, rfl, rfl, rfl⟩
  unfold mmAddLine at h
  simp only [ha, ne_eq, not_true_eq_false, false_and, if_false] at h
  split at h
  · next hk =>
    simp only [bind, Except.bind] at h
    cases hp : processKludge m (l ++ [13]) with
    | error e => rw [hp] at h; cases h
    | ok m1 =>
      rw [hp] at h
      obtain ⟨a, b, c, _, _⟩ := key h
      have f := processKludge_frame hp
      refine ⟨a.trans f.to, b.trans f.frm, c.trans f.attr, fun hl => absurd ?_ (hl l (by simp))⟩
      cases l with
      | nil => exact absurd hk (by decide)
      | cons x l => simpa using hk
  · obtain ⟨a, b, c, d, e⟩ := key h
    exact ⟨a, b, c, fun _ => ⟨d, e⟩⟩

/-- What the message of a reply shows so far. -/
structure Reading (r : AfReply) (n : Nat) (ls : List Str) : Prop where
  gen : r.Gen
  pos : 1 ≤ n
  part : r.part = n
  ok : TextOK r.mm.text
  shows : Shows r.mm (contFrom n ++ ls)

theorem title_eq {r : AfReply} {n : Nat} (h : r.part = n) : r.title = partTitle r.subject n := by
  unfold AfReply.title partTitle
  rw [h]
  by_cases e : n = 1 <;> simp [e]

/-- A message without text gets the control lines. -/
theorem kludges_reading {force : Bool} {m m' : MemMsg} (ht : m.text = []) (h : makeNetmailKludges force m = .ok (some m')) :
    TextOK m'.text ∧ Shows m' [] := by
  obtain ⟨t, e1, e2, e3⟩ := makeNetmailKludges_text force m (by rw [ht]; exact ⟨by simp, by simp⟩)
  rw [e1] at h
  cases h
  exact ⟨e3, (netmailKludgeLines force m.orig m.dest).flatten, kludgeLines_control _ _ _, by
    dsimp only; rw [e2, ht]; simp [chunkOf]⟩

theorem shows_line {m m' : MemMsg} {ls : List Str} {l : Str} (g : Gen m) (ht : TextOK m.text) (hs : Shows m ls)
    (add : List Str) (hl : l.length < 1000) (e : l = chunkOf add) (h : mmAddLine m l = .ok (some m')) :
    TextOK m'.text ∧ Shows m' (ls ++ add) := by
  obtain ⟨h1, h2⟩ := mmAddLine_netmail g.area ht hl h
  obtain ⟨k, hk, e1⟩ := hs
  exact ⟨h1, k, hk, by rw [h2, e1, chunkOf_append, e, List.append_assoc]⟩

theorem afInit_reading {env : Env} {frm to : Node4D} {toname subject : Str} {s t : HSt} {r : AfReply}
    (h : afInit env frm toname to subject s = .ok r t) : Reading r 1 [] ∧ r.lines = 0 ∧ r.subject = subject ∧ t = s ∧
      r.mm.orig = frm ∧ r.mm.dest = to ∧ r.mm.frm = s.cfg.sysop ∧ r.mm.to = toname ∧ r.mm.attr = FLAG_PVT := by
  have g := afInit_gen h
  unfold afInit at h
  rw [get_bind, bind_ok] at h
  obtain ⟨m, u, h1, h⟩ := h
  rw [liftO_ok] at h1
  cases h
  obtain ⟨h1, e⟩ := h1
  obtain ⟨h2, h3⟩ := kludges_reading rfl h1
  have hm := makeNetmailKludges_same h1
  refine ⟨⟨g, Nat.le_refl _, rfl, h2, h3⟩, rfl, rfl, e.symm, ?_⟩
  dsimp only
  rw [hm]
  exact ⟨rfl, rfl, rfl, rfl, rfl⟩

/-- The end of a part and the start of the next one. -/
theorem afSplit_reading {env : Env} {self : MemMsg → M Unit} (hs : Tame self) {r r' : AfReply} {n : Nat}
    {ls : List Str} {s t : HSt} (hr : Reading r n ls) (h : afSplit env self r s = .ok r' t) :
    ∃ m, Sends self s [m] t ∧ Shows m (contFrom n ++ ls ++ contIn false) ∧ m.subject = partTitle r.subject n ∧
      Reading r' (n + 1) [] ∧ r'.lines = 2 ∧ r'.subject = r.subject ∧ t.cfg = s.cfg ∧ Kin [] r.mm m := by
  have gr := (afSplit_uses env hr.gen).post _ _ _ _ h
  have hc := ((afSplit_cfg hs env hr.gen) s).1 _ _ h
  unfold afSplit at h
  rw [bind_ok] at h
  obtain ⟨m, u, h1, h⟩ := h
  rw [liftO_ok] at h1
  obtain ⟨h1, e⟩ := h1
  subst e
  rw [bind_ok] at h
  obtain ⟨_, u, h2, h⟩ := h
  rw [get_bind, bind_ok] at h
  obtain ⟨m2, v, h3, h⟩ := h
  rw [liftO_ok] at h3
  obtain ⟨h3, e⟩ := h3
  subst e
  rw [bind_ok] at h
  obtain ⟨m3, v, h4, h⟩ := h
  rw [liftO_ok] at h4
  obtain ⟨h4, e⟩ := h4
  subst e
  cases h
  obtain ⟨_, s1⟩ := shows_line hr.gen hr.ok hr.shows (contIn false) (by decide) (by decide) h1
  obtain ⟨k1, k2⟩ := kludges_reading (by rfl) h3
  have g2 : Gen m2 := (afReuse_gen env hr.gen _).keep (makeNetmailKludges_keep h3)
  obtain ⟨k3, k4⟩ := shows_line g2 k1 k2 (contFrom (n + 1))
    (by decide) (by rw [show contFrom (n + 1) = contFrom 2 from by unfold contFrom; rw [if_neg (by have := hr.pos; omega), if_neg (by decide)]]; decide) h4
  refine ⟨_, afSend_sends h2, s1, title_eq hr.part, ⟨gr, by omega, by dsimp only; rw [hr.part], k3, by simpa using k4⟩,
    rfl, rfl, hc, ?_⟩
  have kin := mmAddLine_kin (l := [13] ++ b!"(Continued in next message)") hr.gen.area h1
  exact (show Kin [[13] ++ b!"(Continued in next message)"] r.mm { m with subject := r.title } from
    ⟨kin.to, kin.frm, kin.attr, kin.addr⟩).weak (by decide)

/-- A line added to a reply: the message may be sent first. -/
theorem afAddLine_reading {env : Env} {self : MemMsg → M Unit} (hs : Tame self) {r r' : AfReply} {n : Nat}
    {ls : List Str} {l : Str} {s t : HSt} (hr : Reading r n ls) (h : afAddLine env self r l s = .ok r' t) :
    t.cfg = s.cfg ∧ r'.subject = r.subject ∧
    ((¬ (s.cfg.areafixMaxLines - 2 ≤ r.lines ∧ s.cfg.areafixMaxLines ≠ 0) ∧ t = s ∧ Reading r' n (ls ++ [l]) ∧
        r'.lines = r.lines + 1 ∧ Kin [l] r.mm r'.mm) ∨
      ((s.cfg.areafixMaxLines - 2 ≤ r.lines ∧ s.cfg.areafixMaxLines ≠ 0) ∧
        ∃ m, Sends self s [m] t ∧ Shows m (contFrom n ++ ls ++ contIn false) ∧ m.subject = partTitle r.subject n ∧
          Reading r' (n + 1) [l] ∧ r'.lines = 3 ∧ Kin [] r.mm m)) := by
  have gr := (afAddLine_uses env hr.gen l).post _ _ _ _ h
  unfold afAddLine at h
  rw [get_bind, bind_ok] at h
  obtain ⟨r1, u, h1, h⟩ := h
  by_cases hl : 199 ≤ l.length
  · rw [if_pos hl] at h; cases h
  rw [if_neg hl, bind_ok] at h
  obtain ⟨m, v, h2, h⟩ := h
  rw [liftO_ok] at h2
  obtain ⟨h2, e⟩ := h2
  subst e
  cases h
  have e : l ++ [13] = chunkOf [l] := by simp [chunkOf]
  by_cases hc : s.cfg.areafixMaxLines - 2 ≤ r.lines ∧ s.cfg.areafixMaxLines ≠ 0
  · rw [if_pos hc] at h1
    obtain ⟨m1, a1, a2, a3, a4, a5, a6, a8, a9⟩ := afSplit_reading hs hr h1
    obtain ⟨k1, k2⟩ := shows_line a4.gen a4.ok a4.shows [l] (by simp; omega) e h2
    exact ⟨a8, a6, .inr ⟨hc, m1, a1, a2, a3, ⟨gr, a4.pos, a4.part, k1, by simpa using k2⟩, by dsimp only; rw [a5]; rfl, a9⟩⟩
  · rw [if_neg hc] at h1
    cases h1
    obtain ⟨k1, k2⟩ := shows_line hr.gen hr.ok hr.shows [l] (by simp; omega) e h2
    exact ⟨rfl, rfl, .inl ⟨hc, rfl, ⟨gr, hr.pos, hr.part, k1, by simpa using k2⟩, rfl, mmAddLine_kin hr.gen.area h2⟩⟩

/-! ## Other messages -/

theorem attempt_sends {self : MemMsg → M Unit} {m : MemMsg} {s t : HSt} (h : M.attempt (self m) s = .ok () t) : Sends self s [m] t := by
  unfold M.attempt at h
  cases hx : self m s with
  | ok a u => rw [hx] at h; cases h; exact .cons (.inl hx) (.nil _)
  | fail u => rw [hx] at h; cases h; exact .cons (.inr hx) (.nil _)
  | ub u => rw [hx] at h; cases h
  | stuck => rw [hx] at h; cases h

theorem mmAddLine_same {m m' : MemMsg} {l : Str} (ha : m.area = []) (hl : l.head? ≠ some 1) (h : mmAddLine m l = .ok (some m')) :
    m' = { m with text := m'.text } := by
  unfold mmAddLine at h
  simp only [ha, ne_eq, not_true_eq_false, false_and, if_false] at h
  rw [if_neg hl] at h
  exact addText_keep h

theorem tid_same {m m' : MemMsg} (ha : m.area = []) (h : mmAddLine m tidLine = .ok (some m')) : m' = { m with text := m'.text } := by
  unfold mmAddLine at h
  simp only [ha, ne_eq, not_true_eq_false, false_and, if_false] at h
  rw [if_pos (by decide)] at h
  have e : processKludge m tidLine = .ok m := by
    have x1 : kRescanned m tidLine = m := by unfold kRescanned; rw [if_neg (by decide)]
    have x2 : kMsgid m tidLine = .ok m := by unfold kMsgid; rw [if_neg (by decide)]
    have x3 : kReply m tidLine = .ok m := by unfold kReply; rw [if_neg (by decide)]
    have x4 : kFmpt m tidLine = .ok m := by unfold kFmpt; rw [if_neg (by decide)]
    have x5 : kTopt m tidLine = .ok m := by unfold kTopt; rw [if_neg (by decide)]
    have x6 : kIntl m tidLine = .ok m := by unfold kIntl; rw [if_neg (by decide)]
    unfold processKludge
    simp only [bind, Except.bind, x1, x2, x3, x4, x5, x6]
    split <;> rfl
  rw [e] at h
  exact addText_keep h

/-- A new netmail shows nothing yet. -/
theorem newNetmail_tells {env : Env} {n : ConfigNode} {aka : Node4D} {to subject : Str} {s t : HSt} {m : MemMsg}
    (h : newNetmail env n.node aka to subject FLAG_PVT MMFLAG_AUTOGEN s = .ok m t) :
    t = s ∧ TextOK m.text ∧ Tells s.cfg (some aka) n to subject [] m := by
  unfold newNetmail at h
  rw [get_bind, bind_ok] at h
  obtain ⟨m1, u, h1, h⟩ := h
  rw [liftO_ok] at h1
  obtain ⟨h1, rfl⟩ := h1
  obtain ⟨k1, k2⟩ := kludges_reading (by rfl) h1
  have e1 := makeNetmailKludges_same h1
  have t1 : Tells s.cfg (some aka) n to subject [] m1 := by
    constructor
    · rw [e1]
    · rw [e1]
    · rw [e1]
    · rw [e1]
    · rw [e1]
    · rw [e1]
    · exact k2
  have ha : m1.area = [] := by rw [e1]
  split at h
  · rw [liftO_ok] at h
    obtain ⟨h, rfl⟩ := h
    obtain ⟨x1, x2⟩ := mmAddLine_netmail ha k1 (by decide) h
    have e2 := tid_same ha h
    refine ⟨rfl, x1, ?_⟩
    constructor
    · rw [e2]; exact t1.orig
    · rw [e2]; exact t1.dest
    · rw [e2]; exact t1.to
    · rw [e2]; exact t1.frm
    · rw [e2]; exact t1.subject
    · rw [e2]; exact t1.attr
    · obtain ⟨k, ⟨ls, hk, hc⟩, hf⟩ := k2
      refine ⟨k ++ tidLine, ⟨ls ++ [tidLine], by rw [hk]; simp, fun l hl => ?_⟩, by rw [x2, hf]; simp [chunkOf]⟩
      rcases List.mem_append.1 hl with hl | hl
      · exact hc l hl
      · rw [List.mem_singleton.1 hl]; exact ⟨by decide, by decide⟩
  · cases h
    exact ⟨rfl, k1, t1⟩

theorem Tells.line {c : Config} {aka : Option Node4D} {n : ConfigNode} {to subject : Str} {ls : List Str} {m m' : MemMsg}
    (h : Tells c aka n to subject ls m) (ht : TextOK m.text) (ha : m.area = []) {l : Str} (add : List Str) (e : l = chunkOf add)
    (hl : l.head? ≠ some 1) (hlen : l.length < 1000) (hm : mmAddLine m l = .ok (some m')) :
    TextOK m'.text ∧ m'.area = [] ∧ Tells c aka n to subject (ls ++ add) m' := by
  obtain ⟨x1, x2⟩ := mmAddLine_netmail ha ht hlen hm
  have e2 := mmAddLine_same ha hl hm
  refine ⟨x1, by rw [e2]; exact ha, ?_⟩
  constructor
  · rw [e2]; exact h.orig
  · rw [e2]; exact h.dest
  · rw [e2]; exact h.to
  · rw [e2]; exact h.frm
  · rw [e2]; exact h.subject
  · rw [e2]; exact h.attr
  · obtain ⟨k, hk, hf⟩ := h.shows
    exact ⟨k, hk, by rw [x2, hf, chunkOf_append, e, List.append_assoc]⟩

theorem mmAddLines_cons_ok {m m' : MemMsg} {l : Str} {ls : List Str} {s t : HSt} (h : mmAddLines m (l :: ls) s = .ok m' t) :
    ∃ m1, mmAddLine m l = .ok (some m1) ∧ mmAddLines m1 ls s = .ok m' t := by
  rw [mmAddLines, bind_ok] at h
  obtain ⟨m1, u, h1, h⟩ := h
  rw [liftO_ok] at h1
  obtain ⟨h1, rfl⟩ := h1
  exact ⟨m1, h1, h⟩

theorem Tells.lines {c : Config} {aka : Option Node4D} {n : ConfigNode} {to subject : Str} {ls cs rest : List Str} {m m' : MemMsg} {s t : HSt}
    (h : Tells c aka n to subject ls m) (ht : TextOK m.text) (ha : m.area = [])
    (hc : ∀ l ∈ cs, l.length < 80 ∧ l.head? ≠ some 1) (hm : mmAddLines m (cs.map (· ++ [13]) ++ rest) s = .ok m' t) :
    ∃ m1, TextOK m1.text ∧ m1.area = [] ∧ Tells c aka n to subject (ls ++ cs) m1 ∧ mmAddLines m1 rest s = .ok m' t := by
  induction cs generalizing ls m with
  | nil => exact ⟨m, ht, ha, by rw [List.append_nil]; exact h, hm⟩
  | cons l cs ih =>
    rw [List.map_cons, List.cons_append] at hm
    obtain ⟨m1, h1, h2⟩ := mmAddLines_cons_ok hm
    obtain ⟨k1, k2⟩ := hc l (by simp)
    obtain ⟨x1, x2, x3⟩ := h.line ht ha [l] (by simp [chunkOf]) (by cases l <;> simp_all) (by simp; omega) h1
    obtain ⟨m2, y1, y2, y3, y4⟩ := ih x3 x1 x2 (fun l hl => hc l (by simp [hl])) h2
    exact ⟨m2, y1, y2, by simpa using y3, y4⟩

end CM
