import Verif.Spec.Answers
import Verif.Lemmas.Readdress
import Verif.Lemmas.Reply
set_option linter.unusedSimpArgs false
namespace CM

theorem tid_other (m : MemMsg) : processKludge m tidLine = .ok m := processKludge_other m 84 73 _ (by decide)

theorem control_append {a b : Str} (h1 : ControlLines a) (h2 : ControlLines b) : ControlLines (a ++ b) := by
  obtain ⟨as, rfl, ha⟩ := h1
  obtain ⟨bs, rfl, hb⟩ := h2
  refine ⟨as ++ bs, by simp, fun l hl => ?_⟩
  rcases List.mem_append.1 hl with h | h
  · exact ha l h
  · exact hb l h

theorem newNetmail_writes (env : Env) (dest aka : Node4D) (to subject : Str) (attr flags : UInt16) (s : HSt) :
    ∃ m, newNetmail env dest aka to subject attr flags s = .ok m s ∧ Writes s.cfg aka dest to subject attr [] m ∧ TextOK m.text := by
  unfold newNetmail
  rw [get_bind]
  obtain ⟨t, e1, e2, e3⟩ := makeNetmailKludges_text (s.cfg.has CFG_FORCEINTL)
    { dest := dest, orig := aka, to := to, frm := s.cfg.sysop, subject := subject, attr := attr, date := env.fidoDate s.log, flags := flags }
    ⟨by simp, by simp⟩
  dsimp only at e1 e2
  cases hc : s.cfg.has CFG_ADDTID with
  | true =>
    obtain ⟨u, f1, f2, f3⟩ := addText_ok
      { dest := dest, orig := aka, to := to, frm := s.cfg.sysop, subject := subject, attr := attr, date := env.fidoDate s.log, flags := flags, text := t }
      tidLine e3 (by decide)
    refine ⟨{ dest := dest, orig := aka, to := to, frm := s.cfg.sysop, subject := subject, attr := attr, date := env.fidoDate s.log, flags := flags, text := u },
      ?_, ⟨rfl, rfl, rfl, rfl, rfl, rfl, rfl, _, control_append (kludgeLines_control (s.cfg.has CFG_FORCEINTL) aka dest) ⟨[tidLine], by simp; rfl, ?_⟩, ?_⟩, f2⟩
    · refine bind_ok.2 ⟨_, s, liftO_ok.2 ⟨e1, rfl⟩, ?_⟩
      rw [if_pos rfl]
      refine liftO_ok.2 ⟨?_, rfl⟩
      rw [mmAddLine_kludge _ tidLine _ rfl (by decide) (tid_other _)]
      exact f1
    · intro l hl
      simp only [List.mem_singleton] at hl
      subst hl
      decide
    · dsimp only
      rw [f3]
      dsimp only
      rw [e2]
      simp
  | false =>
    refine ⟨_, bind_ok.2 ⟨_, s, liftO_ok.2 ⟨e1, rfl⟩, by rw [if_neg (by simp)]; rfl⟩, ⟨rfl, rfl, rfl, rfl, rfl, rfl, rfl, _,
      kludgeLines_control (s.cfg.has CFG_FORCEINTL) aka dest, ?_⟩, e3⟩
    dsimp only
    rw [e2]
    simp

theorem Writes.grow {c : Config} {aka dest : Node4D} {to subject : Str} {attr : UInt16} {body : Str} {t : MemMsg}
    (h : Writes c aka dest to subject attr body t) {cs : List Str} {more : Str} (e : cs.flatten = t.text.flatten ++ more) :
    Writes c aka dest to subject attr (body ++ more) { t with text := cs } := by
  obtain ⟨k, h1, h2⟩ := h.text
  exact ⟨h.netmail, h.orig, h.dest, h.frm, h.to, h.subject, h.attr, k, h1, by dsimp only; rw [e, h2, List.append_assoc]⟩

/-- Lines that are not control lines are added as they are. -/
theorem writes_lines {c : Config} {aka dest : Node4D} {to subject : Str} {attr : UInt16} (s : HSt) : ∀ (ls : List Str) {body : Str} {t : MemMsg},
    Writes c aka dest to subject attr body t → TextOK t.text → (∀ l ∈ ls, l.head? ≠ some 1 ∧ l.length + chunkLen < 2 ^ 32) →
    ∃ t', mmAddLines t ls s = .ok t' s ∧ Writes c aka dest to subject attr (body ++ ls.flatten) t' ∧ TextOK t'.text
  | [], body, t, h, ht, _ => ⟨t, rfl, by simpa using h, ht⟩
  | l :: ls, body, t, h, ht, hl => by
    obtain ⟨h1, h2⟩ := hl l (by simp)
    obtain ⟨u, e1, e2, e3⟩ := addText_ok t l ht h2
    obtain ⟨t', f1, f2, f3⟩ := writes_lines s ls (h.grow e3) e2 fun x hx => hl x (by simp [hx])
    refine ⟨t', ?_, by simpa using f2, f3⟩
    rw [mmAddLines]
    refine bind_ok.2 ⟨_, s, liftO_ok.2 ⟨?_, rfl⟩, f1⟩
    unfold mmAddLine
    rw [if_neg (by simp [h.netmail]), if_neg (by simp [h.netmail]), if_neg (by simp [h.netmail]), if_neg h1, e1]

theorem madeVisible_flatten (cs : List Str) : (cs.map fun c => c.map fun b => if b = 1 then (64 : UInt8) else b).flatten = madeVisible cs.flatten := by
  unfold madeVisible
  rw [List.map_flatten]

theorem bounceHead_text {m : MemMsg} (h : Usual m) (reason : Str) (headerOnly : Bool) :
    ((reason ++ [13, 13]) :: bounceHead m headerOnly).flatten ++ (if headerOnly then [] else madeVisible m.text.flatten) =
      bounceText m m.sender reason headerOnly := by
  unfold bounceHead bounceText
  have h1 := h.area; have h2 := h.frm; have h3 := h.to
  rw [List.take_of_length_le (show m.area.length ≤ 80 by omega), List.take_of_length_le (show m.frm.length ≤ 40 by omega),
    List.take_of_length_le (show m.to.length ≤ 40 by omega)]
  simp only [shown_eq]
  by_cases ha : m.area = [] <;> cases headerOnly <;> simp [ha]

theorem bounce_spec {env : Env} {self : MemMsg → M Unit} {m : MemMsg} {reason : Str} {headerOnly : Bool} {s : HSt} {r : Route}
    (hm : m.has MMFLAG_AUTOGEN = false) (hr : s.cfg.findRoute m.sender = some r) (hu : Usual m) (hl : reason.length < 390)
    (h1 : reason.head? ≠ some 1) :
    ∃ t, bounce env self m reason headerOnly s = self t s ∧
      Writes s.cfg r.aka m.sender m.frm b!"Bounced message" FLAG_PVT (bounceText m m.sender reason headerOnly) t := by
  unfold bounce
  rw [if_neg (by simp [hm]), get_bind, hr]
  dsimp only
  obtain ⟨t, e1, e2, e3⟩ := newNetmail_writes env m.sender r.aka m.frm b!"Bounced message" FLAG_PVT MMFLAG_AUTOGEN s
  obtain ⟨t1, f1, f2, f3⟩ := writes_lines s ((reason ++ [13, 13]) :: bounceHead m headerOnly) e2 e3 (by
    have hs := addr4_length m.sender
    have hd := addr4_length m.dest
    obtain ⟨a1, a2, a3, a4, a5, _⟩ := hu
    intro l hl'
    rcases List.mem_cons.1 hl' with rfl | hl'
    · constructor
      · cases reason with
        | nil => simp
        | cons x xs => simpa using h1
      · simp [chunkLen]; omega
    · have hcl : chunkLen = 10000 := rfl
      unfold bounceHead at hl'
      simp only [List.mem_append, List.mem_cons, List.mem_nil_iff, or_false] at hl'
      rcases hl' with (rfl | hl') | rfl | rfl
      · cases headerOnly <;> simp [chunkLen]
      · split at hl'
        · simp only [List.mem_cons, List.mem_nil_iff, or_false] at hl'
          rcases hl' with rfl | rfl | rfl <;> refine ⟨by simp, ?_⟩ <;> simp [chunkLen] <;> omega
        · simp only [List.mem_cons, List.mem_nil_iff, or_false] at hl'
          rcases hl' with rfl | rfl <;> refine ⟨by simp, ?_⟩ <;> simp [chunkLen] <;> omega
      · refine ⟨by simp, ?_⟩; simp [chunkLen]; omega
      · refine ⟨by simp, ?_⟩; simp [chunkLen]; omega)
  rw [List.nil_append] at f2
  have hb := bounceHead_text hu reason headerOnly
  have key : ∀ (f : MemMsg → M Unit), (newNetmail env m.sender r.aka m.frm b!"Bounced message" FLAG_PVT MMFLAG_AUTOGEN >>= f) s = f t s := by
    intro f; simp only [bind, M.bind, e1]
  rw [key, if_neg (by omega)]
  have key2 : ∀ (f : MemMsg → M Unit), (mmAddLines t ((reason ++ [13, 13]) :: bounceHead m headerOnly) >>= f) s = f t1 s := by
    intro f; simp only [bind, M.bind, f1]
  rw [key2]
  cases headerOnly with
  | true =>
    refine ⟨t1, by rw [if_pos rfl], ?_⟩
    rw [← hb]; simpa using f2
  | false =>
    rw [if_neg (by simp)]
    obtain ⟨cs, g1, g2, g3⟩ := addBufs_ok (m.text.map fun c => c.map fun b => if b = 1 then 64 else b) t1.text s f3 (by
      intro l hl'
      obtain ⟨c, hc, rfl⟩ := List.mem_map.1 hl'
      have := hu.chunks c hc
      simp only [chunkLen] at this
      simp [chunkLen]; omega)
    refine ⟨{ t1 with text := cs }, ?_, ?_⟩
    · simp only [bind, M.bind, g1]
    · rw [← hb, ← madeVisible_flatten]
      exact f2.grow g2

theorem answerReceipt_spec {env : Env} {self : MemMsg → M Unit} {m : MemMsg} {s : HSt} {r : Route}
    (hr : s.cfg.findRoute m.orig = some r) (hu : Usual m) :
    ∃ t, answerReceipt env self m s = self t s ∧
      Writes s.cfg r.aka m.orig m.frm b!"Receipt" (FLAG_PVT ||| FLAG_IRRR) (receiptText m) t := by
  unfold answerReceipt
  rw [get_bind, hr]
  dsimp only
  obtain ⟨t, e1, e2, e3⟩ := newNetmail_writes env m.orig r.aka m.frm b!"Receipt" (FLAG_PVT ||| FLAG_IRRR) 0 s
  have key : ∀ (f : MemMsg → M Unit), (newNetmail env m.orig r.aka m.frm b!"Receipt" (FLAG_PVT ||| FLAG_IRRR) 0 >>= f) s = f t s := by
    intro f; simp only [bind, M.bind, e1]
  rw [key]
  obtain ⟨t1, f1, f2, f3⟩ := writes_lines s [receiptText m] e2 e3 (by
    obtain ⟨a1, a2, a3, a4, a5, _⟩ := hu
    intro l hl
    simp only [List.mem_singleton] at hl
    subst hl
    have hn : arrivedText.length ≤ 300 := by decide +kernel
    refine ⟨by simp only [receiptText, yourMessage, List.append_assoc, List.cons_append, List.head?_cons]; decide, ?_⟩
    simp only [receiptText, yourMessage, chunkLen, List.length_append, List.length_cons, List.length_nil]; omega)
  have hx : (b!"Your message to " ++ m.to ++ b!" dated " ++ m.date ++
      b!" with the subject \"" ++ m.subject ++ b!"\" has reached its final destination. This message doesn't mean that the message has been read, it just tells you that it has arrived at this system." ++ [13, 13]) = receiptText m := by
    have hn : b!"\" has reached its final destination. This message doesn't mean that the message has been read, it just tells you that it has arrived at this system." = b!"\"" ++ arrivedText := rfl
    rw [hn]
    simp only [receiptText, yourMessage, List.append_assoc]
  rw [hx]
  refine ⟨t1, ?_, by simpa using f2⟩
  simp only [bind, M.bind, f1]

theorem answerAudit_spec {env : Env} {self : MemMsg → M Unit} {m : MemMsg} {s : HSt} {r d : Route}
    (hr : s.cfg.findRoute m.orig = some r) (hd : s.cfg.findRoute m.dest = some d) (hu : Usual m) :
    ∃ t, answerAudit env self m s = self t s ∧
      Writes s.cfg r.aka m.orig m.frm b!"Audit" FLAG_PVT (auditText m (expandNodePat s.cfg.nl d.destPat m.dest)) t := by
  unfold answerAudit
  rw [get_bind, hr]
  dsimp only
  obtain ⟨t, e1, e2, e3⟩ := newNetmail_writes env m.orig r.aka m.frm b!"Audit" FLAG_PVT MMFLAG_AUTOGEN s
  have key : ∀ (f : MemMsg → M Unit), (newNetmail env m.orig r.aka m.frm b!"Audit" FLAG_PVT MMFLAG_AUTOGEN >>= f) s = f t s := by
    intro f; simp only [bind, M.bind, e1]
  rw [key, hd]
  dsimp only
  generalize expandNodePat s.cfg.nl d.destPat m.dest = a
  obtain ⟨t1, f1, f2, f3⟩ := writes_lines s [auditText m a] e2 e3 (by
    have := shown_eq a
    have := addr4_length a
    obtain ⟨a1, a2, a3, a4, a5, _⟩ := hu
    intro l hl
    simp only [List.mem_singleton] at hl
    subst hl
    refine ⟨by simp [auditText, yourMessage], ?_⟩
    simp [auditText, yourMessage, chunkLen, shown_eq]; omega)
  have hx : (b!"Your message to " ++ m.to ++ b!" dated " ++ m.date ++ b!" with the subject \"" ++
          m.subject ++ b!"\" has just been routed to " ++ addr4 a ++
          b!" by this system." ++ [13, 13]) = auditText m a := by
    simp [auditText, yourMessage, shown_eq]
  rw [hx]
  refine ⟨t1, ?_, by simpa using f2⟩
  simp only [bind, M.bind, f1]

theorem filterCopy_spec {env : Env} {m : MemMsg} {tag : Str} {s : HSt} {i : Nat} {a : Area} (hf : s.cfg.findArea tag = some i)
    (ha : s.cfg.areas[i]? = some a) (hb : a.base.isSome = true) (hu : Usual m) :
    ∃ x cs, x = { m with text := cs } ∧ cs.flatten = copyText m ∧ TextOK cs ∧
      (env.importOk s.log i x = true → filterCopy env m tag s = .ok m { s with log := s.log ++ [.importMsg i x] }) ∧
      (env.importOk s.log i x = false → filterCopy env m tag s = .ok x s) := by
  obtain ⟨cs, g1, g2, g3⟩ := addBufs_ok ((if m.area = [] then [] else [b!"AREA:" ++ m.area ++ [13]]) ++ m.text) [] s ⟨by simp, by simp⟩ (by
    intro l hl
    rcases List.mem_append.1 hl with hl | hl
    · split at hl
      · simp at hl
      · simp only [List.mem_singleton] at hl
        subst hl
        have := hu.area
        simp [chunkLen]; omega
    · have := hu.chunks l hl
      simp only [chunkLen] at this ⊢
      omega)
  have e : filterCopy env m tag s = copyInto env i m cs s := by
    unfold filterCopy
    rw [get_bind, hf]
    dsimp only
    simp only [bind, M.bind, g1, ha, Option.bind_some, hb, if_true]
  refine ⟨{ m with text := cs }, cs, rfl, ?_, g3, ?_, ?_⟩
  · rw [g2]
    unfold copyText
    by_cases h : m.area = [] <;> simp [h]
  · intro h
    rw [e]
    unfold copyInto importMsg
    rw [if_pos h]
  · intro h
    rw [e]
    unfold copyInto importMsg
    rw [if_neg (by simp [h])]

end CM
