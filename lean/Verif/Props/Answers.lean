import Verif.Lemmas.Answers
import Verif.Props.Readdress
/-! # C107: senders are told what has become of their messages, and copies are copies -/

set_option linter.unusedSimpArgs false
namespace CM

/-- C107. A bounced message comes back to its sender, once, with the reason, its header and, unless only the header is
wanted, its whole text with the control characters made visible. -/
theorem bounce_told {env : Env} {self : MemMsg → M Unit} {m : MemMsg} {reason : Str} {headerOnly : Bool} {s : HSt} {r : Route}
    (hm : m.has MMFLAG_AUTOGEN = false) (hr : s.cfg.findRoute m.sender = some r) (hu : Usual m) (hl : reason.length < 390)
    (h1 : reason.head? ≠ some 1) :
    ∃ t, bounce env self m reason headerOnly s = self t s ∧
      Writes s.cfg r.aka m.sender m.frm b!"Bounced message" FLAG_PVT (bounceText m m.sender reason headerOnly) t :=
  bounce_spec hm hr hu hl h1

/-- C107. A receipt goes to the sender, once, and names the message. -/
theorem receipt_told {env : Env} {self : MemMsg → M Unit} {m : MemMsg} {s : HSt} {r : Route}
    (hr : s.cfg.findRoute m.orig = some r) (hu : Usual m) :
    ∃ t, answerReceipt env self m s = self t s ∧
      Writes s.cfg r.aka m.orig m.frm b!"Receipt" (FLAG_PVT ||| FLAG_IRRR) (receiptText m) t :=
  answerReceipt_spec hr hu

/-- C107. A receipt is only sent for a message that has been stored or has no text: the import of a netmail that asks for a
receipt either stores it, finds it empty, or has no message base. -/
theorem receipt_after_import {env : Env} {self : MemMsg → M Unit} {i : Nat} {m : MemMsg} {s : HSt} {a : Area}
    (ht : m.has MMFLAG_TWIT = false) (ha : s.cfg.areas[i]? = some a) (hb : a.base.isSome = true)
    (hi : s.cfg.has CFG_IMPORTEMPTYNETMAIL = true)
    (hq : (markSent (stripSubject s.cfg (stripSubject s.cfg m))).attrHas FLAG_RREQ = true) (hc : s.cfg.has CFG_ANSWERRECEIPT = true) :
    (env.importOk s.log i (markSent (stripSubject s.cfg (stripSubject s.cfg m))) = true →
      importNetmail env self i m s = answerReceipt env self (markSent (stripSubject s.cfg (stripSubject s.cfg m)))
        { s with log := s.log ++ [.importMsg i (markSent (stripSubject s.cfg (stripSubject s.cfg m)))] }) ∧
    (env.importOk s.log i (markSent (stripSubject s.cfg (stripSubject s.cfg m))) = false → importNetmail env self i m s = .fail s) := by
  obtain ⟨x, hx⟩ : ∃ x, x = markSent (stripSubject s.cfg (stripSubject s.cfg m)) := ⟨_, rfl⟩
  have hbase : (s.cfg.areas[i]?.bind (·.base)).isSome = true := by rw [ha]; exact hb
  have key : importNetmail env self i m s = (importMsg env i x >>= fun _ => answerReceipt env self x) s := by
    rw [hx]
    rw [← hx] at hq ⊢
    unfold importNetmail
    rw [if_neg (by simp [ht]), get_bind]
    dsimp only
    rw [if_pos hi, ← hx]
    change ((pure true : M Bool) >>= _) s = _
    rw [show ∀ f : Bool → M Unit, ((pure true : M Bool) >>= f) s = f true s from fun _ => rfl]
    rw [if_pos (by rw [hbase]; rfl)]
    simp only [bind, M.bind]
    cases importMsg env i x s with
    | ok _ t => exact congrFun (if_pos (by rw [hq, hc]; rfl)) t
    | fail _ => rfl
    | ub _ => rfl
    | stuck => rfl
  rw [key]
  constructor
  · intro h
    rw [← hx] at h
    simp only [bind, M.bind, importMsg, h, if_true, ← hx]
  · intro h
    rw [← hx] at h
    simp [bind, M.bind, importMsg, h]

/-- C107. An audit goes to the sender, once, and tells the next system. -/
theorem audit_told {env : Env} {self : MemMsg → M Unit} {m : MemMsg} {s : HSt} {r d : Route}
    (hr : s.cfg.findRoute m.orig = some r) (hd : s.cfg.findRoute m.dest = some d) (hu : Usual m) :
    ∃ t, answerAudit env self m s = self t s ∧
      Writes s.cfg r.aka m.orig m.frm b!"Audit" FLAG_PVT (auditText m (expandNodePat s.cfg.nl d.destPat m.dest)) t :=
  answerAudit_spec hr hd hu

/-- C107. That is the system an ordinary message has been sent to, up to the point. What is missing: messages that are sent
directly (`Ex.audit_direct`). -/
theorem audit_true_partial {c : Config} {dest d aka : Node4D} {pri : Pri} {r : Route} (hr : c.findRoute dest = some r)
    (h : routeNetmail c.nl c.routes c.changes dest .normal = some (d, pri, aka)) :
    d.zone = (expandNodePat c.nl r.destPat dest).zone ∧ d.net = (expandNodePat c.nl r.destPat dest).net ∧
      d.node = (expandNodePat c.nl r.destPat dest).node ∧
      (d.point = (expandNodePat c.nl r.destPat dest).point ∨ d.point = 0) := by
  unfold routeNetmail at h
  have hr' : c.routes.find? (fun r => compare4DPat c.nl r.pattern dest) = some r := hr
  rw [hr'] at h
  simp only [if_true, Option.some.injEq, Prod.mk.injEq] at h
  obtain ⟨rfl, _, _⟩ := h
  split
  · exact ⟨rfl, rfl, rfl, .inr rfl⟩
  · exact ⟨rfl, rfl, rfl, .inl rfl⟩

/-- C107. COPY stores the message, with the name of its area in front if it is echomail, and goes on with the message as it
was; the area must have a message base. If the copy cannot be stored, the message goes on with the text of the copy. -/
theorem copy_partial {env : Env} {gen : MemMsg → M Unit} {m : MemMsg} {tag : Str} {s : HSt} {i : Nat} {a : Area} (hf : s.cfg.findArea tag = some i)
    (ha : s.cfg.areas[i]? = some a) (hb : a.base.isSome = true) (hu : Usual m) :
    ∃ x cs, x = { m with text := cs } ∧ cs.flatten = copyText m ∧ TextOK cs ∧
      (env.importOk s.log i x = true → runCommand env gen m (.copy tag) s = .ok m { s with log := s.log ++ [.importMsg i x] }) ∧
      (env.importOk s.log i x = false → runCommand env gen m (.copy tag) s = .ok x s) :=
  filterCopy_spec hf ha hb hu

/-- C107. Without such an area nothing is copied. -/
theorem copy_nowhere {env : Env} {gen : MemMsg → M Unit} {m : MemMsg} {tag : Str} {s : HSt} (hf : s.cfg.findArea tag = none) :
    runCommand env gen m (.copy tag) s = .ok m s := by
  simp only [runCommand, filterCopy]
  rw [get_bind, hf]
  rfl

namespace Ex

/-- 1:2/3 sends everything that is not for itself to 1:2/9. -/
def relay (flags : UInt32) (areas : List Area) : Config :=
  { bouncer 3 4 with
    flags := flags
    areas := areas
    filters := []
    fileAttachList := [⟨.pattern, b!"*", b!"*", b!"*", b!"*"⟩]
    routes := [⟨⟨.pattern, b!"*", b!"*", b!"*", b!"*"⟩, ⟨.pattern, b!"1", b!"2", b!"9", b!"0"⟩, ⟨1, 2, 3, 0⟩⟩] }

/-- A letter from 1:2/4 to 1:2/5. -/
def transit (attr : UInt16) : MemMsg := { letter with dest := ⟨1, 2, 5, 0⟩, attr := attr }

/-- C107. The messages are usual ones. -/
theorem answers_usual : Usual letter ∧ Usual (transit FLAG_AUDIT) ∧ Usual { letter with area := b!"test" } := by
  refine ⟨⟨?_, ?_, ?_, ?_, ?_, ?_⟩, ⟨?_, ?_, ?_, ?_, ?_, ?_⟩, ⟨?_, ?_, ?_, ?_, ?_, ?_⟩⟩ <;> decide

/-- C107. The conditions of `bounce_told`, `receipt_told`, `audit_told` and `audit_true_partial` are met. -/
theorem answers_routes : ∃ r, (relay CFG_ANSWERAUDIT []).findRoute (transit FLAG_AUDIT).orig = some r ∧
    (relay CFG_ANSWERAUDIT []).findRoute (transit FLAG_AUDIT).dest = some r ∧
    (routeNetmail (relay CFG_ANSWERAUDIT []).nl (relay CFG_ANSWERAUDIT []).routes (relay CFG_ANSWERAUDIT []).changes
      (transit FLAG_AUDIT).dest .normal).isSome = true ∧ letter.has MMFLAG_AUTOGEN = false :=
  ⟨_, rfl, rfl, by decide +kernel, by decide⟩

/-- C107. A bounce. -/
theorem bounced_letter : ((got (bounce env (fun t => M.emit (.netmail t.dest t.orig t)) letter b!"no" false (st (bouncer 3 4)))).map
    fun x => (x.2.2.dest, x.2.2.to)) = [(⟨1, 2, 4, 0⟩, b!"A")] ∧
    (got (bounce env (fun t => M.emit (.netmail t.dest t.orig t)) letter b!"no" false (st (bouncer 3 4)))).all (fun x =>
      (b!"no\r\rThis is the message that was bounced:\r\rFrom: A (1:2/4.0)\r  To: B (1:2/3.0)\rSubj: Hi\rDate: 01 Jan 00  00:00:00\r\rhello\r").isSuffixOf
        x.2.2.text.flatten) = true := by
  decide +kernel

/-- C107. A receipt for a letter that has been stored. -/
theorem receipt_sent : ((got (handleMessage env noAf 3 { letter with attr := FLAG_RREQ }
    (st (relay (CFG_ANSWERRECEIPT ||| CFG_IMPORTEMPTYNETMAIL) [{ tag := b!"NETMAIL", type := .netmail, base := some 0, aka := some 0 }])))).map
    fun x => (x.2.2.dest, x.2.2.to, x.2.2.subject)) = [(⟨1, 2, 4, 0⟩, b!"A", b!"Receipt")] := by
  decide +kernel

/-- C107 (violated). A letter from a point that is not configured asks for a receipt. The receipt is a message of the program itself, but is
not marked as one (the letter is marked instead): it is bounced, and the operator gets the bounced receipt. -/
theorem receipt_bounced :
    (match handleMessage env noAf 4 { letter with attr := FLAG_RREQ, orig := ⟨1, 2, 3, 77⟩ }
      (st (relay (CFG_ANSWERRECEIPT ||| CFG_IMPORTEMPTYNETMAIL ||| CFG_BOUNCEPOINTS) [{ tag := b!"NETMAIL", type := .netmail, base := some 0, aka := some 0 }])) with
    | .ok _ t => t.log.filterMap (fun e => match e with
      | .importMsg _ x => some (x.orig, x.dest, x.subject)
      | _ => none)
    | _ => []) = [(⟨1, 2, 3, 77⟩, ⟨1, 2, 3, 0⟩, b!"Hi"), (⟨1, 2, 3, 0⟩, ⟨1, 2, 3, 0⟩, b!"Bounced message")] := by
  decide +kernel

/-- The text is found in another one. -/
def tells (x : Str) : Str → Bool
  | [] => x == []
  | b :: r => x.isPrefixOf (b :: r) || tells x r

/-- C107. An audit: the letter goes to 1:2/9, and that is what the sender is told. -/
theorem audit_sent : ((got (handleMessage env noAf 3 (transit FLAG_AUDIT) (st (relay CFG_ANSWERAUDIT [])))).map
    fun x => (x.1, x.2.2.dest, x.2.2.subject)) =
      [(⟨1, 2, 9, 0⟩, ⟨1, 2, 5, 0⟩, b!"Hi"), (⟨1, 2, 9, 0⟩, ⟨1, 2, 4, 0⟩, b!"Audit")] ∧
    (got (handleMessage env noAf 3 (transit FLAG_AUDIT) (st (relay CFG_ANSWERAUDIT [])))).any (fun x =>
      x.2.2.subject == b!"Audit" && tells b!"routed to 1:2/9.0 by this system.\r" x.2.2.text.flatten) = true := by
  decide +kernel

/-- C107. A file attach is sent to 1:2/5 itself, and the sender is still told that it has been sent to 1:2/9. -/
theorem audit_direct : ((got (handleMessage env noAf 3 (transit (FLAG_AUDIT ||| FLAG_FILEATTACH)) (st (relay CFG_ANSWERAUDIT [])))).filter
      (fun x => x.2.2.subject != b!"Audit")).map (fun x => (x.1, x.2.2.dest)) = [(⟨1, 2, 5, 0⟩, ⟨1, 2, 5, 0⟩)] ∧
    (got (handleMessage env noAf 3 (transit (FLAG_AUDIT ||| FLAG_FILEATTACH)) (st (relay CFG_ANSWERAUDIT [])))).any (fun x =>
      x.2.2.subject == b!"Audit" && tells b!"routed to 1:2/9.0 by this system.\r" x.2.2.text.flatten) = true := by
  decide +kernel

/-- C107. The echomail message of an area that is copied to the area COPIES. -/
def copiedMsg : MemMsg := { letter with area := b!"test" }

def copies (base : Option Nat) : Config := relay 0 [{ tag := b!"COPIES", type := .local, base := base, aka := some 0 }]

/-- C107. The copy is stored with the name of its area, and the message goes on as it was. -/
theorem copy_made : (match runCommand env (fun _ => M.fail) copiedMsg (.copy b!"COPIES") (st (copies (some 0))) with
    | .ok m t => m.text == copiedMsg.text && t.log.any (fun e => match e with
        | .importMsg 0 x => x.text.flatten == b!"AREA:test\rhello\r"
        | _ => false)
    | _ => false) = true := by decide +kernel

/-- C107. The conditions of `copy_partial` are met. -/
theorem copy_area : ∃ a, (copies (some 0)).findArea b!"COPIES" = some 0 ∧ (copies (some 0)).areas[0]? = some a ∧ a.base.isSome = true ∧
    (copies (some 0)).findArea b!"OTHER" = none :=
  ⟨_, by decide +kernel, rfl, rfl, by decide +kernel⟩

/-- C107. An area without a message base: the program crashes. -/
theorem copy_passthrough : (match runCommand env (fun _ => M.fail) copiedMsg (.copy b!"COPIES") (st (copies none)) with
    | .ub .nullDeref => true
    | _ => false) = true := by decide +kernel

/-- C107. If the copy cannot be stored, the message goes on with the text of the copy. -/
theorem copy_failed : (ranTo (runCommand { env with importOk := fun _ _ _ => false } (fun _ => M.fail) copiedMsg (.copy b!"COPIES")
    (st (copies (some 0))))).map (·.text.flatten) = some b!"AREA:test\rhello\r" := by decide +kernel

end Ex
end CM
