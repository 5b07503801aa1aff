import Verif.Lemmas.RequestText
/-!
# Requests to AreaFix

C88.
-/

set_option linter.unusedSimpArgs false
namespace CM

/-- The answer to the word in the subject that asks for the list of areas. -/
def subjectAnswer (subject : Str) : List Str :=
  match subjectList subject with
  | some w => answer w b!"Sending list of all areas"
  | none => []

/-- The list or text sent. -/
def sheetTo (env : Env) (self : MemMsg → M Unit) (aka : Node4D) (toname : Str) (ci : Nat) : Sheet → M Unit
  | .list => sendList env self .full aka toname ci
  | .query => sendList env self .query aka toname ci
  | .unlinked => sendList env self .unlinked aka toname ci
  | .help => sendHelp env self aka toname ci
  | .info => sendInfo env self aka toname ci

/-- Between `s` and `t`, it has been sent while the configuration was `c`. -/
def SheetSent (env : Env) (self : MemMsg → M Unit) (aka : Node4D) (toname : Str) (ci : Nat) (c : Config) (s t : HSt) (k : Sheet) :
    Prop :=
  ∃ u v, s.log <+: u.log ∧ u.cfg = c ∧ sheetTo env self aka toname ci k u = .ok () v ∧ v.log <+: t.log

theorem sheetTo_calm {self : MemMsg → M Unit} (hs : Settled self) (env : Env) (aka : Node4D) (toname : Str) (ci : Nat) (k : Sheet) :
    Sat Undisturbed (sheetTo env self aka toname ci k) := by
  cases k
  · exact sendList_calm hs env _ _ _ _
  · exact sendList_calm hs env _ _ _ _
  · exact sendList_calm hs env _ _ _ _
  · exact sendHelp_calm hs env _ _ _
  · exact sendInfo_calm hs env _ _ _

theorem opt_calm {self : MemMsg → M Unit} (hs : Settled self) {env : Env} {aka : Node4D} {toname : Str} {ci : Nat} {k : Sheet} {b : Bool}
    {s t : HSt} (h : (if b = true then sheetTo env self aka toname ci k else pure () : M Unit) s = .ok () t) :
    t.cfg = s.cfg ∧ s.log <+: t.log ∧ (b = true → sheetTo env self aka toname ci k s = .ok () t) := by
  cases b with
  | false => cases h; exact ⟨rfl, List.prefix_refl _, fun e => by cases e⟩
  | true =>
    rw [if_pos rfl] at h
    obtain ⟨c1, c2⟩ := (sheetTo_calm hs env aka toname ci k s).1 _ _ h
    exact ⟨c1, c2, fun _ => h⟩

theorem afLists_run {self : MemMsg → M Unit} (hs : Settled self) {env : Env} {aka : Node4D} {toname : Str} {ci : Nat} {st : AfSt}
    {s t : HSt} (h : afLists env self aka toname ci st s = .ok () t) :
    t.cfg = s.cfg ∧ s.log <+: t.log ∧ ∀ k, st.asks k = true → SheetSent env self aka toname ci s.cfg s t k := by
  unfold afLists at h
  rw [bind_ok] at h
  obtain ⟨_, s1, h1, h⟩ := h
  rw [bind_ok] at h
  obtain ⟨_, s2, h2, h⟩ := h
  rw [bind_ok] at h
  obtain ⟨_, s3, h3, h⟩ := h
  rw [bind_ok] at h
  obtain ⟨_, s4, h4, h5⟩ := h
  obtain ⟨a1, b1, d1⟩ := opt_calm hs (k := .list) h1
  obtain ⟨a2, b2, d2⟩ := opt_calm hs (k := .query) h2
  obtain ⟨a3, b3, d3⟩ := opt_calm hs (k := .unlinked) h3
  obtain ⟨a4, b4, d4⟩ := opt_calm hs (k := .help) h4
  obtain ⟨a5, b5, d5⟩ := opt_calm hs (k := .info) h5
  refine ⟨by rw [a5, a4, a3, a2, a1], ((((b1.trans b2).trans b3).trans b4).trans b5), fun k hk => ?_⟩
  cases k with
  | list => exact ⟨s, s1, List.prefix_refl _, rfl, d1 hk, ((b2.trans b3).trans b4).trans b5⟩
  | query => exact ⟨s1, s2, b1, a1, d2 hk, (b3.trans b4).trans b5⟩
  | unlinked => exact ⟨s2, s3, b1.trans b2, by rw [a2, a1], d3 hk, b4.trans b5⟩
  | help => exact ⟨s3, s4, (b1.trans b2).trans b3, by rw [a3, a2, a1], d4 hk, b5⟩
  | info => exact ⟨s4, t, ((b1.trans b2).trans b3).trans b4, by rw [a4, a3, a2, a1], d5 hk, List.prefix_refl _⟩

theorem Replied.prefix {env : Env} {self : MemMsg → M Unit} {r r' : AfReply} {s t : HSt} {ls : List Str}
    (h : Replied env self r s ls r' t) (hs : Settled self) (g : r.Gen) : s.log <+: t.log := by
  induction h with
  | nil => exact List.prefix_refl _
  | line h _ ih =>
    exact (((afAddLine_calm hs env g _ _).1 _ _ h).2).trans (ih ((afAddLine_uses env g _).post _ _ _ _ h))
  | other h _ _ ih => exact h.trans (ih g)

theorem findIdx_authorised {c : Config} {m : MemMsg} {ci : Nat} (h : Authorised c m ci) :
    c.nodes.findIdx? (fun n => compare4D n.node m.orig == 0) = some ci := by
  obtain ⟨cn, h1, h2, h3, -⟩ := h
  obtain ⟨hi, e⟩ := List.getElem?_eq_some_iff.1 h1
  refine List.findIdx?_eq_some_iff_getElem.2 ⟨hi, ?_, fun j hj => ?_⟩
  · rw [e]; exact (compare4D_beq _ _).2 h2
  · intro x
    exact h3 j _ hj (List.getElem?_eq_getElem (by omega)) ((compare4D_beq _ _).1 x)

/-- C88. A request of a node that is known and has given its password, which the program answers: the
lines of the text up to the tear line are answered one after the other as the rules say, and the
configuration becomes what the rules say; the messages of the reply show these answers and nothing
else, in order, and the first of them is a private one to the writer of the request; the lists asked for are sent, and they show the new configuration; and the commands for
other nodes are sent. -/
theorem request_answered_partial (env : Env) (n : Nat) (m : MemMsg) (s t : HSt) (h : runAreafix env n m s = .ok () t) (ci : Nat)
    (ha : Authorised s.cfg m ci) (rt : Route) (hrt : s.cfg.findRoute m.orig = some rt)
    (hlive : ∀ a ∈ s.cfg.areas, a.type ≠ .deleted) :
    ∃ c as did ks ms os, Answered env rt.aka ci s.cfg false (requestLines m.text) c as did ks ∧ t.cfg = queuesSent c ∧
      HandsOver (handleMessage env (areaFix env) n) s ms t ∧
      InParts (lineBound s.cfg.areafixMaxLines) b!"AreaFix response" 1 ms
        (subjectAnswer m.subject ++ as ++
          if did = true ∨ (subjectList m.subject).isSome = true then [] else [b!"Nothing to do."]) ∧
      Addressed rt.aka m.orig s.cfg.sysop m.frm (subjectAnswer m.subject ++ as ++
          if did = true ∨ (subjectList m.subject).isSome = true then [] else [b!"Nothing to do."]) ms ∧
      (∀ k ∈ ks, SheetSent env (handleMessage env (areaFix env) n) rt.aka m.frm ci c s t k) ∧
      ((subjectList m.subject).isSome = true →
        SheetSent env (handleMessage env (areaFix env) n) rt.aka m.frm ci c s t .list) ∧
      OrdersMailed c c.nodes os ∧ HandsOver (handleMessage env (areaFix env) n) s os t := by
  have hs := handleMessage_settled env (areaFix env) n
  have hidx := findIdx_authorised ha
  obtain ⟨cn, hcn, -, -, hpw⟩ := ha
  unfold runAreafix at h
  generalize handleMessage env (areaFix env) n = self at h hs ⊢
  unfold areaFix at h
  rw [get_bind, hrt] at h
  dsimp only at h
  rw [bind_ok] at h
  obtain ⟨r, s1, h1, h⟩ := h
  obtain ⟨hr, hl, hsub, rfl, i1, i2, i3, i4, i5⟩ := afInit_reading h1
  rw [hidx] at h
  dsimp only at h
  rw [hcn] at h
  dsimp only at h
  rw [hpw] at h
  simp only [Bool.not_true, Bool.false_eq_true, if_false] at h
  unfold afRun at h
  have hsl : subjectList m.subject = if ((jbstrcpy 100 (jbstrcpy 100 m.subject).2.1).2.2 &&
      (eqi (jbstrcpy 100 (jbstrcpy 100 m.subject).2.1).1 b!"-q" || eqi (jbstrcpy 100 (jbstrcpy 100 m.subject).2.1).1 b!"-l")) = true then
      some (jbstrcpy 100 (jbstrcpy 100 m.subject).2.1).1 else none := by
    unfold subjectList
    dsimp only
    have e : ∀ w : Str, (w.map lower = b!"-q" ∨ w.map lower = b!"-l") ↔ (eqi w b!"-q" || eqi w b!"-l") = true := by
      intro w
      rw [Bool.or_eq_true, eqi_iff, eqi_iff]
      exact Iff.rfl
    simp only [e, Bool.and_eq_true]
  rw [bind_ok] at h
  obtain ⟨st, s2, h2, h⟩ := h
  have hstart : s2.cfg = s1.cfg ∧ Replied env self r s1 (subjectAnswer m.subject) st.r s2 ∧ st.rescan = false ∧
      st.done = (subjectList m.subject).isSome ∧
      ∀ k, st.asks k = decide (k = .list ∧ (subjectList m.subject).isSome = true) := by
    unfold subjectAnswer
    rw [hsl]
    split at h2
    · next hc =>
      rw [if_pos hc]
      rw [bind_ok] at h2
      obtain ⟨r1, u, h3, h2⟩ := h2
      cases h2
      obtain ⟨c1, c2⟩ := told_answer hs hr.gen h3
      exact ⟨c1, c2, rfl, rfl, fun k => by cases k <;> simp [AfSt.asks]⟩
    · next hc =>
      rw [if_neg hc]
      cases h2
      exact ⟨rfl, .nil, rfl, rfl, fun k => by cases k <;> simp [AfSt.asks]⟩
  obtain ⟨e1, e2, e3, e4, e5⟩ := hstart
  rw [bind_ok] at h
  obtain ⟨st2, s3, h3, h⟩ := h
  obtain ⟨hlen, -⟩ := List.getElem?_eq_some_iff.1 hcn
  obtain ⟨as, did, ks, k1, k2, k3, k4, k5⟩ := linesRun_answered hs (e2.gen hr.gen) (by rw [e1]; exact hlen)
    (by rw [e1]; exact hlive) (afText_run h3)
  rw [e3, e1] at k1
  rw [bind_ok] at h
  obtain ⟨r3, s4, h4, h⟩ := h
  have hend : s4.cfg = s3.cfg ∧ Replied env self st2.r s3
      (if did = true ∨ (subjectList m.subject).isSome = true then [] else [b!"Nothing to do."]) r3 s4 := by
    have hd : st2.done = true ↔ did = true ∨ (subjectList m.subject).isSome = true := by
      rw [k3, e4, Bool.or_eq_true]; exact Or.comm
    by_cases hx : st2.done = true
    · rw [if_pos hx] at h4
      rw [if_pos (hd.1 hx)]
      cases h4
      exact ⟨rfl, .nil⟩
    · rw [if_neg hx] at h4
      rw [if_neg fun y => hx (hd.2 y)]
      exact told_line hs k5 h4
  rw [get_bind] at h
  split at h
  · cases h
  rw [bind_ok] at h
  obtain ⟨_, s5, h5, h⟩ := h
  obtain ⟨f1, f2⟩ := (afSend_calm hs (hend.2.gen k5) s4).1 _ _ h5
  obtain ⟨ms, m1, m2, m', m3, m4⟩ := told_parts hs.tame rfl hr (fun h5 => by rw [hl]; exact ⟨rfl, Nat.zero_le _⟩)
    ((e2.trans k2).trans hend.2) h5
  rw [hsub] at m2
  rw [bind_ok] at h
  obtain ⟨_, s6, h6, h⟩ := h
  obtain ⟨g1, g2, g3⟩ := afLists_run hs h6
  rw [get_bind] at h
  obtain ⟨q1, q2⟩ := sendRemote_run hs env h
  obtain ⟨os, o1, o2⟩ := sendRemote_mail hs h (Nat.zero_add _)
  rw [sweep_all] at q2
  have hc5 : s5.cfg = s3.cfg := f1.trans hend.1
  have hlog : s1.log <+: s5.log := ((e2.trans k2).trans hend.2).prefix hs hr.gen |>.trans f2
  have hsent : ∀ k, st2.asks k = true → SheetSent env self rt.aka m.frm ci s3.cfg s1 t k := by
    intro k hk
    obtain ⟨u, v, x1, x2, x3, x4⟩ := g3 k hk
    exact ⟨u, v, hlog.trans x1, x2.trans hc5, x3, x4.trans q1⟩
  rw [List.drop_zero, g1, hc5] at o1
  refine ⟨s3.cfg, as, did, ks, ms, os, k1, ?_, m1.after (g2.trans q1), m2, m4.addressed i1 i2 i3 i4 i5 m3, fun k hk => hsent k ?_, fun hk => hsent _ ?_,
    o1, o2.before (hlog.trans g2)⟩
  · rw [q2, g1, hc5]; rfl
  · rw [k4]; simp [hk]
  · rw [k4, e5]; simp [hk]

/-! ## Concrete cases -/

namespace Ex

/-- The lines of the replies sent, without control lines. -/
def shown (x : Out Unit) : List Str :=
  match x with
  | .ok _ t => t.log.flatMap fun e => match e with
    | .netmail _ _ m => if m.subject = b!"AreaFix response" then
        (textRows m.text.flatten).filter fun l => l.head? ≠ some 1 else []
    | _ => []
  | _ => []

def asks (subject : Str) (lines : List Str) : Out Unit :=
  runAreafix afEnv 3 (request subject lines) (st (afCfg (CFG_AREAFIXREMOVE ||| CFG_ALLOWRESCAN) afAreasEx))

/-- A request with lines of all kinds, and the reply. -/
theorem full_request : shown (asks b!"secret -l" [b!"%PAUSE", b!"alpha", b!"+gamma", b!"-mand", b!"+ban", b!"remote", b!"-nothing", b!"+b*",
    b!"%compress zip", b!"%query", b!"=beta,r=10"]) =
    [b!"-l                             Sending list of all areas", b!"%PAUSE                         Your system is marked as passive",
     b!"                               Send %%RESUME to get echomail again", b!"alpha                          Attached",
     b!"+gamma                         You don't have access to that area",
     b!"-mand                          You are not allowed to detach from that area",
     b!"+ban                           You have been banned from that area", b!"remote                         Request sent to 1:2/7.0",
     b!"-nothing                       Unknown area", b!"+b*", [], b!"   Attached to BETA as read-only",
     b!"   You have been banned from BAN", [],
     b!"%compress zip                  Unknown packer. Choose from this list:", b!"                               NONE",
     b!"%query                         Sending query", b!"=beta,r=10                     Will rescan area",
     b!"                               Rescanned 0 messages", []] := by decide +kernel

/-- The hypotheses of `request_answered_partial` are met by it. -/
example : Authorised (st (afCfg (CFG_AREAFIXREMOVE ||| CFG_ALLOWRESCAN) afAreasEx)).cfg (request b!"secret -l" []) 0 ∧
    ((st (afCfg (CFG_AREAFIXREMOVE ||| CFG_ALLOWRESCAN) afAreasEx)).cfg.findRoute (request b!"secret -l" []).orig).isSome = true ∧
    ∀ a ∈ afAreasEx, a.type ≠ .deleted := by
  refine ⟨⟨_, rfl, ?_, fun j n hj => ?_, by decide +kernel⟩, by decide +kernel, by decide +kernel⟩
  · unfold SameAddr; decide +kernel
  · omega

/-- The messages to the node an area is ordered from. -/
def ordered (x : Out Unit) : List (Str × Str × List Str) :=
  match x with
  | .ok _ t => t.log.flatMap fun e => match e with
    | .netmail _ _ m => if m.dest = ⟨1, 2, 7, 0⟩ then
        [(m.to, m.subject, (textRows m.text.flatten).filter fun l => l.head? ≠ some 1)] else []
    | _ => []
  | _ => []

/-- An area is ordered: there is something in a queue, and it is sent. -/
theorem order_mailed : ordered (asks b!"secret" [b!"remote"]) =
    [([], [], [b!"remote", b!"---", b!"Generated by CrashMail 1.5.1", []])] := by decide +kernel

/-- The full statement is violated: the tear line is not part of the request, but it is
answered as a command to leave an area. -/
theorem tear_line_answered :
    shown (asks b!"secret" [b!"alpha", b!"--- Editor 1.0"]) =
      [b!"alpha                          Attached", b!"--- Editor 1.0                 Unknown area", []] ∧
    requestLines [b!"alpha\r--- Editor\rbeta\r"] = [b!"alpha", b!"--- Editor"] := by decide +kernel

/-- The full statement is violated: a line that names an area without an option, with an equals sign,
is answered with both "Will rescan area" and "Nothing to do", and nothing is rescanned. -/
theorem again_contradicts :
    shown (asks b!"secret" [b!"=mand"]) =
      [b!"=mand                          Will rescan area", b!"=mand                          Nothing to do", []] := by decide +kernel

/-- The full statement is violated: something has been answered, and yet the reply ends with "Nothing
to do.". -/
theorem nothing_to_do :
    shown (asks b!"secret" [b!"%RESUME", b!"%PWD"]) =
      [b!"%RESUME                        Your system is not paused", b!"%PWD                           No new password specified",
       b!"Nothing to do.", []] := by decide +kernel

/-- The full statement is violated: the command for the node an area is ordered from is cut after 70
characters, so an area with a longer name is ordered under another name. -/
theorem order_cut : (orderLine (node 7 0) (List.replicate 75 65)).length = 70 := by decide +kernel

/-- The full statement is violated: a line that reaches over the end of a part of the text is answered
as two. -/
theorem line_broken : requestLines [b!"+alp", b!"ha\r"] = [b!"+alp", b!"ha"] := by decide +kernel

/-- The full statement is violated: letters from 128 on at the end of a name are cut off. -/
theorem end_cut : requestLines [b!"+BL" ++ [129] ++ b!"\r"] = [b!"+BL"] := by decide +kernel

end Ex

end CM
