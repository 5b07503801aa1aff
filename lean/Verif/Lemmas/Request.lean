import Verif.Lemmas.Reply
import Verif.Props.Reply
import Verif.Spec.Request
/-! # Lemmas about requests to AreaFix -/

set_option linter.unusedSimpArgs false
namespace CM

/-! ## States -/

/-- The configuration is the same, and nothing that has been done is undone. -/
def Undisturbed (s t : HSt) : Prop := t.cfg = s.cfg ∧ s.log <+: t.log

theorem Undisturbed.good : Good Undisturbed :=
  ⟨fun _ => ⟨rfl, List.prefix_refl _⟩, fun _ _ _ h1 h2 => ⟨h2.1.trans h1.1, h1.2.trans h2.2⟩,
    fun _ _ _ => ⟨rfl, List.prefix_append _ _⟩⟩

/-- A handler that does not touch the configuration when it gets generated netmails. -/
abbrev Settled (self : MemMsg → M Unit) : Prop := ∀ m, Gen m → Sat Undisturbed (self m)

theorem handleMessage_settled (env : Env) (af : (MemMsg → M Unit) → MemMsg → M Unit) (n : Nat) :
    Settled (handleMessage env af n) := fun m g => handleMessage_gen Undisturbed.good env af n m g

theorem Settled.tame {self : MemMsg → M Unit} (h : Settled self) : Tame self :=
  fun m g s => ⟨fun a t e => ((h m g s).1 a t e).1, fun t e => ((h m g s).2 t e).1⟩

/-- `k` entries changed from position `i` on. -/
def sweep {α : Type} (f : α → α) : Nat → Nat → List α → List α
  | 0, _, l => l
  | k + 1, i, l => sweep f k (i + 1) (l.modify i f)

theorem sweep_at {α : Type} (f : α → α) (k i j : Nat) (l : List α) :
    (sweep f k i l)[j]? = if i ≤ j ∧ j < i + k then l[j]?.map f else l[j]? := by
  induction k generalizing i l with
  | zero => rw [sweep, if_neg (by omega)]
  | succ k ih =>
    rw [sweep, ih, List.getElem?_modify]
    by_cases e : i = j
    · subst e
      rw [if_neg (by omega), if_pos (by omega)]; simp
    · simp only [e, if_false]
      by_cases h : i + 1 ≤ j ∧ j < i + 1 + k
      · rw [if_pos h, if_pos (by omega)]; simp
      · rw [if_neg h, if_neg (by omega)]; simp

theorem sweep_all {α : Type} (f : α → α) (l : List α) : sweep f l.length 0 l = l.map f := by
  apply List.ext_getElem?
  intro j
  rw [sweep_at, List.getElem?_map]
  by_cases h : j < l.length
  · rw [if_pos (by omega)]
  · rw [if_neg (by omega), List.getElem?_eq_none (by omega)]; rfl

section
variable {self : MemMsg → M Unit} (hs : Settled self) (env : Env)
include hs

theorem afSend_calm {r : AfReply} (g : r.Gen) : Sat Undisturbed (afSend self r) := attempt_sat (hs _ (Gen.title g _))

theorem afSplit_calm {r : AfReply} (g : r.Gen) : Sat Undisturbed (afSplit env self r) := by
  unfold afSplit
  refine Undisturbed.good.bindP Gen (Undisturbed.good.liftO _) (fun s m t h => ?_) fun m gm => ?_
  · rw [liftO_ok] at h; exact g.keep (mmAddLine_keep h.1)
  refine Undisturbed.good.bind (afSend_calm hs gm) fun _ => Undisturbed.good.bind Undisturbed.good.get fun s => ?_
  exact Undisturbed.good.bind (Undisturbed.good.liftO _) fun m => Undisturbed.good.bind (Undisturbed.good.liftO _) fun m => Undisturbed.good.pure _

theorem afAddLine_calm {r : AfReply} (g : r.Gen) (line : Str) : Sat Undisturbed (afAddLine env self r line) := by
  unfold afAddLine
  refine Undisturbed.good.bind Undisturbed.good.get fun s => Undisturbed.good.bind ?_ fun r => ?_
  · split
    · exact afSplit_calm hs env g
    · exact Undisturbed.good.pure _
  · split
    · exact Sat.ub _
    · exact Undisturbed.good.bind (Undisturbed.good.liftO _) fun m => Undisturbed.good.pure _

theorem afAddLines_calm {r : AfReply} (g : r.Gen) (ls : List Str) : Sat Undisturbed (afAddLines env self r ls) := by
  induction ls generalizing r with
  | nil => exact Undisturbed.good.pure _
  | cons l ls ih =>
    exact Undisturbed.good.bindP AfReply.Gen (afAddLine_calm hs env g l) (fun s r t h => (afAddLine_uses env g l).post _ _ _ _ h)
      fun r g => ih g

theorem sendRemove1_calm (tag : Str) (aka : Node4D) (t : TossNode) (n : ConfigNode) :
    Sat Undisturbed (sendRemove1 env self tag aka t n) := by
  unfold sendRemove1
  have key : ∀ (to subject : Str) (ls : List Str), Sat Undisturbed (newNetmail env n.node aka to subject FLAG_PVT MMFLAG_AUTOGEN >>=
      fun m => mmAddLines m ls >>= fun m => M.attempt (self m)) := by
    intro to subject ls
    refine Undisturbed.good.bindP Gen (Undisturbed.good.quiet (newNetmail_quiet _ _ _ _ _ _ _)) (fun _ _ _ h => newNetmail_gen h) fun m g => ?_
    exact Undisturbed.good.bindP Gen (Undisturbed.good.quiet (mmAddLines_quiet _ _)) (fun _ _ _ h => g.keep (mmAddLines_keep h)) fun m g =>
      attempt_sat (hs _ g)
  refine Undisturbed.good.bind ?_ fun _ => ?_
  · split
    · exact key _ _ _
    · exact Undisturbed.good.pure _
  · split
    · split
      · exact Sat.ub _
      · exact key _ _ _
    · exact Undisturbed.good.pure _

theorem sendRemove_calm (tag : Str) (aka : Option Node4D) (ts : List TossNode) :
    Sat Undisturbed (sendRemove env self tag aka ts) := by
  induction ts with
  | nil => exact Undisturbed.good.pure _
  | cons t ts ih =>
    unfold sendRemove
    refine Undisturbed.good.bind Undisturbed.good.get fun s => ?_
    split
    · exact Sat.ub _
    · refine Undisturbed.good.bind ?_ fun _ => ih
      split
      · split
        · exact Sat.ub _
        · exact sendRemove1_calm hs env _ _ _ _
      · exact Undisturbed.good.pure _

omit hs in
theorem sendEcho_calm (aka : Node4D) (m : MemMsg) (l : Link) : Sat Undisturbed (sendEcho env aka m l) := by
  intro s
  unfold sendEcho
  refine ⟨fun a t h => ?_, fun t h => ?_⟩
  · split at h
    · split at h
      · cases h; exact ⟨rfl, List.prefix_append _ _⟩
      · cases h
    · cases h
    · cases h
  · split at h
    · split at h
      · cases h
      · cases h; exact ⟨rfl, List.prefix_refl _⟩
    · cases h
    · cases h

omit hs in
theorem handleRescan_calm (l : Link) (m : MemMsg) : Sat Undisturbed (handleRescan env l m) := by
  unfold handleRescan
  refine Undisturbed.good.bind Undisturbed.good.get fun s => ?_
  split
  · exact Sat.ub _
  · split
    · exact Sat.ub _
    · dsimp only
      refine Undisturbed.good.bind ?_ fun p => Undisturbed.good.bind (Undisturbed.good.lift _) fun sb =>
        Undisturbed.good.bind (sendEcho_calm env _ _ _) fun _ => Undisturbed.good.pure _
      split
      · exact Undisturbed.good.liftO _
      · exact Undisturbed.good.pure _

omit hs in
theorem rescanAll_calm (l : Link) (ms : List MemMsg) : Sat Undisturbed (rescanAll env l ms) := by
  induction ms with
  | nil => exact Undisturbed.good.pure _
  | cons m ms ih => exact Undisturbed.good.bind (handleRescan_calm env l m) fun _ => ih

theorem linesSend_calm {r : AfReply} (g : r.Gen) (ls : List Str) :
    Sat Undisturbed (afAddLines env self r ls >>= fun r => afSend self r) :=
  Undisturbed.good.bindP AfReply.Gen (afAddLines_calm hs env g _) (fun _ _ _ h => (afAddLines_uses env g _).post _ _ _ _ h)
    fun _ g => afSend_calm hs g

theorem sendList_calm (type : ListType) (from4 : Node4D) (toname : Str) (ci : Nat) :
    Sat Undisturbed (sendList env self type from4 toname ci) := by
  have G := Undisturbed.good
  unfold sendList
  refine G.bind G.get fun s => ?_
  split
  · exact Sat.ub _
  · refine G.bindP AfReply.Gen (G.quiet (afInit_quiet _ _ _ _ _)) (fun _ _ _ h => afInit_gen h) fun r g => ?_
    refine G.bindP AfReply.Gen (afAddLines_calm hs env g _) (fun _ _ _ h => (afAddLines_uses env g _).post _ _ _ _ h) fun r g => ?_
    refine G.bind (G.quiet (listEntries_quiet env _ _ _)) fun es => G.bind (G.lift _) fun body => linesSend_calm hs env g _

theorem sendHelp_calm (from4 : Node4D) (toname : Str) (ci : Nat) : Sat Undisturbed (sendHelp env self from4 toname ci) := by
  have G := Undisturbed.good
  unfold sendHelp
  refine G.bind G.get fun s => ?_
  split
  · exact Sat.ub _
  · exact G.bindP AfReply.Gen (G.quiet (afInit_quiet _ _ _ _ _)) (fun _ _ _ h => afInit_gen h) fun r g => linesSend_calm hs env g _

theorem sendInfo_calm (from4 : Node4D) (toname : Str) (ci : Nat) : Sat Undisturbed (sendInfo env self from4 toname ci) := by
  have G := Undisturbed.good
  unfold sendInfo
  refine G.bind G.get fun s => ?_
  split
  · exact Sat.ub _
  · refine G.bindP AfReply.Gen (G.quiet (afInit_quiet _ _ _ _ _)) (fun _ _ _ h => afInit_gen h) fun r g => ?_
    dsimp only
    refine G.bind (G.quiet (groupLines_quiet _ _ _ _)) fun _ => G.bind (G.quiet (groupLines_quiet _ _ _ _)) fun _ => linesSend_calm hs env g _

/-- The commands for one node have been sent. -/
theorem sendRemote1_run {i : Nat} {s t : HSt} (h : sendRemote1 env self i s = .ok () t) :
    s.log <+: t.log ∧ t.cfg = { s.cfg with nodes := s.cfg.nodes.modify i fun n => { n with remoteAF := [] } } := by
  unfold sendRemote1 at h
  rw [get_bind] at h
  cases hn : s.cfg.nodes[i]? with
  | none =>
    rw [hn] at h
    cases h
    refine ⟨List.prefix_refl _, ?_⟩
    rw [List.modify_eq_self (by rw [List.getElem?_eq_none_iff] at hn; exact hn)]
  | some n =>
    rw [hn] at h
    dsimp only at h
    by_cases hq : n.remoteAF = []
    · rw [if_pos hq] at h
      cases h
      refine ⟨List.prefix_refl _, ?_⟩
      have : s.cfg.nodes.modify i (fun n => { n with remoteAF := [] }) = s.cfg.nodes := by
        apply List.ext_getElem?
        intro j
        rw [List.getElem?_modify]
        by_cases e : i = j
        · subst e; rw [hn]; simp [← hq]
        · simp [e]
      rw [this]
    · rw [if_neg hq] at h
      cases hrt : s.cfg.findRoute n.node with
      | none => rw [hrt] at h; cases h
      | some rt =>
        rw [hrt] at h
        dsimp only at h
        rw [bind_ok] at h
        obtain ⟨m, u, h1, h⟩ := h
        have e1 := (newNetmail_quiet _ _ _ _ _ _ _).noFail h1
        subst e1
        have g := newNetmail_gen h1
        rw [bind_ok] at h
        obtain ⟨m2, u2, h2, h⟩ := h
        have e2 := (mmAddLines_quiet _ _).noFail h2
        subst e2
        rw [bind_ok] at h
        obtain ⟨_, v, h3, h⟩ := h
        obtain ⟨c1, c2⟩ := (attempt_sat (hs _ (g.keep (mmAddLines_keep h2))) _).1 _ _ h3
        rw [get_bind, set_run] at h
        cases h
        exact ⟨c2, by dsimp only; rw [c1]⟩

theorem sendRemote_run {k i : Nat} {s t : HSt} (h : sendRemote env self k i s = .ok () t) :
    s.log <+: t.log ∧ t.cfg = { s.cfg with nodes := sweep (fun n => { n with remoteAF := [] }) k i s.cfg.nodes } := by
  induction k generalizing i s with
  | zero => cases h; exact ⟨List.prefix_refl _, rfl⟩
  | succ k ih =>
    rw [sendRemote, bind_ok] at h
    obtain ⟨_, u, h1, h2⟩ := h
    obtain ⟨a1, a2⟩ := sendRemote1_run hs env h1
    obtain ⟨b1, b2⟩ := ih h2
    refine ⟨a1.trans b1, ?_⟩
    rw [b2, a2]
    rfl

end

/-! ## Replies with other things in between -/

/-- These lines have been added to the reply; other things may have been done in between. -/
inductive Replied (env : Env) (self : MemMsg → M Unit) : AfReply → HSt → List Str → AfReply → HSt → Prop where
  | nil {r : AfReply} {s : HSt} : Replied env self r s [] r s
  | line {r r1 r2 : AfReply} {s u t : HSt} {l : Str} {ls : List Str} (h : afAddLine env self r l s = .ok r1 u)
      (hr : Replied env self r1 u ls r2 t) : Replied env self r s (l :: ls) r2 t
  | other {r r2 : AfReply} {s u t : HSt} {ls : List Str} (h : s.log <+: u.log)
      (hm : u.cfg.areafixMaxLines = s.cfg.areafixMaxLines) (hr : Replied env self r u ls r2 t) : Replied env self r s ls r2 t

section
variable {env : Env} {self : MemMsg → M Unit}

theorem Replied.trans {r r1 r2 : AfReply} {s u t : HSt} {ls ms : List Str} (h1 : Replied env self r s ls r1 u)
    (h2 : Replied env self r1 u ms r2 t) : Replied env self r s (ls ++ ms) r2 t := by
  induction h1 with
  | nil => exact h2
  | line h _ ih => exact .line h (ih h2)
  | other h hm _ ih => exact .other h hm (ih h2)

theorem Replied.skip {r : AfReply} {s t : HSt} (h : s.log <+: t.log) (hm : t.cfg.areafixMaxLines = s.cfg.areafixMaxLines) :
    Replied env self r s [] r t := .other h hm .nil

theorem Replied.calm {r : AfReply} {s t : HSt} (h : Undisturbed s t) : Replied env self r s [] r t := .skip h.2 (by rw [h.1])

theorem Replied.lines {r r' : AfReply} {s t : HSt} {ls : List Str} (h : afAddLines env self r ls s = .ok r' t) :
    Replied env self r s ls r' t := by
  induction ls generalizing r s with
  | nil => cases h; exact .nil
  | cons l ls ih =>
    rw [afAddLines, bind_ok] at h
    obtain ⟨r1, u, h1, h⟩ := h
    exact .line h1 (ih h)

theorem Replied.gen {r r' : AfReply} {s t : HSt} {ls : List Str} (h : Replied env self r s ls r' t) (g : r.Gen) : r'.Gen := by
  induction h with
  | nil => exact g
  | line h _ ih => exact ih ((afAddLine_uses env g _).post _ _ _ _ h)
  | other _ _ _ ih => exact ih g

theorem HandsOver.before {s u t : HSt} {ms : List MemMsg} (h : s.log <+: u.log) (hr : HandsOver self u ms t) :
    HandsOver self s ms t := by
  cases hr with
  | nil h2 => exact .nil (h.trans h2)
  | cons h2 hm hr => exact .cons (h.trans h2) hm hr

theorem HandsOver.after {s u t : HSt} {ms : List MemMsg} (hr : HandsOver self s ms u) (h : u.log <+: t.log) :
    HandsOver self s ms t := by
  induction hr with
  | nil h2 => exact .nil (h2.trans h)
  | cons h2 hm _ ih => exact .cons h2 hm (ih h)

theorem HandsOver.sends {s u t : HSt} {ms ns : List MemMsg} (h : Sends self s ms u) (hr : HandsOver self u ns t) :
    HandsOver self s (ms ++ ns) t := by
  induction h with
  | nil => exact hr
  | cons h _ ih => exact .cons (List.prefix_refl _) h (ih hr)

/-- The commands for one node are in a message. -/
theorem sendRemote1_mail (hs : Settled self) {i : Nat} {s t : HSt} {n : ConfigNode} (hn : s.cfg.nodes[i]? = some n)
    (h : sendRemote1 env self i s = .ok () t) {ns : List ConfigNode} {ms : List MemMsg} (hr : OrdersMailed s.cfg ns ms) :
    ∃ xs u, Sends self s xs u ∧ u.log = t.log ∧ OrdersMailed s.cfg (n :: ns) (xs ++ ms) := by
  unfold sendRemote1 at h
  rw [get_bind, hn] at h
  dsimp only at h
  by_cases hq : n.remoteAF = []
  · rw [if_pos hq] at h
    cases h
    exact ⟨[], s, .nil _, rfl, .none hq hr⟩
  rw [if_neg hq] at h
  cases hrt : s.cfg.findRoute n.node with
  | none => rw [hrt] at h; cases h
  | some rt =>
    rw [hrt] at h
    dsimp only at h
    rw [bind_ok] at h
    obtain ⟨m, u, h1, h⟩ := h
    have g := newNetmail_gen h1
    obtain ⟨rfl, k1, k2⟩ := newNetmail_tells h1
    rw [bind_ok] at h
    obtain ⟨m2, u2, h2, h⟩ := h
    have e2 := (mmAddLines_quiet _ _).noFail h2
    subst e2
    rw [bind_ok] at h
    obtain ⟨_, v, h3, h⟩ := h
    rw [get_bind, set_run] at h
    cases h
    refine ⟨[m2], v, attempt_sends h3, rfl, .mail hq hrt (fun hc => ?_) hr⟩
    obtain ⟨m3, x1, x2, x3, x4⟩ := k2.lines k1 g.area hc h2
    obtain ⟨m4, y1, y2⟩ := mmAddLines_cons_ok x4
    cases y2
    simpa using (x3.line x1 x2 [b!"---", b!"Generated by CrashMail 1.5.1"] (by decide) (by decide) (by decide) y1).2.2

theorem OrdersMailed.same {c d : Config} (h1 : d.sysop = c.sysop) (h2 : ∀ n, d.findRoute n = c.findRoute n) {ns : List ConfigNode}
    {ms : List MemMsg} (h : OrdersMailed c ns ms) : OrdersMailed d ns ms := by
  induction h with
  | nil => exact .nil
  | none h _ ih => exact .none h ih
  | mail h hrt hm _ ih =>
    exact .mail h ((h2 _).trans hrt) (fun hc => ⟨(hm hc).orig, (hm hc).dest, (hm hc).to, (hm hc).frm.trans h1.symm, (hm hc).subject,
      (hm hc).attr, (hm hc).shows⟩) ih

theorem sendRemote_mail (hs : Settled self) {k i : Nat} {s t : HSt} (h : sendRemote env self k i s = .ok () t)
    (hk : i + k = s.cfg.nodes.length) : ∃ ms, OrdersMailed s.cfg (s.cfg.nodes.drop i) ms ∧ HandsOver self s ms t := by
  induction k generalizing i s with
  | zero =>
    cases h
    rw [List.drop_eq_nil_of_le (by omega)]
    exact ⟨[], .nil, .nil (List.prefix_refl _)⟩
  | succ k ih =>
    rw [sendRemote, bind_ok] at h
    obtain ⟨_, u, h1, h2⟩ := h
    obtain ⟨-, a2⟩ := sendRemote1_run hs env h1
    obtain ⟨ms, b1, b2⟩ := ih h2 (by rw [a2]; dsimp only; rw [List.length_modify]; omega)
    have hd : u.cfg.nodes.drop (i + 1) = s.cfg.nodes.drop (i + 1) := by
      rw [a2]
      dsimp only
      rw [List.drop_modify_of_lt _ _ _ _ (by omega)]
    have hb := b1.same (d := s.cfg) (by rw [a2]) (fun n => by rw [a2]; rfl)
    rw [hd] at hb
    have hi : i < s.cfg.nodes.length := by omega
    obtain ⟨xs, v, c1, c2, c3⟩ := sendRemote1_mail hs (List.getElem?_eq_getElem hi) h1 hb
    refine ⟨xs ++ ms, ?_, .sends c1 (.before (by rw [c2]; exact List.prefix_refl _) b2)⟩
    rw [List.drop_eq_getElem_cons hi]
    exact c3

/-- The messages of a reply show what has been said. -/
theorem told_parts (hs : Tame self) {r r' : AfReply} {n : Nat} {done ls : List Str} {s u t : HSt} {max : UInt32}
    (hmax : s.cfg.areafixMaxLines = max) (hr : Reading r n done) (hc : Counted max r n done)
    (h1 : Replied env self r s ls r' u) (h2 : afSend self r' u = .ok () t) :
    ∃ ms, HandsOver self s ms t ∧ InParts (lineBound max) r.subject n ms (done ++ ls) ∧
      ∃ m, ms.head? = some m ∧ Kin ls r.mm m := by
  induction h1 generalizing n done with
  | @nil r s =>
    subst hmax
    obtain ⟨ms, k1, k2, k3⟩ := reply_parts (env := env) (ls := []) hs hr hc rfl h2
    exact ⟨ms, by simpa using HandsOver.sends k1 (.nil (List.prefix_refl _)), k2, k3⟩
  | @other r r2 s u0 t0 ls h hm _ ih =>
    obtain ⟨ms, k1, k2, k3⟩ := ih (hm.trans hmax) hr hc h2
    exact ⟨ms, k1.before h, k2, k3⟩
  | @line r r1 r2 s v t0 l ls h _ ih =>
    subst hmax
    obtain ⟨hcfg, hsub, hcase⟩ := afAddLine_reading hs hr h
    rcases hcase with ⟨hn, e, hr1, hl1, hkin⟩ | ⟨hy, m, hsend, hshow, htitle, hr1, hl1, hkin⟩
    · subst e
      have hc1 : Counted v.cfg.areafixMaxLines r1 n (done ++ [l]) := by
        intro h5
        obtain ⟨c1, c2⟩ := hc h5
        have hlt : r.lines.toNat < v.cfg.areafixMaxLines.toNat - 2 := by
          rw [← sub_two_toNat h5]
          refine Nat.lt_of_not_le fun hle => hn ⟨UInt32.le_iff_toNat_le.2 hle, fun e => ?_⟩
          rw [e] at h5; exact absurd h5 (by decide)
        have hb := v.cfg.areafixMaxLines.toNat_lt
        have e : r1.lines.toNat = r.lines.toNat + 1 := by
          rw [hl1, UInt32.toNat_add]
          exact Nat.mod_eq_of_lt (by simp; omega)
        rw [e]
        refine ⟨by rw [c1]; simp only [List.length_append, List.length_singleton]; omega, by omega⟩
      obtain ⟨ms, k1, k2, m, k3, k4⟩ := ih rfl hr1 hc1 h2
      rw [hsub] at k2
      exact ⟨ms, k1, by simpa using k2, m, k3, hkin.trans k4⟩
    · have hc1 : Counted s.cfg.areafixMaxLines r1 (n + 1) [l] := by
        intro h5
        rw [hl1]
        unfold contFrom
        rw [if_neg (by have := hr.pos; omega)]
        exact ⟨rfl, by rw [show (3 : UInt32).toNat = 3 from rfl]; omega⟩
      obtain ⟨ms, k1, k2, -⟩ := ih (by rw [hcfg]) hr1 hc1 h2
      rw [hsub] at k2
      refine ⟨m :: ms, HandsOver.sends hsend k1, .more htitle hshow (fun k hk => ?_) k2, m, rfl, hkin.weak (by simp)⟩
      unfold lineBound at hk
      split at hk
      · rename_i h5
        obtain ⟨c1, c2⟩ := hc h5
        cases hk
        simp only [contIn, Bool.false_eq_true, if_false, List.length_append, List.length_cons, List.length_nil] at c1 ⊢
        omega
      · cases hk

end

end CM
