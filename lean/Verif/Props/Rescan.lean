import Verif.Lemmas.Rescan
import Verif.Props.Scan
/-! # Sending messages again: the theorems -/

set_option linter.unusedSimpArgs false

namespace CM

/-- Sending messages of an area again. Of `max` messages, all if it is zero, at the end of the area, those that are not deleted are handed over, in their order and each once, whether they were sent before or not;
after a failure or Ctrl-C, those before some position. The messages in the area stay as they are, and so do the high water mark and what is known about the area. -/
theorem jam_rescan (o : JamOpt) (r : JamRun) {Inv : Nat → JamW → Prop} {Fit : MemMsg → Prop} {i : Nat} {start : UInt32} {c : Nat} {handle : JamHandler}
    (hh : JamKeeps Inv Fit i start c handle) (hI : JamElse Inv i) (a : Area) (aka : Node4D) (max : UInt32) {w : JamW} {b : JamBase} {ms : List (Option JamMsg)} (hInv : Inv (jamKnown w i ms) w)
    (hb : w.base i = some b) (hms : JamHolds b start ms) (hsm : start.toNat + jamKnown w i ms < 2 ^ 32) (hk : jamKnown w i ms ≤ ms.length)
    (hrec : ∀ x, w.recs i = some x → x.baseNum = start) (hsp : JamSpace c (jamKnown w i ms) b ms)
    (hload : ∀ k m, k < jamKnown w i ms → ms[k]? = some (some m) → JamLive ms k = true → ∃ mm, reloadsAs o r a aka (start + UInt32.ofNat k) m mm ∧ Fit mm) :
    ∃ y p b' new, jamRescan o r handle i a aka max w = .ok y ∧ p ≤ jamKnown w i ms ∧ (y.ok = true → p = jamKnown w i ms) ∧ (y.ok = false → (∃ t, r.ctrlc t = true) ∨ ∃ m w1 w2, handle m w1 = .ok (false, w2)) ∧ y.w.base i = some b' ∧ JamHolds b' start (ms ++ new) ∧
      JamResent (reloadsAs o r a aka) start (if max = 0 then 0 else jamKnown w i ms - max.toNat) p ms y.sent ∧ Inv 0 y.w ∧ y.w.hwFile i = w.hwFile i ∧ (y.w.recOf i).hw = (w.recOf i).hw := by
  obtain ⟨w1, g1, g2, g3, g4, g5, g6, g7, g8⟩ := jamGetArea_there (r := r) hb hms hrec
  obtain ⟨_, _, _, _, hsz⟩ := jam_count hms
  have hfew : ms.length < 2 ^ 32 := by obtain ⟨off, h⟩ := hms; exact h.few
  have hold : (w1.recOf i).oldNum.toNat = jamKnown w i ms ∧ (w1.recOf i).hw = (w.recOf i).hw := by
    unfold jamKnown
    match hr : w.recs i with
    | some x =>
      rw [g5 x hr, JamW.recOf, hr]
      exact ⟨rfl, rfl⟩
    | none =>
      rw [(g6 hr).1]
      rw [JamW.recOf, hr]
      exact ⟨hsz, rfl⟩
  generalize hN : jamKnown w i ms = N at *
  generalize hxx : w1.recOf i = x at *
  have hxo : x.oldNum = UInt32.ofNat N := by apply UInt32.toNat_inj.1; rw [hold.1, ofNat_few (by omega)]
  obtain ⟨z, g8⟩ := Option.isSome_iff_exists.1 g8
  have hzx : z = x := by rw [← hxx, JamW.recOf, g8]; rfl
  subst hzx
  have hat : JamAt i start z c N ms w1 := ⟨b, z, by rw [g2]; exact hb, hms, hsp, g8, rfl, rfl, rfl, rfl⟩
  have hInv1 : Inv N w1 := hI.1 _ w _ hInv (fun j hj => ⟨by rw [g2], g7 j hj⟩) fun j _ => congrFun g3 j
  have hn : ∃ n, n ≤ N ∧ (n = if max = 0 then 0 else N - max.toNat) ∧ (if max ≠ 0 ∧ max < z.oldNum then z.baseNum + z.oldNum - max else z.baseNum) = start + UInt32.ofNat n := by
    by_cases h0 : max = 0
    · refine ⟨0, Nat.zero_le _, by rw [if_pos h0], ?_⟩
      rw [if_neg (by simp [h0]), g4]
      exact (UInt32.add_zero start).symm
    · by_cases hlt : max < z.oldNum
      · have hlt' := UInt32.lt_iff_toNat_lt.1 hlt
        rw [hold.1] at hlt'
        refine ⟨N - max.toNat, by omega, by rw [if_neg h0], ?_⟩
        rw [if_pos ⟨h0, hlt⟩, g4, hxo]
        apply UInt32.toNat_inj.1
        rw [add_toNat (by omega), UInt32.toNat_sub_of_le _ _ (by rw [UInt32.le_iff_toNat_le, add_toNat hsm]; omega), add_toNat hsm]
        omega
      · have hlt' : ¬ max.toNat < N := by rw [UInt32.lt_iff_toNat_lt, hold.1] at hlt; exact hlt
        refine ⟨0, Nat.zero_le _, by rw [if_neg h0]; omega, ?_⟩
        rw [if_neg (by simp [hlt]), g4]
        exact (UInt32.add_zero start).symm
  obtain ⟨n, n1, n2, n3⟩ := hn
  obtain ⟨y, p, new, s, f1, f2, f3, f4, f5, f5', f6, f7, f8, f9⟩ := reloop_spec (o := o) (r := r) (a := a) (aka := aka) hh hI g4 hsm (N - n) (N + 1) n (ms := ms) (w := w1) []
    (by omega) (by omega) hk (hat.mono (by omega)) (hI.mono hInv1 (by omega)) (fun k m _ h0 h1 h2 => hload k m h0 h1 h2)
  obtain ⟨b', z', z1, z2, z3, z4, z5, z6, z7, z8⟩ := f6
  refine ⟨y, p, b', new, ?_, f4, f5, f5', z1, z2, ?_, f7, by rw [f8, g3], ?_⟩
  · unfold jamRescan
    rw [g1]
    simp only [Bool.not_true, Bool.false_eq_true, if_false, hxx]
    rw [n3, show z.baseNum + z.oldNum = start + UInt32.ofNat N by rw [g4, hxo], hold.1]
    exact f1
  · rw [f2, ← n2]; exact f9
  · rw [JamW.recOf, z4]
    exact z7.trans hold.2

/-- Sending messages again. The messages that the message base delivers are sent to the node that was named and to no other, each once and in their order, unless a packet cannot be written;
nothing else is done. -/
theorem rescan_sends (env : Env) (tag addr : Str) (max : UInt32) (s : HSt) {k : Nat} {n : ConfigNode} {i : Nat} {a : Area} {aka : Aka} (hc : CanResend env s.cfg tag addr k n i a)
    (hk : a.aka.bind (s.cfg.akas[·]?) = some aka) (hms : ∀ m ∈ (env.rescan s.log i max).1, m.area = a.tag ∧ Blocks m.seenBy ∧ PathOK m.path) :
    ∃ b cs, ((b = true ∧ rescanCmd env tag addr max s = .ok true { s with log := s.log ++ cs.map (.echo k aka.node) }) ∨
        (b = false ∧ rescanCmd env tag addr max s = .fail { s with log := s.log ++ cs.map (.echo k aka.node) })) ∧
      ResentAll s.cfg aka.node n (env.rescan s.log i max).1 cs b ∧ ((∀ log m, env.echoOk log k m = true) → cs.length = (env.rescan s.log i max).1.length ∧ b = (env.rescan s.log i max).2) := by
  obtain ⟨⟨d, h1, h2⟩, h3, h4, h5, h6, base, h7, h8⟩ := hc
  obtain ⟨b, cs, r1, r2, r3⟩ := rescanAll_runs env ⟨k, n, 0⟩ s.cfg h5 hk (env.rescan s.log i max).1 s rfl fun m hm => by
    obtain ⟨e1, e2, e3⟩ := hms m hm
    exact ⟨by rw [e1]; exact findArea_of_tagOf h4 h5, e2, e3⟩
  have hrun : rescanCmd env tag addr max s = (rescanAll env ⟨k, n, 0⟩ (env.rescan s.log i max).1 >>= fun _ => if (env.rescan s.log i max).2 then pure true else M.fail) s := by
    unfold rescanCmd
    rw [get_bind]
    simp only [h1, (nodeIdx_iff _ _ _).2 h2, (findArea_tagOf _ _ _).2 h4, h5, h3, h6, h7, h8]
    rfl
  rw [hrun]
  unfold Ret at r1
  cases b with
  | true =>
    rw [if_pos rfl] at r1
    obtain ⟨u, r1⟩ := r1
    cases ho : (env.rescan s.log i max).2 with
    | true => exact ⟨true, cs, .inl ⟨rfl, bind_ok.2 ⟨u, _, r1, rfl⟩⟩, r2, fun _ => ⟨r2.done rfl, rfl⟩⟩
    | false => exact ⟨false, cs, .inr ⟨rfl, bind_fail.2 (.inr ⟨u, _, r1, rfl⟩)⟩, ⟨r2.count, fun h => (by cases h), r2.each⟩, fun _ => ⟨r2.done rfl, rfl⟩⟩
  | false =>
    rw [if_neg (by decide)] at r1
    exact ⟨false, cs, .inr ⟨rfl, bind_fail.2 (.inl r1)⟩, r2, fun h => absurd (r3 h) (by decide)⟩

/-- Otherwise nothing is done. -/
theorem rescan_refused (env : Env) (tag addr : Str) (max : UInt32) (s : HSt) (hc : ∀ k n i a, ¬ CanResend env s.cfg tag addr k n i a) : rescanCmd env tag addr max s = .ok false s := by
  unfold rescanCmd
  rw [get_bind]
  cases h1 : parse4D addr with
  | none => rfl
  | some d =>
    cases h2 : s.cfg.nodes.findIdx? fun n => compare4D n.node d == 0 with
    | none => simp only [h2]; rfl
    | some k =>
      cases h4 : s.cfg.areas.findIdx? fun a => eqi tag a.tag with
      | none => simp only [h2]; rfl
      | some i =>
        have g2 := (nodeIdx_iff _ _ _).1 h2
        have g4 := (findArea_tagOf _ _ _).1 h4
        obtain ⟨n, h3, -⟩ := id g2
        obtain ⟨a, h5, -⟩ := id g4
        simp only [h2, h3, h5]
        by_cases h6 : a.type = .echomail
        · rw [if_neg (by simp [h6])]
          cases h7 : a.base with
          | none => rfl
          | some b =>
            cases h8 : env.canRescan b with
            | false => simp only [h8]; rfl
            | true => exact absurd ⟨⟨d, h1, g2⟩, h3, g4, h5, h6, b, h7, h8⟩ (hc k n i a)
        · rw [if_pos h6]; rfl

/-- Handling a message of a rescan does nothing to the message base. -/
def resendIdle : JamHandler := fun _ w => .ok (true, w)

/-- The command for a JAM area. The base delivers the messages at the end of the area that are not deleted, up to `p`, each once and in their order; without Ctrl-C, these are all. They are sent to
the node that was named and to no other, unless a packet cannot be written; nothing else is done. -/
theorem rescan_jam_partial (env : Env) (o : JamOpt) (r : JamRun) (tag addr : Str) (max : UInt32) (s : HSt) {k : Nat} {n : ConfigNode} {i : Nat} {a : Area} {aka : Aka}
    (hc : CanResend env s.cfg tag addr k n i a) (hk : a.aka.bind (s.cfg.akas[·]?) = some aka) {w : JamW} {b : JamBase} {start : UInt32} {ms : List (Option JamMsg)} {c : Nat} (hb : w.base i = some b)
    (hms : JamHolds b start ms) (hsm : start.toNat + jamKnown w i ms < 2 ^ 32) (hkn : jamKnown w i ms ≤ ms.length) (hrec : ∀ x, w.recs i = some x → x.baseNum = start)
    (hsp : JamSpace c (jamKnown w i ms) b ms) (hload : ∀ k m, k < jamKnown w i ms → ms[k]? = some (some m) → JamLive ms k = true → ∃ mm, reloadsAs o r a aka.node (start + UInt32.ofNat k) m mm) :
    ∃ y p, jamRescan o r resendIdle i a aka.node max w = .ok y ∧ p ≤ jamKnown w i ms ∧ ((∀ t, r.ctrlc t = false) → y.ok = true ∧ p = jamKnown w i ms) ∧
      JamResent (reloadsAs o r a aka.node) start (if max = 0 then 0 else jamKnown w i ms - max.toNat) p ms y.sent ∧
      (env.rescan s.log i max = (y.sent.map (·.2), y.ok) → ∃ b cs, ((b = true ∧ rescanCmd env tag addr max s = .ok true { s with log := s.log ++ cs.map (.echo k aka.node) }) ∨
          (b = false ∧ rescanCmd env tag addr max s = .fail { s with log := s.log ++ cs.map (.echo k aka.node) })) ∧ ResentAll s.cfg aka.node n (y.sent.map (·.2)) cs b ∧
        ((∀ log m, env.echoOk log k m = true) → cs.length = y.sent.length ∧ b = y.ok)) := by
  have hh : JamKeeps (fun _ _ => True) (fun _ => True) i start c resendIdle :=
    fun _ w _ _ k _ _ h => ⟨true, w, [], rfl, trivial, by rw [List.append_nil]; exact h.mono (Nat.le_succ k), rfl⟩
  obtain ⟨y, p, _, _, h1, h2, h3, h4, _, _, h5, _⟩ := jam_rescan o r hh ⟨fun _ _ _ _ _ _ => trivial, fun _ _ _ => trivial⟩ a aka.node max trivial hb hms hsm hkn hrec hsp
    fun k m e1 e2 e3 => by obtain ⟨mm, h⟩ := hload k m e1 e2 e3; exact ⟨mm, h, trivial⟩
  refine ⟨y, p, h1, h2, fun hc => ?_, h5, fun he => ?_⟩
  · have hy : y.ok = true := by
      cases hy : y.ok with
      | true => rfl
      | false =>
        rcases h4 hy with ⟨t, ht⟩ | ⟨m, w1, w2, h⟩
        · rw [hc] at ht; cases ht
        · cases h
    exact ⟨hy, h3 hy⟩
  · obtain ⟨b, cs, g1, g2, g3⟩ := rescan_sends env tag addr max s hc hk (by
      rw [he]
      intro m hm
      obtain ⟨x, hx, rfl⟩ := List.mem_map.1 hm
      obtain ⟨k, m, _, _, _, _, old, hl⟩ := h5.what x hx
      obtain ⟨e1, e2⟩ := jamLoaded_tag hl
      rw [if_neg (by rw [hc.echo]; decide)] at e1
      exact ⟨e1, e2⟩)
    rw [he] at g2 g3
    simp only [List.length_map] at g3
    exact ⟨b, cs, g1, g2, g3⟩

namespace Ex

def reEnv (b : JamBase) : Env :=
  { env with rescan := fun _ i max => match (jamRescan {} jlRun resendIdle i jsArea ⟨1, 2, 3, 0⟩ max (jsW b none)).toOption with | some y => (y.sent.map (·.2), y.ok) | none => ([], false) }

structure ReCopy where
  node : Nat
  frm : Str
  text : List Str
  seen : List N2
  deriving DecidableEq

def reView (x : Out Bool) : Option (Bool × List (Option ReCopy)) :=
  match x with
  | .ok b s => some (b, s.log.map fun e => match e with | .echo k _ m => some ⟨k, m.frm, m.text, m.seenBy.flatten⟩ | _ => none)
  | _ => none

def reTry (tag addr : Str) (max : UInt32) : Option (Option (Bool × List (Option ReCopy))) :=
  jsBase.map fun b => reView (rescanCmd (reEnv b) tag addr max (st scCfg))

def reText (t : Str) : List Str := [1 :: b!"RESCANNED 1:2/3.0\r" ++ t]

set_option synthInstance.maxSize 1000 in
set_option synthInstance.maxHeartbeats 200000 in
/-- All messages that are not deleted are sent to 1:2/5, also those that were received, or sent before. -/
theorem rescan_example : reTry b!"test" b!"1:2/5" 0 = some (some (true, [some ⟨1, b!"Joe", reText b!"one\r", [(2, 3), (2, 5)]⟩, some ⟨1, [], reText b!"two\r", [(2, 3), (2, 5)]⟩,
    some ⟨1, [], reText b!"three\r", [(2, 3), (2, 5)]⟩, some ⟨1, b!"Jim", reText b!"six\r", [(2, 3), (2, 5)]⟩])) := by decide +kernel

set_option synthInstance.maxSize 1000 in
set_option synthInstance.maxHeartbeats 200000 in
/-- Of the last three messages, one has been deleted and one is missing: they are counted, so that only one is sent. -/
theorem rescan_counts_deleted : reTry b!"TEST" b!"1:2/5" 3 = some (some (true, [some ⟨1, b!"Jim", reText b!"six\r", [(2, 3), (2, 5)]⟩])) := by decide +kernel

set_option synthInstance.maxSize 1000 in
set_option synthInstance.maxHeartbeats 200000 in
/-- An area that is not an echomail area, and a node that is not known. -/
theorem rescan_refused_example : reTry b!"MINE" b!"1:2/5" 0 = some (some (false, [])) ∧ reTry b!"TEST" b!"1:2/9" 0 = some (some (false, [])) := by constructor <;> decide +kernel

/-- The conditions of `rescan_jam_partial` are met. -/
theorem rescan_case : ∃ b ms, jsBase = some b ∧ JamHolds b 1 ms ∧ jamKnown (jsW b none) 3 ms = 6 ∧ ms.length = 6 ∧ JamSpace 1000 6 b ms ∧ CanResend (reEnv b) scCfg b!"test" b!"1:2/5" 1 (node 5 0) 3 jsArea ∧
    (jsArea.aka.bind (scCfg.akas[·]?)).map (·.node) = some ⟨1, 2, 3, 0⟩ ∧
    (∀ k m, ms[k]? = some (some m) → JamLive ms k = true → ∃ mm, reloadsAs {} jlRun jsArea ⟨1, 2, 3, 0⟩ (1 + UInt32.ofNat k) m mm) ∧
    ∃ y, jamRescan {} jlRun resendIdle 3 jsArea ⟨1, 2, 3, 0⟩ 0 (jsW b none) = .ok y ∧ (reEnv b).rescan [] 3 0 = (y.sent.map (·.2), y.ok) := by
  obtain ⟨b, ms, h1, h2, h3, h4, h5, h6, h7, h8, h9, h10, h11⟩ := jam_scan_case
  refine ⟨b, ms, h1, h2, h3, h4, h5, ⟨⟨⟨1, 2, 5, 0⟩, by decide +kernel, node 5 0, rfl, by decide, fun j x hj hx => ?_⟩, rfl, ⟨jsArea, rfl, by decide, fun j x hj hx => ?_⟩, rfl, rfl, 0, rfl, rfl⟩, rfl, fun k m e1 e2 => ?_, ?_⟩
  · match j, hj with
    | 0, _ => cases hx; decide
  · match j, hj with
    | 0, _ => cases hx; decide
    | 1, _ => cases hx; decide
    | 2, _ => cases hx; decide
  · rw [JamLive, e1] at e2
    obtain ⟨mm, h, -⟩ := h11 k m e1 (by simpa using e2)
    exact ⟨mm, h⟩
  · have hq : (jsBase.map fun b => (jamRescan {} jlRun resendIdle 3 jsArea ⟨1, 2, 3, 0⟩ 0 (jsW b none)).toOption.isSome) = some true := by decide +kernel
    rw [h1] at hq
    simp only [Option.map_some, Option.some.injEq] at hq
    match hy : jamRescan {} jlRun resendIdle 3 jsArea ⟨1, 2, 3, 0⟩ 0 (jsW b none) with
    | .error _ => rw [hy] at hq; cases hq
    | .ok y => exact ⟨y, rfl, by simp only [reEnv, hy]; rfl⟩

end Ex

end CM
