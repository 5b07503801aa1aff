import Verif.Props.Inbound
import Verif.Props.SafeDelete

/-! # What an interrupted run has left is removed before the next one (C115) -/

set_option linter.unusedSimpArgs false

namespace CM

/-- A packet that an earlier run was making. -/
def Leftover (fs : FS) (dir f : Str) : Prop := ∃ n, (47 : UInt8) ∉ n ∧ HasEnding n b!".newpkt" ∧ n.length ≤ 90 ∧ f = pathIn dir n ∧ fs f ≠ none

/-- The names of such files have at most 90 characters (those that CrashMail makes have at most 48). -/
def ShortNames (fs : FS) (dir : Str) : Prop :=
  ∀ n, (47 : UInt8) ∉ n → HasEnding n b!".newpkt" → fs (makeFullPath dir n 200) ≠ none → n.length ≤ 90

theorem newPkt_ne {n : Str} (h : isNewPkt n = true) : n ≠ [] := by
  rintro rfl
  revert h; decide

/-- C115. Before a run, exactly the packets that earlier runs have left in the directory for new packets are
removed: no other file is touched at any moment, and afterwards reading the directory finds no packet, so that those that are
sent in the end are those of this run. If the directory cannot be read, nothing is removed and the run does not begin. -/
theorem leftovers_removed (o : OutCfg) (hd : o.packetCreate.length ≤ 99) (fs : FS) (hn : ShortNames fs o.packetCreate) (w : World) :
    Sure w (fun fs' => ∀ f, fs' f = fs f ∨ (Leftover fs o.packetCreate f ∧ fs' f = none))
      (fun ok fs' => (ok = false → fs' = fs) ∧ (ok = true → ¬ w.deleteFails → (∀ f, Leftover fs o.packetCreate f → fs' f = none) ∧
        ∀ es, DirList fs' o.packetCreate isNewPkt es → es = [])) (removeNewPkts o) fs := by
  show Sure w _ _ (.list o.packetCreate isNewPkt fun x => _) fs
  refine .list (fun _ => .inl rfl) (fun es hes => ?_) (fun _ => ?_)
  · show Sure w _ _ ((processSafeDelete (es.map fun fe => makeFullPath o.packetCreate fe.name 200)) >>= fun _ => Prog.ret true) fs
    have hpath : ∀ n : Str, n.length ≤ 90 → makeFullPath o.packetCreate n 200 = pathIn o.packetCreate n := fun n h => path200 hd h
    have hname : ∀ e ∈ es, (47 : UInt8) ∉ e.name ∧ HasEnding e.name b!".newpkt" ∧ e.name.length ≤ 90 ∧ fs (makeFullPath o.packetCreate e.name 200) ≠ none := by
      intro e he
      obtain ⟨n, d, e1, e2, e3, e4, e5, -⟩ := hes.1 e he
      have hne : fs (makeFullPath o.packetCreate n 200) ≠ none := by rw [e5]; exact fun h => by cases h
      have hl := hn n e2 ((isNewPkt_iff n).1 e4) hne
      rw [List.take_of_length_le (by omega)] at e1
      rw [e1]
      exact ⟨e2, (isNewPkt_iff n).1 e4, hl, hne⟩
    have hmem : ∀ f, f ∈ (es.map fun fe => makeFullPath o.packetCreate fe.name 200) ↔ Leftover fs o.packetCreate f := by
      intro f
      constructor
      · intro hf
        obtain ⟨e, he, rfl⟩ := List.mem_map.1 hf
        obtain ⟨h1, h2, h3, h4⟩ := hname e he
        exact ⟨e.name, h1, h2, h3, hpath _ h3, h4⟩
      · rintro ⟨n, h1, h2, h3, rfl, h5⟩
        rw [← hpath n h3] at h5 ⊢
        have h2' := (isNewPkt_iff n).2 h2
        obtain ⟨e, he, h6⟩ := hes.2.1 n h1 (newPkt_ne h2') h2' h5
        rw [List.take_of_length_le (by omega)] at h6
        exact List.mem_map.2 ⟨e, he, by rw [h6]⟩
    have hdel := safeDelete_sure w (es.map fun fe => makeFullPath o.packetCreate fe.name 200) fs
    have hI : ∀ gs : FS, (∀ f, gs f = fs f ∨ (f ∈ (es.map fun fe => makeFullPath o.packetCreate fe.name 200) ∧ gs f = none)) →
        ∀ f, gs f = fs f ∨ (Leftover fs o.packetCreate f ∧ gs f = none) := by
      intro gs h f
      rcases h f with h | ⟨h, h'⟩
      · exact .inl h
      · exact .inr ⟨(hmem f).1 h, h'⟩
    refine Sure.bind (Q := fun _ gs => (∀ f, gs f = fs f ∨ (f ∈ (es.map fun fe => makeFullPath o.packetCreate fe.name 200) ∧ gs f = none)) ∧
      (¬ w.deleteFails → ∀ f ∈ es.map fun fe => makeFullPath o.packetCreate fe.name 200, gs f = none))
      (hdel.mono hI (fun _ gs h1 h2 => ⟨h1, h2⟩)) ?_
    rintro _ gs - ⟨h1, h2⟩
    refine .ret (hI gs h1) ⟨(fun h => by cases h), fun _ hw => ?_⟩
    have hgone : ∀ f, Leftover fs o.packetCreate f → gs f = none := fun f hf => h2 hw f ((hmem f).2 hf)
    refine ⟨hgone, fun es' hes' => ?_⟩
    cases es' with
    | nil => rfl
    | cons e r =>
      obtain ⟨n, d, -, e2, -, e4, e5, -⟩ := hes'.1 e (List.mem_cons_self ..)
      have hend := (isNewPkt_iff n).1 e4
      rcases hI gs h1 (makeFullPath o.packetCreate n 200) with h | ⟨-, h⟩
      · have hne : fs (makeFullPath o.packetCreate n 200) ≠ none := by rw [← h, e5]; exact fun h => by cases h
        have hl := hn n e2 hend hne
        have := hgone (makeFullPath o.packetCreate n 200) ⟨n, e2, hend, hl, hpath n hl, hne⟩
        rw [e5] at this; cases this
      · rw [e5] at h; cases h
  · exact .ret (fun _ => .inl rfl) ⟨fun _ => rfl, fun h => by cases h⟩

/-- The names that a packet has while it is made and once it is complete are such names. -/
theorem made_is_leftover (num : UInt32) :
    (HasEnding (pktTempName num) b!".newpkt" ∧ (pktTempName num).length ≤ 90 ∧ (47 : UInt8) ∉ pktTempName num) ∧
    ∀ type n name, pktDoneName num type n = .ok name → HasEnding name b!".newpkt" ∧ name.length ≤ 90 ∧ (47 : UInt8) ∉ name := by
  refine ⟨⟨⟨hexW 8 num.toNat, b!".newpkt", rfl, by decide⟩, ?_, ?_⟩, ?_⟩
  · unfold pktTempName
    rw [List.length_append, hexW_length]
    decide
  · unfold pktTempName
    intro h
    rcases List.mem_append.1 h with h | h
    · exact hexW_slash _ _ h
    · exact absurd h (by decide)
  · intro type n name h
    obtain ⟨h1, h2, -, h4⟩ := pktDoneName_ok h
    exact ⟨(isNewPkt_iff name).1 h4, by omega, h1⟩

/-- C115. A packet that was not finished is not sent, even if it could not be removed: looking at it does nothing at all. -/
theorem half_never_sent (o : OutCfg) (hd : o.packetCreate.length ≤ 99) (st : PackSt) (num : UInt32) : packFile o st (makeFullPath o.packetCreate (pktTempName num) 200) = .ret (false, st) := by
  have hl : (pktTempName num).length = 15 := by
    unfold pktTempName
    rw [List.length_append, hexW_length]
    rfl
  have hw : ∀ c ∈ pktTempName num, c ≠ 32 ∧ c ≠ 9 ∧ c ≠ 92 ∧ c ≠ 10 ∧ c ≠ 34 ∧ c ≠ 95 ∧ c ≠ 47 := by
    intro c hc
    unfold pktTempName at hc
    rcases List.mem_append.1 hc with hc | hc
    · exact hexW_word _ _ c hc
    · exact (by decide : ∀ c ∈ b!".newpkt", c ≠ 32 ∧ c ≠ 9 ∧ c ≠ 92 ∧ c ≠ 10 ∧ c ≠ 34 ∧ c ≠ 95 ∧ c ≠ 47) c hc
  have hp : parsePktName (makeFullPath o.packetCreate (pktTempName num) 200) = none := by
    unfold parsePktName
    rw [getFilePart_makeFullPath o.packetCreate _ 200 (made_is_leftover num).1.2.2 (by omega),
      show mystrncpy (pktTempName num) 200 = pktTempName num from List.take_of_length_le (by omega),
      map_id_of fun c hc => if_neg (hw c hc).2.2.2.2.2.1]
    have j := jbstrcpy_word 100 (pktTempName num) [] (fun c hc => ⟨(hw c hc).1, (hw c hc).2.1, (hw c hc).2.2.1, (hw c hc).2.2.2.1, (hw c hc).2.2.2.2.1⟩)
      (fun e => by rw [e] at hl; cases hl) (by omega) (.inl rfl)
    rw [List.append_nil] at j
    dsimp only
    rw [j, show (jbstrcpy 100 (List.drop 1 ([] : Str))) = ([], [], false) from by decide]
    rfl
  unfold packFile
  rw [hp]
  rfl

namespace Ex

/-- A packet that was being written, a packet that was finished, and another file. -/
def leftDisk : FS := fun f => if f = b!"/create/0000002a.newpkt" then some [1] else
  if f = b!"/create/0000002b_Crash_2_5030_1559_0.newpkt" then some [2] else if f = b!"/create/notes" then some [3] else none

theorem left_names {n : Str} (h1 : (47 : UInt8) ∉ n) (h3 : leftDisk (makeFullPath outCfg.packetCreate n 200) ≠ none) :
    n = b!"0000002a.newpkt" ∨ n = b!"0000002b_Crash_2_5030_1559_0.newpkt" ∨ n = b!"notes" := by
  have hdir : dirPart outCfg.packetCreate = b!"/create/" := by decide
  obtain ⟨-, k, hk, e⟩ := fullPath_in (dir := outCfg.packetCreate) (by decide) h1
  rw [e, hdir] at h3
  have key : ∀ x : Str, x.length < 98 → b!"/create/" ++ n.take k = b!"/create/" ++ x → n = x := by
    intro x hx hh
    have hh := List.append_cancel_left hh
    by_cases hl : n.length ≤ k
    · rwa [List.take_of_length_le hl] at hh
    · have := congrArg List.length hh
      rw [List.length_take] at this
      omega
  unfold leftDisk at h3
  by_cases c1 : b!"/create/" ++ n.take k = b!"/create/" ++ b!"0000002a.newpkt"
  · exact .inl (key _ (by decide) c1)
  by_cases c2 : b!"/create/" ++ n.take k = b!"/create/" ++ b!"0000002b_Crash_2_5030_1559_0.newpkt"
  · exact .inr (.inl (key _ (by decide) c2))
  by_cases c3 : b!"/create/" ++ n.take k = b!"/create/" ++ b!"notes"
  · exact .inr (.inr (key _ (by decide) c3))
  refine absurd ?_ h3
  refine (if_neg ?_).trans ((if_neg ?_).trans (if_neg ?_))
  · exact c1
  · exact c2
  · exact c3

theorem left_hyps : ShortNames leftDisk outCfg.packetCreate ∧ Leftover leftDisk outCfg.packetCreate b!"/create/0000002a.newpkt" ∧
    Leftover leftDisk outCfg.packetCreate b!"/create/0000002b_Crash_2_5030_1559_0.newpkt" ∧ ¬ Leftover leftDisk outCfg.packetCreate b!"/create/notes" := by
  refine ⟨?_, ⟨b!"0000002a.newpkt", by decide, (isNewPkt_iff _).1 (by decide), by decide, by decide, by decide⟩,
    ⟨b!"0000002b_Crash_2_5030_1559_0.newpkt", by decide, (isNewPkt_iff _).1 (by decide), by decide, by decide, by decide⟩, ?_⟩
  · intro n h1 _ h3
    rcases left_names h1 h3 with rfl | rfl | rfl <;> decide
  · rintro ⟨n, h1, h2, h3, h4, -⟩
    have h5 : b!"/create/" ++ b!"notes" = b!"/create/" ++ n := h4
    rw [← List.append_cancel_left h5] at h2
    exact absurd ((isNewPkt_iff _).2 h2) (by decide)

/-- C115 (violated). A packet that cannot be removed is not noticed: the run begins, and will send the packet together
with those it makes from the same received mail. -/
theorem left_stays : Reach {} (removeNewPkts outCfg) leftDisk (.ret true) leftDisk := by
  refine .step (.listOk _ _ _ _ [⟨b!"0000002a.newpkt", 1, 0⟩, ⟨b!"0000002b_Crash_2_5030_1559_0.newpkt", 1, 0⟩] ⟨?_, ?_, ?_⟩) ?_
  · intro e he
    simp only [List.mem_cons, List.not_mem_nil, or_false] at he
    rcases he with rfl | rfl
    · exact ⟨b!"0000002a.newpkt", [1], by decide, by decide, by decide, by decide, by decide, rfl⟩
    · exact ⟨b!"0000002b_Crash_2_5030_1559_0.newpkt", [2], by decide, by decide, by decide, by decide, by decide, rfl⟩
  · intro n h1 _ h3 h4
    rcases left_names h1 h4 with rfl | rfl | rfl
    · exact ⟨_, List.mem_cons_self .., by decide⟩
    · exact ⟨_, List.mem_cons_of_mem _ (List.mem_cons_self ..), by decide⟩
    · exact absurd h3 (by decide)
  · simp
  · exact .step (.deleteFail _ _ _ (.inr trivial)) (.step (.deleteFail _ _ _ (.inr trivial)) (.here _ _))

end Ex

end CM
