import Verif.Lemmas.JamLinks
import Verif.Props.JamIndex
/-! # Replies in JAM areas are linked -/

set_option linter.unusedSimpArgs false

namespace CM

theorem jamGetArea_there {r : JamRun} {w : JamW} {i : Nat} {b : JamBase} {start : UInt32} {ms : List (Option JamMsg)} (hw : w.base i = some b) (hh : JamHolds b start ms)
    (hrec : ∀ x, w.recs i = some x → x.baseNum = start) :
    ∃ w', jamGetArea r w i = (true, w') ∧ w'.base = w.base ∧ w'.hwFile = w.hwFile ∧ (w'.recOf i).baseNum = start ∧
      (∀ x, w.recs i = some x → w' = w) ∧ (w.recs i = none → w'.recOf i = { baseNum := start, oldNum := jamSize b } ∧ w'.order = w.order ++ [i]) ∧
      (∀ j, j ≠ i → w'.recs j = w.recs j) ∧ (w'.recs i).isSome := by
  unfold jamGetArea
  match hr : w.recs i with
  | some x =>
    simp only [jamOpenArea, hw]
    refine ⟨w, rfl, rfl, rfl, ?_, fun _ _ => rfl, fun h => by (cases h), fun _ _ => rfl, by rw [hr]; rfl⟩
    rw [JamW.recOf, hr]
    exact hrec x hr
  | none =>
    obtain ⟨H, h1, _, h2, _⟩ := jam_count hh
    have hb : (w.setRec i {}).base i = some b := hw
    simp only [jamOpenArea, hb, h1, Bool.not_true, Bool.false_eq_true, if_false]
    refine ⟨_, rfl, rfl, rfl, ?_, fun x hx => by (cases hx), fun _ => ⟨?_, rfl⟩, fun j hj => ?_, ?_⟩
    · simp only [JamW.recOf, JamW.setRec, if_true, Option.getD_some]; exact h2
    · simp only [JamW.recOf, JamW.setRec, if_true, Option.getD_some]; rw [h2]
    · simp only [JamW.setRec, hj, if_false]
    · simp only [JamW.setRec, if_true]; rfl

/-- Linking the new messages of an area. Whatever the base holds, linking does not go wrong. It neither adds nor
removes messages, and changes nothing but the links. Messages become replies only to messages they are replies to; no new message is
overlooked; threads that were in order stay in order. Other areas are not touched. -/
theorem jam_link (o : JamOpt) (r : JamRun) (hl : ∀ t, r.lock t = true) {i : Nat} {w : JamW} {b : JamBase} {start : UInt32} {ms : List (Option JamMsg)} (new : UInt32)
    (hw : w.base i = some b) (hh : JamHolds b start ms) (hrec : ∀ x, w.recs i = some x → x.baseNum = start) (h0 : start ≠ 0)
    (hb : start.toNat + ms.length ≤ 2 ^ 32) (h26 : ms.length < 2 ^ 26) :
    ∃ w' b' ms', jamLinkMb o r i new w = .ok (true, w') ∧ w'.base i = some b' ∧ JamHolds b' start ms' ∧ LinksDone o.quick start new.toNat ms ms' ∧
      (∀ j, j ≠ i → w'.base j = w.base j) ∧ w'.hwFile = w.hwFile ∧ (∀ x, w.recs i = some x → w'.recs = w.recs ∧ w'.order = w.order) := by
  obtain ⟨w1, g1, g2, g3, g4, g5, _, _, _⟩ := jamGetArea_there (r := r) hw hh hrec
  obtain ⟨_, _, _, _, hsz⟩ := jam_count hh
  have hw1 : w1.base i = some b := by rw [g2]; exact hw
  unfold jamLinkMb
  rw [g1]
  simp only [Bool.not_true, Bool.false_eq_true, if_false, hw1, hsz]
  by_cases hn : ms.length = 0
  · rw [if_pos hn]
    have he : ms = [] := List.length_eq_zero_iff.1 hn
    subst he
    refine ⟨w1, b, [], rfl, hw1, hh, ⟨⟨rfl, fun k hk => by simp at hk, fun k x hk => by simp at hk⟩, fun k x x' hk => by simp at hk, fun k x x' hk => by simp at hk,
      fun k x x' hk => by simp at hk, fun p k ha => by obtain ⟨_, _, hp, _⟩ := ha; simp at hp, fun h _ => h⟩,
      fun j _ => by rw [g2], g3, fun x hx => by rw [g5 x hx]; exact ⟨rfl, rfl⟩⟩
  · rw [if_neg hn, g4]
    obtain ⟨T, t1, t2, t3⟩ := jamLinks_spec hh o.quick hb h0 new.toNat
    rw [t1]
    have hT := t2.idsOf.len
    obtain ⟨w2, b2, fin, f1, f2, f3, f4, f5, f6, f7⟩ := linkWrite_spec hl hT (List.range ms.length) List.nodup_range hw1 hh rfl
      fun c hc => ⟨List.mem_range.1 hc, rfl⟩
    refine ⟨w2, b2, fin, ?_, f2, f3, links_done hb h0 t2 (fun k y q hy hq => f5 k (List.mem_range.2 (List.getElem?_eq_some_iff.1 hq).1) y q hy hq) f4 (by omega) t3,
      fun j hj => by rw [f7.base j hj, g2], by rw [f7.hw, g3], fun x hx => ?_⟩
    · show Except.ok _ = _
      rw [f1]
    · rw [f7.recs, f7.order, g5 x hx]
      exact ⟨rfl, rfl⟩

/-! ## After a run -/

/-- What is known about the areas that were used. -/
structure AreasUsed (w : JamW) (start : Nat → UInt32) (ms : Nat → List (Option JamMsg)) : Prop where
  once : w.order.Nodup
  there : ∀ i ∈ w.order, ∃ b x, w.base i = some b ∧ JamHolds b (start i) (ms i) ∧ w.recs i = some x ∧ x.baseNum = start i
  pos : ∀ i ∈ w.order, start i ≠ 0
  small : ∀ i ∈ w.order, (start i).toNat + (ms i).length ≤ 2 ^ 32 ∧ (ms i).length < 2 ^ 26

theorem jamAfter_links (o : JamOpt) (r : JamRun) (hl : ∀ t, r.lock t = true) {start : Nat → UInt32} {ms : Nat → List (Option JamMsg)} : ∀ (is : List Nat) {w : JamW},
    is.Nodup → (∀ i ∈ is, ∃ b x, w.base i = some b ∧ JamHolds b (start i) (ms i) ∧ w.recs i = some x ∧ x.baseNum = start i) → (∀ i ∈ is, start i ≠ 0) →
    (∀ i ∈ is, (start i).toNat + (ms i).length ≤ 2 ^ 32 ∧ (ms i).length < 2 ^ 26) →
    ∃ w', is.foldlM (fun w i => if (w.recOf i).newmsg then do return (← jamLinkMb o r i (w.recOf i).oldNum w).2 else return w) w = (.ok w' : Except JErr JamW) ∧
      w'.hwFile = w.hwFile ∧ w'.recs = w.recs ∧
      (∀ i ∈ is, (w.recOf i).newmsg = true → ∃ b' ms', w'.base i = some b' ∧ JamHolds b' (start i) ms' ∧ LinksDone o.quick (start i) (w.recOf i).oldNum.toNat (ms i) ms') ∧
      (∀ i, (i ∉ is ∨ (w.recOf i).newmsg = false) → w'.base i = w.base i)
  | [], w, _, _, _, _ => ⟨w, rfl, rfl, rfl, fun i hi => (by cases hi), fun _ _ => rfl⟩
  | i :: is, w, hnd, ht, hp, hs => by
    obtain ⟨hni, hnd⟩ := List.nodup_cons.1 hnd
    obtain ⟨b, x, t1, t2, t3, t4⟩ := ht i (by simp)
    -- the step
    have step : ∃ w1, (if (w.recOf i).newmsg then do return (← jamLinkMb o r i (w.recOf i).oldNum w).2 else return w : Except JErr JamW) = .ok w1 ∧ w1.hwFile = w.hwFile ∧ w1.recs = w.recs ∧
        (∀ j, j ≠ i → w1.base j = w.base j) ∧ ((w.recOf i).newmsg = true → ∃ b' ms', w1.base i = some b' ∧ JamHolds b' (start i) ms' ∧
          LinksDone o.quick (start i) (w.recOf i).oldNum.toNat (ms i) ms') ∧ ((w.recOf i).newmsg = false → w1.base i = w.base i) := by
      by_cases hm : (w.recOf i).newmsg = true
      · obtain ⟨w1, b', ms', q1, q2, q3, q4, q5, q6, q7⟩ := jam_link o r hl (w.recOf i).oldNum t1 t2 (fun y hy => by rw [t3] at hy; cases hy; exact t4) (hp i (by simp))
          (hs i (by simp)).1 (hs i (by simp)).2
        refine ⟨w1, ?_, q6, (q7 x t3).1, q5, fun _ => ⟨b', ms', q2, q3, q4⟩, fun h => by rw [hm] at h; cases h⟩
        rw [if_pos hm, q1]; rfl
      · exact ⟨w, by rw [if_neg hm]; rfl, rfl, rfl, fun _ _ => rfl, fun h => absurd h hm, fun _ => rfl⟩
    obtain ⟨w1, s1, s2, s3, s4, s5, s6⟩ := step
    have hrec : ∀ j, w1.recOf j = w.recOf j := fun j => by rw [JamW.recOf, JamW.recOf, s3]
    obtain ⟨w2, k1, k2, k3, k4, k5⟩ := jamAfter_links o r hl is (w := w1) hnd (fun j hj => by
        obtain ⟨b, x, t1, t2, t3, t4⟩ := ht j (by simp [hj])
        exact ⟨b, x, by rw [s4 j (fun e => hni (e ▸ hj))]; exact t1, t2, by rw [s3]; exact t3, t4⟩) (fun j hj => hp j (by simp [hj])) (fun j hj => hs j (by simp [hj]))
    refine ⟨w2, by rw [List.foldlM_cons, s1]; exact k1, k2.trans s2, k3.trans s3, fun j hj hm => ?_, fun j hj => ?_⟩
    · rcases List.mem_cons.1 hj with rfl | hj
      · rw [k5 j (.inl hni)]; exact s5 hm
      · have := k4 j hj (by rw [hrec]; exact hm)
        rw [hrec] at this; exact this
    · by_cases hji : j = i
      · subst hji
        rw [k5 j (.inl hni)]
        rcases hj with hj | hj
        · exact absurd (by simp) hj
        · exact s6 hj
      · rw [k5 j ?_, s4 j hji]
        rcases hj with hj | hj
        · exact .inl fun h => hj (by simp [h])
        · exact .inr (by rw [hrec]; exact hj)

/-- After a run with links switched on: in every area that got new messages these are linked; the other areas are
as they were. High water marks are written where they have changed. -/
theorem jam_after (o : JamOpt) (r : JamRun) (hl : ∀ t, r.lock t = true) (ho : o.link = true) {w : JamW} {start : Nat → UInt32} {ms : Nat → List (Option JamMsg)}
    (hu : AreasUsed w start ms) :
    ∃ w', jamAfter o r true w = .ok w' ∧
      (∀ i ∈ w.order, (w.recOf i).newmsg = true → ∃ b' ms', w'.base i = some b' ∧ JamHolds b' (start i) ms' ∧ LinksDone o.quick (start i) (w.recOf i).oldNum.toNat (ms i) ms') ∧
      (∀ i, (i ∉ w.order ∨ (w.recOf i).newmsg = false) → w'.base i = w.base i) ∧
      (∀ i, w'.hwFile i = if o.highwater = true ∧ i ∈ w.order ∧ (w.recOf i).hw ≠ (w.recOf i).oldHW then some (le32 (w.recOf i).hw) else w.hwFile i) := by
  -- the marks
  have marks : ∀ (is : List Nat) (v : JamW), ∃ v', is.foldl (fun w i => if (w.recOf i).hw ≠ (w.recOf i).oldHW then jamWriteHW w i else w) v = v' ∧
      v'.base = v.base ∧ v'.recs = v.recs ∧ v'.order = v.order ∧
      ∀ i, v'.hwFile i = if i ∈ is ∧ (v.recOf i).hw ≠ (v.recOf i).oldHW then some (le32 (v.recOf i).hw) else v.hwFile i := by
    intro is
    induction is with
    | nil => intro v; exact ⟨v, rfl, rfl, rfl, rfl, fun i => by rw [if_neg (fun h => by cases h.1)]⟩
    | cons j is ih =>
      intro v
      obtain ⟨v', e1, e2, e3, e4, e5⟩ := ih (if (v.recOf j).hw ≠ (v.recOf j).oldHW then jamWriteHW v j else v)
      refine ⟨v', e1, ?_, ?_, ?_, fun i => ?_⟩
      · rw [e2]; split <;> rfl
      · rw [e3]; split <;> rfl
      · rw [e4]; split <;> rfl
      · have hr : ∀ i, (if (v.recOf j).hw ≠ (v.recOf j).oldHW then jamWriteHW v j else v : JamW).recOf i = v.recOf i := fun i => by split <;> rfl
        rw [e5 i, hr i]
        by_cases hc : (v.recOf i).hw ≠ (v.recOf i).oldHW
        · simp only [hc, and_true, List.mem_cons, ne_eq, not_false_eq_true]
          by_cases hm : i ∈ is
          · simp only [hm, if_true, or_true]
          · simp only [hm, if_false, or_false]
            by_cases hij : i = j
            · subst hij
              rw [if_pos hc, if_pos rfl]
              simp only [jamWriteHW, if_true]
            · rw [if_neg hij]
              split
              · simp only [jamWriteHW, hij, if_false]
              · rfl
        · simp only [hc, and_false, if_false]
          split
          · rename_i hj
            have : i ≠ j := fun e => hc (e ▸ hj)
            simp only [jamWriteHW, this, if_false]
          · rfl
  obtain ⟨v, v1, v2, v3, v4, v5⟩ := marks w.order w
  have hv : ∃ v, (if true && o.highwater then w.order.foldl (fun w i => if (w.recOf i).hw ≠ (w.recOf i).oldHW then jamWriteHW w i else w) w else w) = v ∧
      v.base = w.base ∧ v.recs = w.recs ∧ v.order = w.order ∧
      ∀ i, v.hwFile i = if o.highwater = true ∧ i ∈ w.order ∧ (w.recOf i).hw ≠ (w.recOf i).oldHW then some (le32 (w.recOf i).hw) else w.hwFile i := by
    by_cases hh : o.highwater = true
    · exact ⟨v, by rw [hh]; exact v1, v2, v3, v4, fun i => by rw [v5]; simp only [hh, true_and]⟩
    · refine ⟨w, by rw [Bool.not_eq_true] at hh; rw [hh]; rfl, rfl, rfl, rfl, fun i => by simp only [hh, false_and, if_false]; rfl⟩
  obtain ⟨v, v1, v2, v3, v4, v5⟩ := hv
  have hrec : ∀ i, v.recOf i = w.recOf i := fun i => by rw [JamW.recOf, JamW.recOf, v3]
  obtain ⟨w', k1, k2, k3, k4, k5⟩ := jamAfter_links o r hl w.order (w := v) hu.once (fun i hi => by rw [v2, v3]; exact hu.there i hi) hu.pos hu.small
  refine ⟨w', ?_, fun i hi hm => ?_, fun i hi => ?_, fun i => by rw [k2, v5]⟩
  · unfold jamAfter
    rw [v1]
    simp only [ho, Bool.and_self, if_true, v4]
    exact k1
  · have := k4 i hi (by rw [hrec]; exact hm)
    rw [hrec] at this; exact this
  · rw [k5 i (by rw [hrec]; exact hi), v2]

namespace Ex

def jlId (s : Str) : JamSub := ⟨4, 0, s⟩
def jlRe (s : Str) : JamSub := ⟨5, 0, s⟩

/-- A message, a reply to it, a number without a message, and another reply. The fourth message has the same checksum, but is a reply to something else. -/
def jlOps : List JamOp := [.add { jamHdr0 with msgIdCrc := 7, replyCrc := 0xffffffff } [jlId b!"1:2/3 aa"] b!"A",
  .add { jamHdr0 with msgIdCrc := 8, replyCrc := 7 } [jlRe b!"1:2/3 aa", jlId b!"1:2/3 bb"] b!"B", .empty,
  .add { jamHdr0 with msgIdCrc := 9, replyCrc := 7 } [jlRe b!"1:2/3 cc", jlId b!"1:2/3 dd"] b!"C",
  .add { jamHdr0 with msgIdCrc := 0xffffffff, replyCrc := 7 } [jlRe b!"1:2/3 aa"] b!"D",
  .add { jamHdr0 with msgIdCrc := 0xffffffff, replyCrc := 0xffffffff } [] b!"E"]

def jlRun : JamRun := { e := jamEnv, utcOffset := 0, mktime := fun _ => none, localtime := fun _ => ⟨0, 0, 0, 1, 0, 70⟩, now := fun _ => 0, lock := fun _ => true, ctrlc := fun _ => false, create := fun _ => true }

def jlBase : Option JamBase := (jamCreate jamEnv 5 1).toOption.bind fun b => (jamRun jamEnv { b with locked := true } jlOps).toOption

def jlW (b : JamBase) : JamW := { base := fun i => if i = 3 then some b else none, hwFile := fun _ => none, recs := fun i => if i = 3 then some { baseNum := 1, oldNum := 1, newmsg := true } else none, order := [3] }

def jlView (w : JamW) : List (Option (UInt32 × UInt32 × UInt32)) :=
  match w.base 3 with
  | none => []
  | some b => (List.range 6).map fun n => (jamHead b (UInt32.ofNat n)).toOption.map fun h => (h.replyTo, h.reply1st, h.replyNext)

/-- The two replies are found from the first message, and nothing else is linked. -/
theorem jam_links_example : (jlBase.bind fun b => (jamLinkMb { quick := false } jlRun 3 1 (jlW b)).toOption.map fun x => (x.1, jlView x.2)) =
    some (true, [some (0, 2, 0), some (1, 0, 5), none, some (0, 0, 0), some (1, 0, 0), some (0, 0, 0)]) := by decide +kernel

/-- `QUICKLINK` compares the checksums only. The fourth message, which says that it is a reply to something else, becomes a reply to the
first one, too. Messages without an identification (checksum `ffffffff`) count as the origin of all messages that are no replies: here the first message
becomes a reply to its own reply, and whoever follows the links goes round in circles. -/
theorem jam_quicklink_wrong : (jlBase.bind fun b => (jamLinkMb { quick := true } jlRun 3 1 (jlW b)).toOption.map fun x => (x.1, jlView x.2)) =
    some (true, [some (5, 2, 6), some (1, 0, 4), none, some (1, 0, 5), some (1, 1, 0), some (5, 0, 0)]) := by decide +kernel

/-- The area meets the conditions of `jam_link` and `jam_after`. -/
theorem jam_link_case : ∃ b ms, jlBase = some b ∧ JamHolds b 1 ms ∧ ms.length = 6 ∧ AreasUsed (jlW b) (fun _ => 1) (fun _ => ms) ∧ AnswersAt false ms 0 1 ∧ AnswersAt false ms 0 4 ∧
    ¬AnswersAt false ms 0 3 := by
  obtain ⟨b, h1, h2⟩ := jam_create jamEnv 5 1
  have hlen : b.hdr.length = 1024 ∧ b.txt = [] := by
    injection h1 with h1; rw [← h1]; exact ⟨by decide +kernel, rfl⟩
  obtain ⟨b', ms', r1, r2, r3⟩ := jam_history_partial jamEnv jlOps (b := { b with locked := true }) (start := 1) (ms := []) (h2.relock true) rfl
    ⟨by show b.hdr.length + _ < _; rw [hlen.1]; decide, by show b.txt.length + _ < _; rw [hlen.2]; decide, by decide⟩ (fun op hm => by
      simp only [jlOps, List.mem_cons, List.not_mem_nil, or_false] at hm
      have key : ∀ subs : List JamSub, (∀ s ∈ subs, s.loId ≠ 3) → CanIndex jamEnv subs := fun subs h s hs h3 => absurd h3 (h s hs)
      rcases hm with rfl | rfl | rfl | rfl | rfl | rfl
      · exact ⟨key _ (by decide), by decide⟩
      · exact ⟨key _ (by decide), by decide⟩
      · trivial
      · exact ⟨key _ (by decide), by decide⟩
      · exact ⟨key _ (by decide), by decide⟩
      · exact ⟨key _ (by decide), by decide⟩)
  have hj : jlBase = some b' := by rw [jlBase, h1]; show (jamRun jamEnv _ jlOps).toOption = _; rw [r1]; rfl
  rw [jlOps] at r2
  cases r2 with | cons n1 r2 =>
  cases n1 with | add a1 =>
  cases r2 with | cons n1 r2 =>
  cases n1 with | add a2 =>
  cases r2 with | cons n1 r2 =>
  cases n1 with | empty =>
  cases r2 with | cons n1 r2 =>
  cases n1 with | add a3 =>
  cases r2 with | cons n1 r2 =>
  cases n1 with | add a4 =>
  cases r2 with | cons n1 r2 =>
  cases n1 with | add a5 =>
  cases r2
  rename_i m1 m2 m3 m4 m5
  refine ⟨b', _, hj, r3, rfl, ⟨by show [3].Nodup; decide, fun i hi => ⟨b', { baseNum := 1, oldNum := 1, newmsg := true }, ?_, r3, ?_, rfl⟩, fun _ _ => (by decide), fun _ _ => ⟨by show 1 + 6 ≤ 2 ^ 32; decide, by show 6 < 2 ^ 26; decide⟩⟩,
    ⟨m1, m2, rfl, rfl, ?_, .inr ⟨jlRe b!"1:2/3 aa", jlId b!"1:2/3 aa", by rw [a2.subs]; rfl, by rw [a1.subs]; rfl, rfl, rfl⟩⟩, ⟨m1, m4, rfl, rfl, ?_, .inr ⟨jlRe b!"1:2/3 aa", jlId b!"1:2/3 aa", by rw [a4.subs]; rfl, by rw [a1.subs]; rfl, rfl, rfl⟩⟩, ?_⟩
  · have : i = 3 := by simpa [jlW] using hi
    simp [jlW, this]
  · have : i = 3 := by simpa [jlW] using hi
    simp [jlW, this]
  · rw [a1.hdr, a2.hdr]
  · rw [a1.hdr, a4.hdr]
  · rintro ⟨x, y, hx, hy, _, hq | ⟨f, g, hf, hg, _, e⟩⟩
    · cases hq
    · cases hx; cases hy
      rw [a3.subs] at hf; rw [a1.subs] at hg
      cases hf; cases hg
      revert e; decide

end Ex

end CM
