import Verif.Spec.JamKeep
import Verif.Lemmas.JamScan
import Verif.Props.Path
import Verif.Props.SeenBy
import Verif.Props.Strings
import Verif.Props.Netmail
import Verif.Props.Date
import Verif.Lemmas.Nodelist
/-! # Lemmas: storing a message in a JAM area and reading it -/

set_option linter.unusedSimpArgs false

namespace CM

/-! ## Lines -/

theorem crLines_line (t r : Str) (h : 13 ∉ t) : crLines (t ++ 13 :: r) = (t ++ [13]) :: crLines r := by
  induction t with
  | nil => simp [crLines]
  | cons c t ih =>
    have hc : c ≠ 13 := fun e => h (by simp [e])
    have ih := ih (fun e => h (List.mem_cons_of_mem _ e))
    rw [List.cons_append, crLines, if_neg hc, ih]
    rfl

theorem crLines_lines : ∀ ls : List Str, (∀ l ∈ ls, ∃ t, l = t ++ [13] ∧ 13 ∉ t) → crLines ls.flatten = ls
  | [], _ => rfl
  | l :: ls, h => by
    obtain ⟨t, rfl, ht⟩ := h l (by simp)
    rw [List.flatten_cons, List.append_assoc, List.singleton_append, crLines_line t _ ht, crLines_lines ls fun l hl => h l (by simp [hl])]

theorem filter_lf (l : Str) (h : 10 ∉ l) : l.filter (· != 10) = l := by
  rw [List.filter_eq_self]
  intro c hc
  simp only [bne_iff_ne, ne_eq]
  exact fun e => h (e ▸ hc)

theorem below33_of {c : UInt8} (h1 : 32 < c) (h2 : c < 128) : below33 c = false := by
  revert h1 h2; revert c; decide +kernel

theorem stripleadtrail_arg {n : Nat} {v : Str} (h : ArgOk n v) : stripleadtrail v = .ok v := by
  obtain ⟨h1, ⟨c, h2, h3, h4⟩, -⟩ := h
  have hl : striplead v = v := by
    unfold striplead
    cases v with
    | nil => rfl
    | cons a v =>
      rw [List.dropWhile_cons_of_neg]
      simp only [beq_iff_eq]
      intro e; apply h1; simp [e]
  unfold stripleadtrail
  rw [hl, striptrail_iff]
  exact ⟨[], by simp, by simp, c, h2, below33_of h3 h4⟩

theorem stripleadtrail_blank {n : Nat} {v : Str} (h : ArgOk n v) : stripleadtrail (32 :: v) = .ok v := by
  have : stripleadtrail (32 :: v) = stripleadtrail v := by
    unfold stripleadtrail striplead
    rw [List.dropWhile_cons_of_pos (by decide)]
  rw [this]; exact stripleadtrail_arg h

/-- The argument of a line is what is between the `k` first characters and the CR, without the blank. -/
theorem kludgeArg_of {p v : Str} (hv : NoNul v) (hl : v.length ≤ 99) : kludgeArg (p ++ v ++ [13]) p.length = stripleadtrail v := by
  unfold kludgeArg
  have e : (p ++ v ++ [13]).length - p.length = v.length + 1 := by simp
  have e2 : min 100 ((p ++ v ++ [13]).length - p.length) = v.length + 1 := by rw [e]; omega
  simp only [e2]
  rw [if_neg (by omega), List.append_assoc, List.drop_left, Nat.add_sub_cancel, List.take_left, cstr_all v hv]

theorem startsWith_false {s p : Str} (h : ¬ p <+: s) : startsWith s p = false := by
  cases he : startsWith s p with
  | false => rfl
  | true => exact absurd ((startsWith_iff s p).1 he) h

theorem prefix_line {name t : Str} (hn : 13 ∉ name) (h : name <+: t ++ [13]) : name <+: t := by
  rcases List.prefix_concat_iff.1 h with h | h
  · exact absurd (h ▸ (by simp : (13 : UInt8) ∈ t ++ [13])) hn
  · exact h

/-! ## One line: the subfield, and what is read from it -/

/-- A line that is read with `mmAddLine`. -/
def readLine (y : JamReading) (l : Str) : Except JErr JamReading := do return { y with mm := ← addLineJ y.mm l }

theorem jamLine_ok {echo : Prop} {l : Str} (h : JamLineOk echo l) (x : JamIn) :
    ∃ fs, jamLine x l = .ok { attr := x.attr, subs := x.subs ++ fs, body := x.body ++ (if isControl l then [] else l) } ∧
      (∀ y, fs.foldlM jamSubfield y = (controlsBack [l]).foldlM readLine y) ∧ (∀ f ∈ fs, f.loId ≠ 3) := by
  obtain ⟨t, rfl, h13, h10, h0⟩ := h.ends
  have hc := h.control
  by_cases hh : (t ++ [13]).head? = some 1
  · have hctl : isControl (t ++ [13]) = true := by simp [isControl, hh]
    rcases hc hh t rfl with ha | hk
    · -- an address line
      have hd : jamLine x (t ++ [13]) = .ok x := by
        have e : ∃ r, t ++ [13] = (1 :: b!"INTL") ++ r ∨ t ++ [13] = (1 :: b!"TOPT") ++ r ∨ t ++ [13] = (1 :: b!"FMPT") ++ r := by
          rcases ha with ⟨r, hr⟩ | ⟨r, hr⟩ | ⟨r, hr⟩
          · exact ⟨r ++ [13], .inl (by rw [← hr]; simp)⟩
          · exact ⟨r ++ [13], .inr (.inl (by rw [← hr]; simp))⟩
          · exact ⟨r ++ [13], .inr (.inr (by rw [← hr]; simp))⟩
        obtain ⟨r, e | e | e⟩ := e <;> rw [e] <;> simp [jamLine, startsWith]
      refine ⟨[], ?_, ?_, by simp⟩
      · rw [hd, hctl]; simp
      · intro y
        have hA : AddressLine (t ++ [13]) := by
          rcases ha with ha | ha | ha
          · exact .inl (ha.trans (List.prefix_append _ _))
          · exact .inr (.inl (ha.trans (List.prefix_append _ _)))
          · exact .inr (.inr (ha.trans (List.prefix_append _ _)))
        simp [controlsBack, hA]
    · rcases hk with ⟨name, v, hn, rfl, hv⟩ | ⟨v, rfl, hv, hno, hp⟩
      · have hvn : NoNul (32 :: v) := fun e => h0 (List.mem_append_right _ e)
        have hcv : cstr v = v := cstr_all v fun e => hvn (List.mem_cons_of_mem _ e)
        have hA : ¬ AddressLine (1 :: name ++ 32 :: v ++ [13]) := by
          simp only [List.mem_cons, List.not_mem_nil, or_false] at hn
          unfold AddressLine
          rcases hn with rfl | rfl | rfl <;> simp
        have hb : controlsBack [1 :: name ++ 32 :: v ++ [13]] = [1 :: name ++ 32 :: v ++ [13]] := by
          unfold controlsBack
          rw [List.filter_cons_of_pos (by rw [hctl, decide_eq_false hA]; rfl), List.filter_nil]
        have harg : ∀ k : Nat, k = name.length + 1 → kludgeArg (1 :: name ++ 32 :: v ++ [13]) k = .ok v := by
          intro k hk
          have := kludgeArg_of (p := 1 :: name) (v := 32 :: v) hvn (by have := hv.2.2; simp; omega)
          rw [List.length_cons, ← hk] at this
          rw [this]; exact stripleadtrail_blank hv
        have key : ∀ id : UInt16, jamLine x (1 :: name ++ 32 :: v ++ [13]) = .ok (x.add id v) →
            (∀ y, jamSubfield y (jamField id v) = jamKludge y (1 :: name ++ [32]) v) → id ≠ 3 →
            ∃ fs, jamLine x (1 :: name ++ 32 :: v ++ [13]) = .ok { attr := x.attr, subs := x.subs ++ fs, body := x.body ++ (if isControl (1 :: name ++ 32 :: v ++ [13]) then [] else 1 :: name ++ 32 :: v ++ [13]) } ∧
              (∀ y, fs.foldlM jamSubfield y = (controlsBack [1 :: name ++ 32 :: v ++ [13]]).foldlM readLine y) ∧ (∀ f ∈ fs, f.loId ≠ 3) := by
          intro id h1 h2 h3
          refine ⟨[jamField id v], ?_, ?_, by simpa [jamField] using h3⟩
          · rw [h1, hctl]; simp [JamIn.add]
          · intro y
            rw [hb]
            simp only [List.foldlM_cons, List.foldlM_nil, h2]
            have e : (1 :: name ++ [32]) ++ cstr v ++ [13] = 1 :: name ++ 32 :: v ++ [13] := by rw [hcv]; simp
            unfold jamKludge readLine
            rw [e]
        simp only [List.mem_cons, List.not_mem_nil, or_false] at hn
        rcases hn with rfl | rfl | rfl
        · refine key 7 ?_ (fun y => ?_) (by decide)
          · have hs : startsWith (1 :: b!"PID:" ++ 32 :: v ++ [13]) (1 :: b!"PID:") = true := by simp [startsWith]
            unfold jamLine
            rw [if_neg (by simp), if_pos hs, harg 5 (by simp)]
            rfl
          · rfl
        · refine key 4 ?_ (fun y => ?_) (by decide)
          · have hs : startsWith (1 :: b!"MSGID:" ++ 32 :: v ++ [13]) (1 :: b!"MSGID:") = true := by simp [startsWith]
            have hs1 : startsWith (1 :: b!"MSGID:" ++ 32 :: v ++ [13]) (1 :: b!"PID:") = false := by simp [startsWith]
            unfold jamLine
            rw [if_neg (by simp), hs1, if_neg Bool.false_ne_true, if_pos hs, harg 7 (by simp)]
            rfl
          · rfl
        · refine key 5 ?_ (fun y => ?_) (by decide)
          · have hs : startsWith (1 :: b!"REPLY:" ++ 32 :: v ++ [13]) (1 :: b!"REPLY:") = true := by simp [startsWith]
            have hs1 : startsWith (1 :: b!"REPLY:" ++ 32 :: v ++ [13]) (1 :: b!"PID:") = false := by simp [startsWith]
            have hs2 : startsWith (1 :: b!"REPLY:" ++ 32 :: v ++ [13]) (1 :: b!"MSGID:") = false := by simp [startsWith]
            unfold jamLine
            rw [if_neg (by simp), hs1, if_neg Bool.false_ne_true, hs2, if_neg Bool.false_ne_true, if_pos hs, harg 7 (by simp)]
            rfl
          · rfl
      · have hvn : NoNul v := fun e => h0 (List.mem_cons_of_mem _ e)
        have no : ∀ name ∈ [b!"PID:", b!"MSGID:", b!"REPLY:", b!"FLAGS:", b!"INTL", b!"TOPT", b!"FMPT"], startsWith (1 :: v ++ [13]) (1 :: name) = false := by
          intro name hm
          apply startsWith_false
          intro hp
          have h13' : (13 : UInt8) ∉ (1 :: name) := by
            simp only [List.mem_cons, List.not_mem_nil, or_false] at hm
            rcases hm with rfl | rfl | rfl | rfl | rfl | rfl | rfl <;> decide
          have := prefix_line h13' hp
          exact hno name hm ((List.cons_prefix_cons.1 this).2)
        have hA : ¬ AddressLine (1 :: v ++ [13]) := by
          have no' : ∀ name ∈ [b!"INTL", b!"TOPT", b!"FMPT"], ¬ (1 :: name) <+: (1 :: v ++ [13]) := by
            intro name hm hp
            have := no name (by simp only [List.mem_cons, List.not_mem_nil, or_false] at hm ⊢; rcases hm with rfl | rfl | rfl <;> simp)
            rw [(startsWith_iff _ _).2 hp] at this
            cases this
          rintro (ha | ha | ha)
          · exact no' _ (by simp) ha
          · exact no' _ (by simp) ha
          · exact no' _ (by simp) ha
        have hb : controlsBack [1 :: v ++ [13]] = [1 :: v ++ [13]] := by
          unfold controlsBack
          rw [List.filter_cons_of_pos (by rw [hctl, decide_eq_false hA]; rfl), List.filter_nil]
        have harg : kludgeArg (1 :: v ++ [13]) 1 = .ok v := by
          have := kludgeArg_of (p := [1]) (v := v) hvn hv.2.2
          exact this.trans (stripleadtrail_arg hv)
        have hj : jamLine x (1 :: v ++ [13]) = .ok (x.add 2000 v) := by
          unfold jamLine
          rw [if_neg (by simp)]
          simp only [no b!"PID:" (by simp), no b!"MSGID:" (by simp), no b!"REPLY:" (by simp), no b!"FLAGS:" (by simp), no b!"INTL" (by simp), no b!"TOPT" (by simp), no b!"FMPT" (by simp),
            Bool.false_eq_true, if_false]
          rw [if_pos (by simp), harg]
          rfl
        refine ⟨[jamField 2000 v], ?_, ?_, by simp [jamField]⟩
        · rw [hj, hctl]; simp [JamIn.add]
        · intro y
          rw [hb]
          have e : [1] ++ cstr v ++ [13] = 1 :: v ++ [13] := by rw [cstr_all v hvn]; simp
          have e2 : jamSubfield y (jamField 2000 v) = jamKludge y [1] v := rfl
          simp only [List.foldlM_cons, List.foldlM_nil, e2]
          unfold jamKludge readLine
          rw [e]
  · have hctl : isControl (t ++ [13]) = false := beq_eq_false_iff_ne.2 hh
    have no : ∀ name : Str, startsWith (t ++ [13]) (1 :: name) = false := by
      intro name
      apply startsWith_false
      rintro ⟨r, hr⟩
      apply hh
      rw [← hr]; rfl
    refine ⟨[], ?_, ?_, by simp⟩
    · unfold jamLine
      rw [if_neg (by simp)]
      simp only [no, Bool.false_eq_true, if_false]
      rw [if_neg hh, hctl]
      simp
    · intro y
      have : controlsBack [t ++ [13]] = [] := by
        unfold controlsBack
        rw [List.filter_cons_of_neg (by rw [hctl]; simp), List.filter_nil]
      rw [this]; rfl

theorem foldlM_append {α β : Type} (f : β → α → Except JErr β) : ∀ (as bs : List α) (y : β), (as ++ bs).foldlM f y = (as.foldlM f y >>= fun z => bs.foldlM f z)
  | [], bs, y => rfl
  | a :: as, bs, y => by
    simp only [List.cons_append, List.foldlM_cons]
    cases f y a with
    | error e => rfl
    | ok z => exact foldlM_append f as bs z

theorem jamLines_ok {echo : Prop} : ∀ (ls : List Str), (∀ l ∈ ls, JamLineOk echo l) → ∀ x : JamIn,
    ∃ fs, ls.foldlM (fun x l => jamLine x (l.filter (· != 10))) x = .ok { attr := x.attr, subs := x.subs ++ fs, body := x.body ++ (bodyBack ls).flatten } ∧
      (∀ y, fs.foldlM jamSubfield y = (controlsBack ls).foldlM readLine y) ∧ (∀ f ∈ fs, f.loId ≠ 3)
  | [], _, x => ⟨[], by simp [bodyBack, pure, Except.pure], fun y => rfl, by simp⟩
  | l :: ls, h, x => by
    obtain ⟨f1, h1, h2, g1⟩ := jamLine_ok (h l (by simp)) x
    obtain ⟨f2, h3, h4, g2⟩ := jamLines_ok ls (fun l hl => h l (by simp [hl])) { attr := x.attr, subs := x.subs ++ f1, body := x.body ++ (if isControl l then [] else l) }
    refine ⟨f1 ++ f2, ?_, ?_, fun f hf => (List.mem_append.1 hf).elim (g1 f) (g2 f)⟩
    · obtain ⟨t, ht, -, h10, -⟩ := (h l (by simp)).ends
      have hf : l.filter (· != 10) = l := filter_lf l (by rw [ht]; simp [h10])
      rw [List.foldlM_cons, hf, h1]
      refine h3.trans ?_
      congr 1
      cases hc : isControl l <;> simp [bodyBack, hc]
    · intro y
      rw [foldlM_append, h2]
      have e : controlsBack (l :: ls) = controlsBack [l] ++ controlsBack ls := by
        unfold controlsBack; rw [← List.filter_append]; rfl
      rw [e, foldlM_append]
      congr 1
      funext z; exact h4 z

theorem jamChunks_ok {echo : Prop} : ∀ (cs : List (List Str)), (∀ ls ∈ cs, ∀ l ∈ ls, JamLineOk echo l) → ∀ x : JamIn,
    ∃ fs, (cs.map List.flatten).foldlM jamChunk x = .ok { attr := x.attr, subs := x.subs ++ fs, body := x.body ++ (bodyBack cs.flatten).flatten } ∧
      (∀ y, fs.foldlM jamSubfield y = (controlsBack cs.flatten).foldlM readLine y) ∧ (∀ f ∈ fs, f.loId ≠ 3)
  | [], _, x => ⟨[], by simp [bodyBack, pure, Except.pure], fun y => rfl, by simp⟩
  | ls :: cs, h, x => by
    obtain ⟨f1, h1, h2, g1⟩ := jamLines_ok ls (h ls (by simp)) x
    obtain ⟨f2, h3, h4, g2⟩ := jamChunks_ok cs (fun l hl => h l (by simp [hl])) { attr := x.attr, subs := x.subs ++ f1, body := x.body ++ (bodyBack ls).flatten }
    refine ⟨f1 ++ f2, ?_, ?_, fun f hf => (List.mem_append.1 hf).elim (g1 f) (g2 f)⟩
    · have hch : jamChunk x ls.flatten = .ok { attr := x.attr, subs := x.subs ++ f1, body := x.body ++ (bodyBack ls).flatten } := by
        unfold jamChunk
        rw [if_neg, crLines_lines ls, h1]
        · intro l hl
          obtain ⟨t, ht, h13, -⟩ := (h ls (by simp) l hl).ends
          exact ⟨t, ht, h13⟩
        · rintro ⟨hlen, hlast⟩
          rcases List.eq_nil_or_concat ls with e | ⟨L, l, e⟩
          · subst e; simp [chunkLen] at hlen
          · obtain ⟨t, ht, -⟩ := (h ls (by simp) l (by rw [e]; simp)).ends
            apply hlast
            rw [e, ht]; simp
      rw [List.map_cons, List.foldlM_cons, hch]
      refine h3.trans ?_
      congr 1
      simp [bodyBack]
    · intro y
      rw [foldlM_append, h2]
      have e : controlsBack (ls :: cs).flatten = controlsBack ls ++ controlsBack cs.flatten := by
        unfold controlsBack; rw [← List.filter_append]; rfl
      rw [e, foldlM_append]
      congr 1
      funext z; exact h4 z

/-! ## Reading the control lines -/

/-- Only the fields that a control line can change. -/
def MemMsg.withText (m : MemMsg) (flags : UInt16) (msgid reply : Str) (text : List Str) : MemMsg := { m with flags, msgid, reply, text }

theorem processKludge_plain (m : MemMsg) (l : Str) (hA : ¬ AddressLine l)
    (h8 : (1 :: b!"MSGID:") <+: l ∨ (1 :: b!"REPLY:") <+: l → 8 ≤ l.length) :
    ∃ f i r, processKludge m l = .ok (m.withText f i r m.text) := by
  have hs : 8 ≤ l.length → strAt l 8 = .ok (l.drop 8) := by
    intro h; unfold strAt; rw [if_pos h]
  have n1 : startsWith l (1 :: b!"FMPT") = false := startsWith_false fun e => hA (.inr (.inr e))
  have n2 : startsWith l (1 :: b!"TOPT") = false := startsWith_false fun e => hA (.inr (.inl e))
  have n3 : startsWith l (1 :: b!"INTL") = false := startsWith_false fun e => hA (.inl e)
  have m1 : ∃ f, kRescanned m l = m.withText f m.msgid m.reply m.text := by
    unfold kRescanned; split
    · exact ⟨_, rfl⟩
    · exact ⟨m.flags, rfl⟩
  obtain ⟨f, m1⟩ := m1
  have m2 : ∃ i, kMsgid (m.withText f m.msgid m.reply m.text) l = .ok (m.withText f i m.reply m.text) := by
    unfold kMsgid; split
    · rename_i h; rw [hs (h8 (.inl ((startsWith_iff _ _).1 h)))]; exact ⟨_, rfl⟩
    · exact ⟨m.msgid, rfl⟩
  obtain ⟨i, m2⟩ := m2
  have m3 : ∃ r, kReply (m.withText f i m.reply m.text) l = .ok (m.withText f i r m.text) := by
    unfold kReply; split
    · rename_i h; rw [hs (h8 (.inr ((startsWith_iff _ _).1 h)))]; exact ⟨_, rfl⟩
    · exact ⟨m.reply, rfl⟩
  obtain ⟨r, m3⟩ := m3
  refine ⟨f, i, r, ?_⟩
  unfold processKludge
  rw [m1, m2]
  simp only [bind, Except.bind, m3, kFmpt, kTopt, kIntl, n1, n2, n3, Bool.false_eq_true, if_false]
  split <;> rfl

theorem KeptLine.facts {echo : Prop} {t : Str} (h : KeptLine echo t) :
    (∃ v, t = 1 :: v) ∧ ¬ AddressLine (t ++ [13]) ∧ t.length ≤ 200 ∧ ((1 :: b!"MSGID:") <+: t ++ [13] ∨ (1 :: b!"REPLY:") <+: t ++ [13] → 8 ≤ (t ++ [13]).length) ∧
      (echo → ¬ (1 :: b!"PATH:") <+: t ++ [13]) := by
  rcases h with ⟨name, v, hn, rfl, hv⟩ | ⟨v, rfl, hv, hno, hp⟩
  · have hl := hv.2.2
    simp only [List.mem_cons, List.not_mem_nil, or_false] at hn
    rcases hn with rfl | rfl | rfl
    all_goals
      refine ⟨⟨_, rfl⟩, by unfold AddressLine; simp, by simp; omega, ?_, by simp⟩
      simp
  · have hl := hv.2.2
    have no : ∀ name ∈ [b!"PID:", b!"MSGID:", b!"REPLY:", b!"FLAGS:", b!"INTL", b!"TOPT", b!"FMPT"], ¬ (1 :: name) <+: (1 :: v ++ [13]) := by
      intro name hm hp
      have h13' : (13 : UInt8) ∉ (1 :: name) := by
        simp only [List.mem_cons, List.not_mem_nil, or_false] at hm
        rcases hm with rfl | rfl | rfl | rfl | rfl | rfl | rfl <;> decide
      exact hno name hm ((List.cons_prefix_cons.1 (prefix_line h13' hp)).2)
    refine ⟨⟨_, rfl⟩, ?_, by simp; omega, ?_, ?_⟩
    · rintro (ha | ha | ha)
      · exact no _ (by simp) ha
      · exact no _ (by simp) ha
      · exact no _ (by simp) ha
    · rintro (ha | ha)
      · exact absurd ha (no _ (by simp))
      · exact absurd ha (no _ (by simp))
    · intro he h
      exact hp he ((List.cons_prefix_cons.1 (prefix_line (by decide) h)).2)

theorem addLineJ_control {m : MemMsg} {l : Str} (h1 : ∃ v, l = 1 :: v) (hA : ¬ AddressLine l) (hlen : l.length ≤ 201)
    (h8 : (1 :: b!"MSGID:") <+: l ∨ (1 :: b!"REPLY:") <+: l → 8 ≤ l.length) (hp : m.area ≠ [] → ¬ (1 :: b!"PATH:") <+: l) (ht : TextOK m.text) :
    ∃ f i r tx, addLineJ m l = .ok (m.withText f i r tx) ∧ TextOK tx ∧ tx.flatten = m.text.flatten ++ l := by
  obtain ⟨f, i, r, hk⟩ := processKludge_plain m l hA h8
  obtain ⟨tx, e1, e2, e3⟩ := addText_ok (m.withText f i r m.text) l ht (by unfold chunkLen; omega)
  refine ⟨f, i, r, tx, ?_, e2, e3⟩
  have hm : mmAddLine m l = .ok (some (m.withText f i r tx)) := by
    obtain ⟨v, rfl⟩ := h1
    have n1 : ¬ (m.area ≠ [] ∧ startsWith (1 :: v) b!"SEEN-BY:" = true) := by
      rintro ⟨-, h⟩
      rw [startsWith_iff] at h
      simp at h
    have n2 : ¬ (m.area ≠ [] ∧ startsWith (1 :: v) (1 :: b!"PATH:") = true) := by
      rintro ⟨h, h'⟩
      exact hp h ((startsWith_iff _ _).1 h')
    have n3 : ¬ (m.area ≠ [] ∧ startsWith (1 :: v) b!" * Origin: " = true) := by
      rintro ⟨-, h⟩
      rw [startsWith_iff] at h
      simp at h
    unfold mmAddLine
    rw [if_neg n1, if_neg n2, if_neg n3, if_pos (by rfl : (1 :: v).head? = some 1), hk]
    exact e1
  unfold addLineJ
  rw [hm]

/-- Reading lines changes nothing of the header. -/
def JamReading.withText (y : JamReading) (flags : UInt16) (msgid reply : Str) (text : List Str) : JamReading := { y with mm := y.mm.withText flags msgid reply text }

theorem readLines_control {echo : Prop} : ∀ (ls : List Str) (y : JamReading), (∀ l ∈ ls, ∃ t, l = t ++ [13] ∧ KeptLine echo t) → (y.mm.area ≠ [] → echo) → TextOK y.mm.text →
    ∃ f i r tx, ls.foldlM readLine y = .ok (y.withText f i r tx) ∧ TextOK tx ∧ tx.flatten = y.mm.text.flatten ++ ls.flatten
  | [], y, _, _, ht => ⟨y.mm.flags, y.mm.msgid, y.mm.reply, y.mm.text, rfl, ht, by simp⟩
  | l :: ls, y, h, he, ht => by
    obtain ⟨t, hl, hk⟩ := h l (by simp)
    obtain ⟨h1, h2, h3, h4, h5⟩ := hk.facts
    obtain ⟨f, i, r, tx, e1, e2, e3⟩ := addLineJ_control (m := y.mm) (l := l) (by obtain ⟨v, hv⟩ := h1; exact ⟨v ++ [13], by rw [hl, hv]; rfl⟩) (by rw [hl]; exact h2)
      (by rw [hl]; simp; omega) (by rw [hl]; exact h4) (fun ha => by rw [hl]; exact h5 (he ha)) ht
    obtain ⟨f', i', r', tx', e4, e5, e6⟩ := readLines_control ls (y.withText f i r tx) (fun l hl => h l (by simp [hl])) he e2
    refine ⟨f', i', r', tx', ?_, e5, ?_⟩
    · rw [List.foldlM_cons]
      have : readLine y l = .ok (y.withText f i r tx) := by unfold readLine; rw [e1]; rfl
      rw [this]
      exact e4
    · rw [e6]
      show tx.flatten ++ _ = _
      rw [e3]; simp

theorem controlsBack_kept {echo : Prop} {ls : List Str} (h : ∀ l ∈ ls, JamLineOk echo l) : ∀ l ∈ controlsBack ls, ∃ t, l = t ++ [13] ∧ KeptLine echo t := by
  intro l hl
  unfold controlsBack at hl
  rw [List.mem_filter] at hl
  obtain ⟨hm, hc⟩ := hl
  rw [Bool.and_eq_true] at hc
  obtain ⟨hc, ha⟩ := hc
  obtain ⟨t, ht, -⟩ := (h l hm).ends
  refine ⟨t, ht, ?_⟩
  rcases (h l hm).control (by simpa [isControl] using hc) t ht with hA | hk
  · have : AddressLine l := by
      rw [ht]
      rcases hA with hA | hA | hA
      · exact .inl (hA.trans (List.prefix_append _ _))
      · exact .inr (.inl (hA.trans (List.prefix_append _ _)))
      · exact .inr (.inr (hA.trans (List.prefix_append _ _)))
    rw [decide_eq_true this] at ha
    cases ha
  · exact hk

/-! ## SEEN-BY and PATH -/

theorem SeenLine.split {l : Str} {es : List N2} (h : SeenLine l es) : l = b!"SEEN-BY: " ++ l.drop 9 ∧ NoNul l := by
  obtain ⟨body, rfl, hsp, hne, -⟩ := h
  have hch := hsp.chars
  constructor
  · cases hsp with
    | nil => exact absurd rfl hne
    | short => simp
    | full => simp
  · have hx : ∀ x : UInt8, x = 32 ∨ x = 47 ∨ isDigit x = true → x ≠ 0 := by decide +kernel
    intro hm
    rcases List.mem_append.1 hm with hm | hm
    · revert hm; decide
    · exact hx 0 (hch 0 hm) rfl

theorem jamSeen_ok (o : JamOpt) (m : MemMsg) (hn : (visible m.seenBy).Nodup) :
    ∃ fs, jamSeenFields o m = .ok fs ∧ (m.seenBy = [] → fs = []) ∧ (∀ f ∈ fs, f.loId ≠ 3) ∧
      (∀ y : JamReading, y.mm.area ≠ [] → y.mm.seenBy = [] → ∃ r, fs.foldlM jamSubfield y = .ok { y with mm := { y.mm with seenBy := r } } ∧
        r.flatten = if o.importSeenBy then visible m.seenBy else []) := by
  by_cases ho : o.importSeenBy = true
  · obtain ⟨G, h1, h2, h3⟩ := mmMakeSeenByBuf_lines m.seenBy
    have hline : ∀ l ∈ G.map (fun p => p.1 ++ [13]), ∃ t, l = t ++ [13] ∧ 13 ∉ t := by
      intro l hl
      obtain ⟨p, hp, rfl⟩ := List.mem_map.1 hl
      obtain ⟨body, he, hsp, -⟩ := h2 p hp
      refine ⟨p.1, rfl, ?_⟩
      have hch := hsp.chars
      have hx : ∀ x : UInt8, x = 32 ∨ x = 47 ∨ isDigit x = true → x ≠ 13 := by decide +kernel
      rw [he]; intro hm
      rcases List.mem_append.1 hm with hm | hm
      · revert hm; decide
      · exact hx 13 (hch 13 hm) rfl
    have hcr : crLines (G.flatMap fun p => p.1 ++ [13]) = G.map (fun p => p.1 ++ [13]) := by
      have := crLines_lines _ hline
      rwa [← List.flatMap_def] at this
    have hfil : (G.map fun p => p.1 ++ [13]).filter (fun l => l.getLast? = some 13) = G.map fun p => p.1 ++ [13] := by
      rw [List.filter_eq_self]
      intro l hl
      obtain ⟨p, hp, rfl⟩ := List.mem_map.1 hl
      simp
    refine ⟨G.map fun p => jamField 2001 (p.1.drop 9), ?_, ?_, ?_, ?_⟩
    · unfold jamSeenFields
      rw [if_pos ho, h1]
      show Except.ok _ = _
      rw [hcr, hfil, List.map_map]
      congr 1
      apply List.map_congr_left
      intro p _
      simp
    · intro hs
      rw [hs] at h3
      cases G with
      | nil => rfl
      | cons p G =>
        obtain ⟨body, -, -, hne, -⟩ := h2 p (by simp)
        simp [visible] at h3
        exact absurd h3.1 hne
    · intro f hf
      obtain ⟨p, -, rfl⟩ := List.mem_map.1 hf
      show (2001 : UInt16) ≠ 3
      decide
    · intro y ha hsb
      have gen : ∀ (G : List (Str × List N2)) (y : JamReading), y.mm.area ≠ [] → (∀ p ∈ G, SeenLine p.1 p.2) →
          (G.map fun p => jamField 2001 (p.1.drop 9)).foldlM jamSubfield y =
            .ok { y with mm := { y.mm with seenBy := (G.flatMap (·.2)).foldl mmAddNodes2D y.mm.seenBy } } := by
        intro G
        induction G with
        | nil => intro y _ _; rfl
        | cons p G ih =>
          intro y ha hG
          have hp := hG p (by simp)
          have hl := mmAddLine_seenLine y.mm p.1 p.2 hp ha
          obtain ⟨hs, h0⟩ := hp.split
          have hn : NoNul (p.1.drop 9) := fun e => h0 (List.mem_of_mem_drop e)
          have hsub : jamSubfield y (jamField 2001 (p.1.drop 9)) = .ok { y with mm := { y.mm with seenBy := p.2.foldl mmAddNodes2D y.mm.seenBy } } := by
            have : jamSubfield y (jamField 2001 (p.1.drop 9)) = jamKludge y b!"SEEN-BY: " (p.1.drop 9) := rfl
            rw [this]
            unfold jamKludge addLineJ
            rw [cstr_all _ hn, ← hs, hl]
            rfl
          rw [List.map_cons, List.foldlM_cons, hsub]
          refine (ih { y with mm := { y.mm with seenBy := p.2.foldl mmAddNodes2D y.mm.seenBy } } ha (fun q hq => hG q (by simp [hq]))).trans ?_
          simp [List.foldl_append]
      refine ⟨(visible m.seenBy).foldl mmAddNodes2D [], ?_, ?_⟩
      · rw [gen G y ha h2, h3, hsb]
      · rw [if_pos ho, foldl_add_nodup _ _ (by simpa using hn)]; simp
  · refine ⟨[], ?_, fun _ => rfl, by simp, ?_⟩
    · unfold jamSeenFields
      rw [if_neg ho]
    · intro y _ hs
      refine ⟨[], ?_, ?_⟩
      · rw [← hs]; rfl
      · rw [if_neg ho]; rfl

theorem jamPath_ok : ∀ (ps : List Str) (y : JamReading), y.mm.area ≠ [] → (∀ p ∈ ps, PathLineOk p) →
    ∃ q, (ps.map (jamField 2002)).foldlM jamSubfield y = .ok { y with mm := { y.mm with path := q } } ∧ q.flatten = y.mm.path.flatten ++ ps
  | [], y, _, _ => ⟨y.mm.path, rfl, by simp⟩
  | p :: ps, y, ha, h => by
    obtain ⟨h0, ⟨c, hc, hb, hb'⟩, hl⟩ := h p (by simp)
    have hst : striptrail (mystrncpy (p ++ [13]) 100) = .ok p := by
      rw [striptrail_iff]
      refine ⟨[13], ?_, by decide, c, hc, below33_of hb hb'⟩
      unfold mystrncpy
      rw [List.take_of_length_le]
      simp; omega
    have hsub : jamSubfield y (jamField 2002 p) = .ok { y with mm := { y.mm with path := pathPush y.mm.path p } } := by
      have e : jamSubfield y (jamField 2002 p) = jamKludge y (1 :: b!"PATH: ") p := rfl
      have hm : mmAddLine y.mm (1 :: b!"PATH: " ++ p ++ [13]) = .ok (some { y.mm with path := pathPush y.mm.path p }) := by
        have s1 : startsWith (1 :: b!"PATH: " ++ p ++ [13]) b!"SEEN-BY:" = false := by simp [startsWith]
        have s2 : startsWith (1 :: b!"PATH: " ++ p ++ [13]) (1 :: b!"PATH:") = true := by simp [startsWith]
        have s3 : strAt (1 :: b!"PATH: " ++ p ++ [13]) 7 = .ok (p ++ [13]) := by simp [strAt]
        unfold mmAddLine
        rw [if_neg (by rw [s1]; simp), if_pos ⟨ha, s2⟩, s3]
        simp only [bind, Except.bind, mmAddPath]
        rw [if_neg (by simp), hst]
      rw [e]
      unfold jamKludge addLineJ
      rw [cstr_all _ h0, hm]
      rfl
    obtain ⟨q, h1, h2⟩ := jamPath_ok ps { y with mm := { y.mm with path := pathPush y.mm.path p } } ha fun p hp => h p (by simp [hp])
    refine ⟨q, ?_, ?_⟩
    · rw [List.map_cons, List.foldlM_cons, hsub]
      exact h1
    · rw [h2]
      show (pathPush y.mm.path p).flatten ++ ps = _
      rw [pathPush_flatten]; simp

end CM
