import Verif.Lemmas.MsgMaint
import Verif.Lemmas.Play
import Verif.Props.JamMaint
import Verif.Props.MsgExport
/-! # Maintenance of message areas in the *.msg format -/

set_option linter.unusedSimpArgs false

namespace CM

/-- What is known about the messages that were found. -/
structure FoundMsgs (fs : FS) (dir : Str) (l : List MMsg) : Prop where
  sorted : (l.map (·.num.toNat)).Pairwise (· < ·)
  two : ∀ m ∈ l, 2 ≤ m.num.toNat
  there : ∀ m ∈ l, fs (msgFile dir m.num.toNat) ≠ none
  all : ∀ n, 2 ≤ n → n < 2 ^ 32 → (∀ m ∈ l, m.num.toNat ≠ n) → fs (msgFile dir n) = none

theorem cmpMsg_le (a b : MMsg) : cmpMsg a b ≤ 0 ↔ a.num.toNat ≤ b.num.toNat := by
  unfold cmpMsg
  simp only [GT.gt, UInt32.lt_iff_toNat_lt]
  split
  · omega
  · split <;> omega

/-- A listed file that counts. -/
theorem entry_name {fs : FS} {dir : Str} {es : List FileEntry} (hl : DirList fs dir isMsgName es) (hp : ProperNames fs dir) {e : FileEntry} (he : e ∈ es)
    (h2 : 2 ≤ atol e.name) : ∃ n, 2 ≤ n ∧ n < 2 ^ 32 ∧ e.name = dec n ++ b!".msg" ∧ atol e.name = n ∧ fs (makeFullPath dir e.name 200) ≠ none := by
  obtain ⟨f, d, e1, e2, e3, e4, e5, -⟩ := hl.1 e he
  obtain ⟨n, hn, ef⟩ := hp f e2 e4 (by rw [e5]; simp) (.inr (by rw [← e1]; exact h2))
  have hlen := dec_length_le (n := n) (k := 10) (by omega) (by omega)
  have en : e.name = f := by
    rw [e1, List.take_of_length_le]
    rw [ef, List.length_append]
    show _ + 4 ≤ _
    omega
  have ha : atol e.name = n := by
    rw [en, ef, atol_of_atoi (by rw [atoi_msgName]; omega) (by rw [atoi_msgName]; omega), atoi_msgName]
  exact ⟨n, by omega, hn, by rw [en, ef], ha, by rw [en, e5]; simp⟩

theorem scan_iff {fs : FS} {dir : Str} {es : List FileEntry} (hl : DirList fs dir isMsgName es) (hp : ProperNames fs dir) {e : FileEntry} (he : e ∈ es) (m : MMsg) :
    scanMsg e = some m ↔ e.name = dec m.num.toNat ++ b!".msg" ∧ 2 ≤ m.num.toNat ∧ dayNr e.date = m.day.toNat := by
  constructor
  · intro h
    unfold scanMsg at h
    split at h
    · cases h
    · next hh =>
      obtain ⟨n, h2, h3, h4, h5, -⟩ := entry_name hl hp he (by omega)
      injection h with h
      subst h
      have : (UInt32.ofInt (atol e.name)).toNat = n := by
        have := u32_ofInt (v := atol e.name) (by omega) (by omega)
        omega
      refine ⟨?_, ?_, rfl⟩
      · show e.name = dec (UInt32.ofInt (atol e.name)).toNat ++ _
        rw [this]; exact h4
      · show 2 ≤ (UInt32.ofInt (atol e.name)).toNat
        omega
  · intro ⟨h1, h2, h3⟩
    have ha : atol e.name = m.num.toNat := by
      have := m.num.toNat_lt
      rw [h1, atol_of_atoi (by rw [atoi_msgName]; omega) (by rw [atoi_msgName]; omega), atoi_msgName]
    unfold scanMsg
    rw [if_neg (by omega)]
    congr 1
    have e1 : UInt32.ofInt (atol e.name) = m.num := by
      have := m.num.toNat_lt
      have := u32_ofInt (v := atol e.name) (by omega) (by omega)
      exact UInt32.toNat_inj.1 (by omega)
    have e2 : UInt32.ofInt (e.date.tdiv 86400) = m.day := UInt32.toNat_inj.1 h3
    rw [e1, e2]

theorem Messages.unique {es : List FileEntry} {ms ms' : List (Nat × Nat)} (h : Messages es ms) (h' : Messages es ms') : ms = ms' := by
  refine List.Perm.eq_of_pairwise (le := fun a b => a.1 < b.1) (fun a b _ _ h1 h2 => absurd (Nat.lt_trans h1 h2) (Nat.lt_irrefl _)) h.sorted h'.sorted ?_
  rw [List.perm_ext_iff_of_nodup (h.sorted.imp (fun h e => by rw [e] at h; exact Nat.lt_irrefl _ h)) (h'.sorted.imp (fun h e => by rw [e] at h; exact Nat.lt_irrefl _ h))]
  intro ⟨n, d⟩
  rw [h.all, h'.all]

/-- The messages that were found are those of the listing. -/
theorem scan_found {fs : FS} {dir : Str} (hd : DirName dir) {es : List FileEntry} (hl : DirList fs dir isMsgName es) (hp : ProperNames fs dir) :
    FoundMsgs fs dir (isort cmpMsg (es.filterMap scanMsg)) ∧ Messages es ((isort cmpMsg (es.filterMap scanMsg)).map (fun m => (m.num.toNat, m.day.toNat))) := by
  have mem : ∀ m, m ∈ isort cmpMsg (es.filterMap scanMsg) ↔ ∃ e ∈ es, e.name = dec m.num.toNat ++ b!".msg" ∧ 2 ≤ m.num.toNat ∧ dayNr e.date = m.day.toNat := fun m => by
    rw [(isort_perm _ _).mem_iff, List.mem_filterMap]
    exact ⟨fun ⟨e, he, h⟩ => ⟨e, he, (scan_iff hl hp he m).1 h⟩, fun ⟨e, he, h⟩ => ⟨e, he, (scan_iff hl hp he m).2 h⟩⟩
  have nd : (isort cmpMsg (es.filterMap scanMsg)).Pairwise (fun a b => a.num ≠ b.num) := by
    refine (isort_perm cmpMsg (es.filterMap scanMsg)).symm.pairwise ?_ (fun h => h.symm)
    rw [List.pairwise_filterMap]
    have := hl.2.2
    refine (List.Pairwise.and_mem.1 this).imp (fun {a b} ⟨ha, hb, hab⟩ x hx y hy e => ?_)
    obtain ⟨p1, -, -⟩ := (scan_iff hl hp ha x).1 hx
    obtain ⟨q1, -, -⟩ := (scan_iff hl hp hb y).1 hy
    have := x.num.toNat_lt
    have hlen := dec_length_le (n := x.num.toNat) (k := 10) (by omega) (by omega)
    refine hab ?_ (by rw [p1, q1, e])
    rw [p1, List.length_append]
    show _ + 4 < _
    omega
  have srt : (isort cmpMsg (es.filterMap scanMsg)).Pairwise (fun a b => a.num.toNat < b.num.toNat) := by
    have := isort_sorted cmpMsg (fun a b => by rw [cmpMsg_le, cmpMsg_le]; omega) (fun a b c => by rw [cmpMsg_le, cmpMsg_le, cmpMsg_le]; omega) (es.filterMap scanMsg)
    refine (this.and nd).imp (fun {a b} ⟨h1, h2⟩ => ?_)
    rw [cmpMsg_le] at h1
    have : a.num.toNat ≠ b.num.toNat := fun h => h2 (UInt32.toNat_inj.1 h)
    omega
  refine ⟨⟨List.pairwise_map.2 srt, fun m h => ((mem m).1 h).elim fun e h => h.2.2.1, fun m h => ?_, fun n h2 hn hno => ?_⟩, ?_⟩
  · obtain ⟨e, he, h1, h2, -⟩ := (mem m).1 h
    have := m.num.toNat_lt
    obtain ⟨n, -, hn, e1, e2, e3⟩ := entry_name hl hp he (by
      rw [h1, atol_of_atoi (by rw [atoi_msgName]; omega) (by rw [atoi_msgName]; omega), atoi_msgName]; omega)
    rw [msgFile_fits hd _ m.num.toNat_lt, ← h1]
    exact e3
  · apply Classical.byContradiction
    intro hh
    rw [msgFile_fits hd n hn] at hh
    obtain ⟨e, he, e1⟩ := hl.2.1 (dec n ++ b!".msg") (no_slash_dec n) (by simp) (isMsgName_dec n) hh
    have hlen := dec_length_le (n := n) (k := 10) (by omega) (by omega)
    rw [List.take_of_length_le (by rw [List.length_append]; show _ + 4 ≤ _; omega)] at e1
    have en : (UInt32.ofNat n).toNat = n := by rw [UInt32.toNat_ofNat']; omega
    refine hno ⟨UInt32.ofNat n, UInt32.ofInt (e.date.tdiv 86400)⟩ ((mem _).2 ⟨e, he, ?_, ?_, rfl⟩) ?_
    · show e.name = dec (UInt32.ofNat n).toNat ++ _
      rw [en]; exact e1
    · show 2 ≤ (UInt32.ofNat n).toNat
      omega
    · exact en
  · refine ⟨List.pairwise_map.2 srt, fun n d => ?_⟩
    rw [List.mem_map]
    constructor
    · rintro ⟨m, hm', e⟩
      cases e
      exact (mem m).1 hm'
    · rintro ⟨e, he, h1, h2, h3⟩
      obtain ⟨n', -, hn', e1, e2, -⟩ := entry_name hl hp he (by
        rw [h1]; unfold atol; rw [atoi_msgName]; omega)
      have : n = n' := by
        have a := atoi_msgName n
        have b := atoi_msgName n'
        rw [← h1, e1, b] at a
        exact (Int.ofNat.inj a).symm
      subst this
      have en : (UInt32.ofNat n).toNat = n := by rw [UInt32.toNat_ofNat']; omega
      refine ⟨⟨UInt32.ofNat n, UInt32.ofInt (e.date.tdiv 86400)⟩, (mem _).2 ⟨e, he, ?_, ?_, rfl⟩, ?_⟩
      · show e.name = dec (UInt32.ofNat n).toNat ++ _
        rw [en]; exact h1
      · show 2 ≤ (UInt32.ofNat n).toNat
        omega
      · show ((UInt32.ofNat n).toNat, dayNr e.date) = (n, d)
        rw [en, h3]

/-- The messages that are deleted by number, and those that are left. -/
def numDel (o : JamMaintOpt) (l : List MMsg) : List MMsg := if o.maint = true ∧ o.keepNum ≠ 0 then l.take (l.length - o.keepNum.toNat) else []
def numLeft (o : JamMaintOpt) (l : List MMsg) : List MMsg := if o.maint = true ∧ o.keepNum ≠ 0 then l.drop (l.length - o.keepNum.toNat) else l
def dayDel (o : JamMaintOpt) (today : UInt32) (l : List MMsg) : List MMsg := if o.maint = true ∧ o.keepDays ≠ 0 then l.filter (fun m => decide (today - m.day > o.keepDays)) else []
def dayLeft (o : JamMaintOpt) (today : UInt32) (l : List MMsg) : List MMsg := if o.maint = true ∧ o.keepDays ≠ 0 then l.filter (fun m => !decide (today - m.day > o.keepDays)) else l

/-- The messages that are left, and the numbers of those that are not. -/
def leftMsgs (o : JamMaintOpt) (today : UInt32) (l : List MMsg) : List MMsg := dayLeft o today (numLeft o l)
def goneNums (o : JamMaintOpt) (today : UInt32) (l : List MMsg) : List UInt32 := (numDel o l).map (·.num) ++ (dayDel o today (numLeft o l)).map (·.num)

theorem day_tooOld (today keep d : UInt32) : decide (today - d > keep) = tooOld today keep d.toNat := by
  unfold tooOld
  rw [decide_eq_decide, GT.gt, UInt32.lt_iff_toNat_lt, UInt32.toNat_sub]
  have := today.toNat_lt
  have := d.toNat_lt
  rw [show (2 ^ 32 - d.toNat + today.toNat) = today.toNat + 2 ^ 32 - d.toNat by omega]

theorem left_surviving (o : JamMaintOpt) (today : UInt32) (l : List MMsg) :
    (leftMsgs o today l).map (fun m => (m.num.toNat, m.day.toNat)) = surviving o (tooOld today o.keepDays) (l.map (fun m => (m.num.toNat, m.day.toNat))) := by
  have a : (numLeft o l).map (fun m => (m.num.toNat, m.day.toNat)) = if o.maint = true ∧ o.keepNum ≠ 0 then newest o.keepNum.toNat (l.map (fun m => (m.num.toNat, m.day.toNat)))
      else l.map (fun m => (m.num.toNat, m.day.toNat)) := by
    unfold numLeft newest
    split
    · rw [List.length_map, List.map_drop]
    · rfl
  unfold leftMsgs dayLeft surviving
  simp only [← a]
  split
  · rw [List.filter_map]
    congr 1
    simp only [Function.comp_def, day_tooOld]
  · rfl

theorem left_or_gone (o : JamMaintOpt) (today : UInt32) {l : List MMsg} {m : MMsg} (h : m ∈ l) : m ∈ leftMsgs o today l ∨ m.num ∈ goneNums o today l := by
  have h1 : m ∈ numDel o l ∨ m ∈ numLeft o l := by
    unfold numDel numLeft
    split
    · rw [← List.take_append_drop (l.length - o.keepNum.toNat) l] at h
      exact List.mem_append.1 h
    · exact .inr h
  rcases h1 with h1 | h1
  · exact .inr (List.mem_append_left _ (List.mem_map.2 ⟨m, h1, rfl⟩))
  · have h2 : m ∈ dayDel o today (numLeft o l) ∨ m ∈ leftMsgs o today l := by
      unfold dayDel leftMsgs dayLeft
      split
      · simp only [List.mem_filter, h1, true_and]
        cases decide (today - m.day > o.keepDays) <;> simp
      · exact .inr h1
    rcases h2 with h2 | h2
    · exact .inr (List.mem_append_right _ (List.mem_map.2 ⟨m, h2, rfl⟩))
    · exact .inl h2

theorem left_sub (o : JamMaintOpt) (today : UInt32) (l : List MMsg) : (leftMsgs o today l).Sublist l ∧ (leftMsgs o today l).Sublist (numLeft o l) ∧ (numLeft o l).Sublist l := by
  have a : (leftMsgs o today l).Sublist (numLeft o l) := by
    unfold leftMsgs dayLeft
    split
    · exact List.filter_sublist
    · exact List.Sublist.refl _
  have b : (numLeft o l).Sublist l := by
    unfold numLeft
    split
    · exact List.drop_sublist _ _
    · exact List.Sublist.refl _
  exact ⟨a.trans b, a, b⟩

theorem gone_mem (o : JamMaintOpt) (today : UInt32) {l : List MMsg} {n : UInt32} (h : n ∈ goneNums o today l) : ∃ m ∈ l, m.num = n := by
  rcases List.mem_append.1 h with h | h
  · obtain ⟨m, hm, e⟩ := List.mem_map.1 h
    refine ⟨m, ?_, e⟩
    unfold numDel at hm
    split at hm
    · exact List.mem_of_mem_take hm
    · cases hm
  · obtain ⟨m, hm, e⟩ := List.mem_map.1 h
    refine ⟨m, ?_, e⟩
    unfold dayDel at hm
    split at hm
    · exact (left_sub o today l).2.2.subset (List.mem_filter.1 hm).1
    · cases hm

theorem gone_not_left (o : JamMaintOpt) (today : UInt32) {l : List MMsg} (hs : (l.map (·.num.toNat)).Pairwise (· < ·)) {n : UInt32} (h : n ∈ goneNums o today l) {m : MMsg}
    (hm : m ∈ leftMsgs o today l) : m.num ≠ n := by
  intro e
  rw [List.pairwise_map] at hs
  rcases List.mem_append.1 h with h | h
  · obtain ⟨m', h', e'⟩ := List.mem_map.1 h
    have hm1 := (left_sub o today l).2.1.subset hm
    unfold numDel at h'
    unfold numLeft at hm1
    split at h'
    · rw [if_pos ‹_›] at hm1
      rw [← List.take_append_drop (l.length - o.keepNum.toNat) l] at hs
      have := (List.pairwise_append.1 hs).2.2 m' h' m hm1
      rw [e, e'] at this
      exact Nat.lt_irrefl _ this
    · cases h'
  · obtain ⟨m', h', e'⟩ := List.mem_map.1 h
    unfold dayDel at h'
    unfold leftMsgs dayLeft at hm
    split at h'
    · rw [if_pos ‹_›] at hm
      obtain ⟨a1, a2⟩ := List.mem_filter.1 hm
      obtain ⟨b1, b2⟩ := List.mem_filter.1 h'
      have : m = m' := by
        have hs' := hs.sublist (left_sub o today l).2.2
        obtain ⟨i, hi, ei⟩ := List.getElem_of_mem a1
        obtain ⟨j, hj, ej⟩ := List.getElem_of_mem b1
        have en : m.num.toNat = m'.num.toNat := by rw [e, e']
        rcases Nat.lt_trichotomy i j with hij | hij | hij
        · have := List.pairwise_iff_getElem.1 hs' i j hi hj hij
          rw [ei, ej] at this; omega
        · subst hij; rw [← ei, ← ej]
        · have := List.pairwise_iff_getElem.1 hs' j i hj hi hij
          rw [ei, ej] at this; omega
      rw [this, b2] at a2
      cases a2
    · cases h'

/-- The mark that is read. -/
structure MarkRead (w : World) (fs : FS) (dir : Str) (x : UInt32 × Data) : Prop where
  data : x.1 ≠ 0 → x.2.length = 190
  small : x.1.toNat < 2 ^ 16
  mark : ¬ w.openFails → highWater { highwater := true } fs dir x.1.toNat

theorem maintMark_through (w : World) {I : FS → Prop} {dir : Str} (hd : DirName dir) {fs : FS} (h0 : I fs) :
    Through w I (fun x fs' => fs' = fs ∧ MarkRead w fs dir x) (maintMark dir) fs := by
  unfold maintMark readFile
  rw [hwFile_eq hd]
  simp only [Prog.bind_eq, Prog.bind, Prog.pure_eq]
  refine .read h0 (fun d hdd => ?_) (fun hh => ?_)
  · dsimp only
    split
    · next hl =>
      refine .ret h0 ⟨rfl, fun h => absurd rfl h, by decide, fun _ => ?_⟩
      unfold highWater
      rw [if_neg (fun ⟨_, f, e, hf⟩ => by rw [hdd] at e; cases e; omega)]; rfl
    · next hl =>
      refine .ret h0 ⟨rfl, fun _ => ?_, ?_, fun _ => ?_⟩
      · show (d.take 190).length = 190
        rw [List.length_take]; omega
      · show (wordAt d 184).toUInt32.toNat < _
        rw [UInt16.toNat_toUInt32]; exact (wordAt d 184).toNat_lt
      · unfold highWater
        rw [if_pos ⟨rfl, d, hdd, by omega⟩]
        obtain ⟨x, hx⟩ := byteAt (f := d) (k := 184) (by omega)
        obtain ⟨y, hy⟩ := byteAt (f := d) (k := 185) (by omega)
        refine ⟨d, x, y, hdd, hx, hy, ?_⟩
        show (wordAt d 184).toUInt32.toNat = _
        rw [wordAt_of hx hy]; exact u16_of_bytes x y
  · refine .ret h0 ⟨rfl, fun h => absurd rfl h, by decide, fun hw => ?_⟩
    rcases hh with hh | hh
    · unfold highWater
      rw [if_neg (fun ⟨_, f, e, hf⟩ => by rw [hh] at e; cases e)]; rfl
    · exact absurd hh hw

theorem unlessCtrlC_through {w : World} {α : Type} {I : FS → Prop} {Q : α → FS → Prop} {p : Prog (Option α)} {fs : FS}
    (h : Through w I (fun r fs' => ∀ x, r = some x → Q x fs') p fs) : Through w I (fun r fs' => ∀ x, r = some x → Q x fs') (unlessCtrlC p) fs := by
  unfold unlessCtrlC
  simp only [Prog.bind_eq, pollCtrlC, Prog.bind, Prog.pure_eq]
  refine h.bind (fun r gs hi hq => ?_)
  cases r with
  | none => exact .ret hi (fun x hx => by cases hx)
  | some x =>
    refine .sleep hi (fun b => ?_)
    cases b with
    | true => exact .ret hi (fun x hx => by cases hx)
    | false => exact .ret hi (fun y hy => by cases hy; exact hq x rfl)

theorem live_all {l : List MMsg} (h : ∀ m ∈ l, 2 ≤ m.num.toNat) : liveMsgs l = l := by
  rw [liveMsgs, List.filter_eq_self]
  intro m hm
  have := h m hm
  simp only [bne_iff_ne, ne_eq]
  intro e
  rw [e] at this
  exact absurd this (by decide)

theorem maintByNum_through (w : World) {I : FS → Prop} (o : JamMaintOpt) {dir : Str} (hd : DirName dir) {l : List MMsg} {hw : UInt32} {fs : FS} (h2 : ∀ m ∈ l, 2 ≤ m.num.toNat)
    (hlen : l.length < 2 ^ 32) (hI : ∀ fs', (∀ f, (∀ n ∈ (numDel o l).map (·.num), f ≠ msgFile dir n.toNat) → fs' f = fs f) → I fs') :
    Through w I (fun r fs' => ∀ x, r = some x → liveMsgs x.1 = numLeft o l ∧ x.2 = dropAll hw ((numDel o l).map (·.num)) ∧ Less w dir fs ((numDel o l).map (·.num)) fs')
      (maintByNum o dir l hw) fs := by
  unfold maintByNum
  by_cases hc : o.maint = true ∧ o.keepNum ≠ 0
  · rw [if_pos (by simpa using hc)]
    unfold numDel numLeft at *
    rw [if_pos hc] at hI
    rw [if_pos hc, if_pos hc]
    refine unlessCtrlC_through (delByNum_through w hd o.keepNum l _ hw fs (fun m hm e => ?_) ?_ (fun fs' h => hI fs' ?_))
    · have := h2 m hm
      rw [e] at this
      exact absurd this (by decide)
    · rw [UInt32.toNat_ofNat']; omega
    · rcases h with h | h
      · exact h.keep
      · exact h
  · rw [if_neg (by simpa using hc)]
    unfold numDel numLeft at *
    rw [if_neg hc] at hI
    rw [if_neg hc, if_neg hc]
    refine .ret (hI _ fun _ _ => rfl) (fun x hx => ?_)
    cases hx
    exact ⟨live_all h2, by simp [dropAll], .nil⟩

theorem maintByDay_through (w : World) {I : FS → Prop} (o : JamMaintOpt) (today : UInt32) {dir : Str} (hd : DirName dir) {l : List MMsg} {hw : UInt32} {fs : FS}
    (hI : ∀ fs', (∀ f, (∀ n ∈ (dayDel o today (liveMsgs l)).map (·.num), f ≠ msgFile dir n.toNat) → fs' f = fs f) → I fs') :
    Through w I (fun r fs' => ∀ x, r = some x → liveMsgs x.1 = dayLeft o today (liveMsgs l) ∧ x.2 = dropAll hw ((dayDel o today (liveMsgs l)).map (·.num)) ∧
      Less w dir fs ((dayDel o today (liveMsgs l)).map (·.num)) fs') (maintByDay o today dir l hw) fs := by
  unfold maintByDay
  by_cases hc : o.maint = true ∧ o.keepDays ≠ 0
  · rw [if_pos (by simpa using hc)]
    unfold dayDel dayLeft at *
    rw [if_pos hc] at hI
    rw [if_pos hc, if_pos hc]
    exact unlessCtrlC_through (delByDay_through w hd today o.keepDays l hw fs hI)
  · rw [if_neg (by simpa using hc)]
    unfold dayDel dayLeft at *
    rw [if_neg hc] at hI
    rw [if_neg hc, if_neg hc]
    refine .ret (hI _ fun _ _ => rfl) (fun x hx => ?_)
    cases hx
    exact ⟨rfl, by simp [dropAll], .nil⟩

/-- The file with the mark. -/
theorem markData_ok {d : Data} (hd : d.length = 190) {date : Str} (hdate : date.length < 20) {hw : UInt32} (hs : hw.toNat < 2 ^ 16) :
    ∃ x, markData d date hw = .ok x ∧ 190 ≤ x.length ∧ ∃ a b, x[184]? = some a ∧ x[185]? = some b ∧ hw.toNat = a.toNat + 256 * b.toNat := by
  have ov : ∀ (d s : Data) (k : Nat), k + s.length ≤ d.length → (overlay d k s).length = d.length := fun d s k h => by
    unfold overlay
    simp only [List.length_append, List.length_take, List.length_drop]; omega
  unfold markData
  rw [if_pos hdate]
  have l1 := ov d (b!"CrashMail II" ++ [0]) 0 (by rw [hd]; decide)
  have l2 := ov _ (b!"All" ++ [0]) 36 (by rw [l1, hd]; decide)
  have l3 := ov _ (b!"HighWater mark" ++ [0]) 72 (by rw [l2, l1, hd]; decide)
  have l4 := ov _ (date ++ [0]) 144 (by rw [l3, l2, l1, hd, List.length_append]; show 144 + (_ + 1) ≤ _; omega)
  rw [l3, l2, l1, hd] at l4
  refine ⟨_, rfl, ?_⟩
  generalize overlay (overlay (overlay (overlay d 0 _) 36 _) 72 _) 144 _ = e at l4 ⊢
  have hw' : hw.toUInt16.toNat = hw.toNat := by
    rw [UInt32.toNat_toUInt16]; omega
  refine ⟨?_, UInt8.ofNat (hw.toNat % 256), UInt8.ofNat (hw.toNat / 256), ?_, ?_, ?_⟩
  · rw [List.length_append, ov _ _ _ (by rw [l4]; simp [le16]), l4]; decide
  · rw [List.getElem?_append_left (by rw [ov _ _ _ (by rw [l4]; simp [le16]), l4]; decide)]
    unfold overlay
    rw [List.getElem?_append_left (by simp [l4]), List.getElem?_append_right (by simp [l4])]
    rw [show 184 - (e.take 164).length = 20 by rw [List.length_take, l4]; rfl]
    simp [le16, hw']
  · rw [List.getElem?_append_left (by rw [ov _ _ _ (by rw [l4]; simp [le16]), l4]; decide)]
    unfold overlay
    rw [List.getElem?_append_left (by simp [l4]), List.getElem?_append_right (by simp [l4])]
    rw [show 185 - (e.take 164).length = 21 by rw [List.length_take, l4]; rfl]
    simp [le16, hw']
  · rw [UInt8.toNat_ofNat', UInt8.toNat_ofNat']; omega

theorem highWater_unique {fs : FS} {dir : Str} {a b : Nat} (h1 : highWater { highwater := true } fs dir a) (h2 : highWater { highwater := true } fs dir b) : a = b := by
  unfold highWater at h1 h2
  split at h1
  · rw [if_pos ‹_›] at h2
    obtain ⟨f, x, y, e1, e2, e3, e4⟩ := h1
    obtain ⟨f', x', y', e1', e2', e3', e4'⟩ := h2
    rw [e1] at e1'; cases e1'
    rw [e2] at e2'; cases e2'
    rw [e3] at e3'; cases e3'
    omega
  · rw [if_neg ‹_›] at h2
    omega

theorem msgMaintRun_through (w : World) (hr : ¬ w.renameFails) (o : JamMaintOpt) (today : UInt32) {date : Str} (hdate : date.length < 20) {dir : Str} (hd : DirName dir) {fs : FS} {l : List MMsg}
    (hf : FoundMsgs fs dir l) :
    Through w (fun fs' => MaintNow dir o.pack fs fs' ((leftMsgs o today l).map (·.num.toNat)))
      (fun r fs' => r = true → MaintDone w dir o.pack fs fs' (l.map (·.num.toNat)) ((leftMsgs o today l).map (·.num.toNat)))
      (msgMaintRun o today date dir l) fs := by
  -- numbers
  have inj : ∀ {a b : Nat}, a ≠ b → msgFile dir a ≠ msgFile dir b := fun hab e => hab (msgFile_inj e)
  have hlen : l.length + 1 < 2 ^ 32 := by
    rcases Nat.eq_zero_or_pos l.length with h | h
    · omega
    · have hi : (l.map (·.num.toNat))[l.length - 1]? = some (l[l.length - 1]'(by omega)).num.toNat := by
        rw [List.getElem?_map, List.getElem?_eq_getElem (by omega)]; rfl
      have := sorted_ge hf.sorted (fun n hn => by obtain ⟨m, hm, e⟩ := List.mem_map.1 hn; rw [← e]; exact hf.two m hm) hi
      have := (l[l.length - 1]'(by omega)).num.toNat_lt
      omega
  have lsub := (left_sub o today l).1
  have ls : ((leftMsgs o today l).map (·.num.toNat)).Pairwise (· < ·) := hf.sorted.sublist (lsub.map _)
  have l2 : ∀ n ∈ (leftMsgs o today l).map (·.num.toNat), 2 ≤ n := fun n hn => by
    obtain ⟨m, hm, e⟩ := List.mem_map.1 hn
    rw [← e]; exact hf.two m (lsub.subset hm)
  have gone_ne : ∀ n ∈ goneNums o today l, ∀ k ∈ (leftMsgs o today l).map (·.num.toNat), k ≠ n.toNat := fun n hn k hk e => by
    obtain ⟨m, hm, e'⟩ := List.mem_map.1 hk
    exact gone_not_left o today hf.sorted hn hm (UInt32.toNat_inj.1 (e'.trans e))
  have gone_lo : ∀ n ∈ goneNums o today l, 2 ≤ n.toNat := fun n hn => by
    obtain ⟨m, hm, e⟩ := gone_mem o today hn
    rw [← e]; exact hf.two m hm
  -- while messages are being deleted
  have now0 : ∀ fs', (∀ f, (∀ n ∈ goneNums o today l, f ≠ msgFile dir n.toNat) → fs' f = fs f) → MaintNow dir o.pack fs fs' ((leftMsgs o today l).map (·.num.toNat)) := fun fs' h => by
    refine ⟨⟨0, fun _ => rfl, ⟨fun _ _ hh => by omega, fun i n _ hi => h _ (fun k hk => inj (gone_ne k hk n (List.mem_of_getElem? hi)))⟩⟩, fun f hh => h f (fun k hk => ?_)⟩
    have := gone_lo k hk
    exact hh k.toNat (by omega) k.toNat_lt
  have h0 := now0 fs (fun _ _ => rfl)
  unfold msgMaintRun
  simp only [Prog.bind_eq, Prog.pure_eq]
  refine (maintMark_through w hd h0).bind (fun x f0 _ hx => ?_)
  obtain ⟨e0, hmk⟩ := hx
  subst f0
  obtain ⟨hw0, d⟩ := x
  dsimp only
  refine (maintByNum_through w o hd hf.two (by omega) (fun fs' h => now0 fs' (fun f hh => h f (fun n hn => hh n (List.mem_append_left _ hn))))).bind (fun r f1 i1 q1 => ?_)
  cases r with
  | none => exact .ret i1 (fun h => by cases h)
  | some x =>
    obtain ⟨la, hw1⟩ := x
    obtain ⟨a1, a2, a3⟩ := q1 _ rfl
    dsimp only at a1 a2 ⊢
    refine (maintByDay_through w o today hd (l := la) (fun fs' h => now0 fs' (fun f hh => ?_))).bind (fun r f2 i2 q2 => ?_)
    · rw [h f (fun n hn => hh n (List.mem_append_right _ (by rw [← a1]; exact hn))), a3.keep f (fun n hn => hh n (List.mem_append_left _ hn))]
    · cases r with
      | none => exact .ret i2 (fun h => by cases h)
      | some x =>
        obtain ⟨lb, hw2⟩ := x
        obtain ⟨b1, b2, b3⟩ := q2 _ rfl
        rw [a1] at b1 b2 b3
        dsimp only at b1 b2 ⊢
        have hl : Less w dir fs (goneNums o today l) f2 := a3.trans b3
        have z : ∀ t, (t : List MMsg).Sublist l → (0 : UInt32) ∉ t.map (·.num) := fun t ht hh => by
          obtain ⟨m, hm, e⟩ := List.mem_map.1 hh
          have := hf.two m (ht.subset hm)
          rw [e] at this; exact absurd this (by decide)
        have hwd : hw2 = dropAll hw0 (goneNums o today l) := by
          rw [b2, a2]
          refine dropAll_append (z _ ?_)
          unfold dayDel
          split
          · exact List.filter_sublist.trans (left_sub o today l).2.2
          · exact List.nil_sublist _
        -- the renumbering
        have g2 : ∀ n ∈ (leftMsgs o today l).map (·.num.toNat), f2 (msgFile dir n) = fs (msgFile dir n) := fun n hn =>
          hl.keep _ (fun k hk => inj (gone_ne k hk n hn))
        have en : ((leftMsgs o today l).map (·.num)).map (·.toNat) = (leftMsgs o today l).map (·.num.toNat) := by
          rw [List.map_map]; rfl
        have now1 : ∀ j f, j ≤ (leftMsgs o today l).length → Moving2 dir f2 f ((leftMsgs o today l).map (·.num.toNat)) j → (o.pack = false → j = 0) →
            MaintNow dir o.pack fs f ((leftMsgs o today l).map (·.num.toNat)) := fun j f hj hM hp => by
          refine ⟨⟨j, hp, ⟨fun i n hi hn => ?_, fun i n hi hn => ?_⟩⟩, fun g hg => ?_⟩
          · rw [hM.new i n hi hn, g2 n (List.mem_of_getElem? hn)]
          · rw [hM.old i n hi hn, g2 n (List.mem_of_getElem? hn)]
          · rw [hM.rest g (fun i hi => ?_) (fun i n hi hn => ?_)]
            · refine hl.keep g (fun k hk => ?_)
              have := gone_lo k hk
              exact hg k.toNat (by omega) k.toNat_lt
            · exact hg _ (by omega) (by have := lsub.length_le; omega)
            · have := l2 n (List.mem_of_getElem? hn)
              obtain ⟨m, hm, e⟩ := List.mem_map.1 (List.mem_of_getElem? hn)
              refine hg n (by omega) ?_
              rw [← e]; exact m.num.toNat_lt
        have pk : Through w (fun fs' => MaintNow dir o.pack fs fs' ((leftMsgs o today l).map (·.num.toNat)))
            (fun r f3 => ∀ hw3, r = some hw3 → Moving2 dir f2 f3 ((leftMsgs o today l).map (·.num.toNat)) (if o.pack then (leftMsgs o today l).length else 0) ∧
              MarkAt ((leftMsgs o today l).map (·.num)) hw2 (if o.pack then (leftMsgs o today l).length else 0) hw3) (maintPack o dir lb hw2) f2 := by
          unfold maintPack
          cases hp : o.pack with
          | false =>
            simp only [Bool.false_eq_true, if_false]
            rw [hp] at i2
            refine .ret i2 (fun x hx => ?_)
            cases hx
            exact ⟨.zero, fun _ h => by omega, fun _ => rfl⟩
          | true =>
            simp only [if_true]
            have := renumber_through w hr hd (ns := (leftMsgs o today l).map (·.num)) (g := f2) (hw0 := hw2)
              (I := fun fs' => MaintNow dir o.pack fs fs' ((leftMsgs o today l).map (·.num.toNat)))
              (by rw [en]; exact ls) (by rw [en]; exact l2) (fun n hn => ?_) (fun j f hj hM => by
                rw [en] at hM
                rw [List.length_map] at hj
                exact now1 j f hj hM (fun h => by rw [hp] at h; cases h)) lb 0 2 hw2 f2 (by rw [b1]; rfl) (by omega) (fun _ => rfl) .zero ⟨fun _ h => by omega, fun _ => rfl⟩
            · rw [en, List.length_map, hp] at this
              exact unlessCtrlC_through this
            · obtain ⟨m, hm, e⟩ := List.mem_map.1 hn
              rw [← e, g2 _ (List.mem_map.2 ⟨m, hm, rfl⟩)]
              exact hf.there m (lsub.subset hm)
        refine pk.bind (fun r f3 i3 q3 => ?_)
        cases r with
        | none => exact .ret i3 (fun h => by cases h)
        | some hw3 =>
          obtain ⟨hM, hk⟩ := q3 _ rfl
          have lenEq : (leftMsgs o today l).length = ((leftMsgs o today l).map (·.num.toNat)).length := by rw [List.length_map]
          -- the messages
          have dleft : ∀ f4 : FS, (∀ n, 2 ≤ n → f4 (msgFile dir n) = f3 (msgFile dir n)) →
              Moved dir fs f4 ((leftMsgs o today l).map (·.num.toNat)) (if o.pack then ((leftMsgs o today l).map (·.num.toNat)).length else 0) := fun f4 h4 => by
            rw [← lenEq]
            refine ⟨fun i n hi hn => ?_, fun i n hi hn => ?_⟩
            · rw [h4 _ (by omega), hM.new i n hi hn, g2 n (List.mem_of_getElem? hn)]
            · rw [h4 _ (l2 n (List.mem_of_getElem? hn)), hM.old i n hi hn, g2 n (List.mem_of_getElem? hn)]
          have dothers : ∀ f4 : FS, (∀ n, 2 ≤ n → f4 (msgFile dir n) = f3 (msgFile dir n)) → ¬ w.deleteFails → ∀ n, 2 ≤ n → n < 2 ^ 32 →
              (if o.pack then 2 + ((leftMsgs o today l).map (·.num.toNat)).length ≤ n else n ∉ (leftMsgs o today l).map (·.num.toNat)) → f4 (msgFile dir n) = none := fun f4 h4 hdel n hn2 hn32 hn => by
            rw [h4 n hn2]
            have gn : n ∉ (leftMsgs o today l).map (·.num.toNat) → f2 (msgFile dir n) = none := fun hnot => by
              by_cases hg : ∃ k ∈ goneNums o today l, k.toNat = n
              · obtain ⟨k, hk, e⟩ := hg
                rw [← e]; exact hl.gone hdel k hk
              · rw [hl.keep _ (fun k hk => inj (fun e => hg ⟨k, hk, e.symm⟩))]
                refine hf.all n hn2 hn32 (fun m hm e => ?_)
                rcases left_or_gone o today hm with h | h
                · exact hnot (List.mem_map.2 ⟨m, h, e⟩)
                · exact hg ⟨m.num, h, e⟩
            cases hp : o.pack with
            | false =>
              rw [hp] at hM hn
              simp only [Bool.false_eq_true, if_false] at hM hn
              rw [hM.rest _ (fun i hi => by omega) (fun i m hi => by omega)]
              exact gn hn
            | true =>
              rw [hp] at hM hn
              simp only [if_true] at hM hn
              rw [lenEq] at hM
              by_cases hin : n ∈ (leftMsgs o today l).map (·.num.toNat)
              · obtain ⟨i, hi, e⟩ := List.getElem_of_mem hin
                exact hM.gone i n hi (by rw [← e]; exact List.getElem?_eq_getElem hi) hn
              · rw [hM.rest (msgFile dir n) (fun i hi => inj (by omega)) (fun i m hi hm => inj (fun e => hin (by rw [e]; exact List.mem_of_getElem? hm)))]
                exact gn hin
          -- the mark
          have hw3v : hw3.toNat = newMark o.pack (l.map (·.num.toNat)) ((leftMsgs o today l).map (·.num.toNat)) hw0.toNat ∧ hw3.toNat < 2 ^ 16 := by
            have hsm := hmk.small
            dsimp only at hsm
            unfold newMark
            by_cases hin : hw0.toNat ∈ (leftMsgs o today l).map (·.num.toNat)
            · have hng : hw0 ∉ goneNums o today l := fun h => gone_ne hw0 h _ hin rfl
              have e2 : hw2 = hw0 := by rw [hwd, dropAll, if_neg hng]
              rw [if_pos hin]
              cases hp : o.pack with
              | false =>
                rw [hp] at hk
                have := hk.2 (fun i hi => by simp at hi)
                rw [this, e2]
                exact ⟨rfl, hsm⟩
              | true =>
                rw [hp, if_pos rfl] at hk
                rw [if_pos rfl]
                have hi := List.idxOf_lt_length_of_mem hin
                have hge : ((leftMsgs o today l).map (·.num.toNat))[((leftMsgs o today l).map (·.num.toNat)).idxOf hw0.toNat]? = some hw0.toNat := by
                  rw [List.getElem?_eq_getElem hi, List.getElem_idxOf hi]
                have hge' : ((leftMsgs o today l).map (·.num))[((leftMsgs o today l).map (·.num.toNat)).idxOf hw0.toNat]? = some hw2 := by
                  rw [← en, List.getElem?_map] at hge
                  cases hx : ((leftMsgs o today l).map (·.num))[(((leftMsgs o today l).map (·.num)).map (·.toNat)).idxOf hw0.toNat]? with
                  | none => rw [hx] at hge; cases hge
                  | some v =>
                    rw [hx] at hge
                    simp only [Option.map_some, Option.some.injEq] at hge
                    rw [← en, hx, e2, UInt32.toNat_inj.1 hge]
                have := hk.1 _ (by rw [lenEq]; exact hi) hge'
                refine ⟨this, ?_⟩
                have := sorted_ge ls l2 hge
                omega
            · rw [if_neg hin]
              by_cases hal : hw0.toNat ∈ l.map (·.num.toNat)
              · rw [if_pos hal]
                obtain ⟨m, hm, e⟩ := List.mem_map.1 hal
                have hg : hw0 ∈ goneNums o today l := by
                  rcases left_or_gone o today hm with h | h
                  · exact absurd (List.mem_map.2 ⟨m, h, e⟩) hin
                  · rw [UInt32.toNat_inj.1 e] at h; exact h
                have e2 : hw2 = 0 := by rw [hwd, dropAll, if_pos hg]
                have := hk.2 (fun i hi hh => z _ lsub (by rw [← e2]; exact List.mem_of_getElem? hh))
                rw [this, e2]; exact ⟨rfl, by decide⟩
              · rw [if_neg hal]
                have hng : hw0 ∉ goneNums o today l := fun h => by
                  obtain ⟨m, hm, e⟩ := gone_mem o today h
                  exact hal (List.mem_map.2 ⟨m, hm, by rw [e]⟩)
                have e2 : hw2 = hw0 := by rw [hwd, dropAll, if_neg hng]
                have := hk.2 (fun i hi hh => hin (by
                  have := List.mem_of_getElem? hh
                  obtain ⟨m, hm, e⟩ := List.mem_map.1 this
                  exact List.mem_map.2 ⟨m, hm, by rw [e, e2]⟩))
                rw [this, e2]; exact ⟨rfl, hsm⟩
          have f31 : f3 (msgFile dir 1) = fs (msgFile dir 1) := by
            rw [hM.rest _ (fun i hi => inj (by omega)) (fun i n hi hn => inj (by have := l2 n (List.mem_of_getElem? hn); omega))]
            exact hl.keep _ (fun k hk => inj (by have := gone_lo k hk; omega))
          show Through w _ _ (maintWrite date dir d hw0 hw3) f3
          unfold maintWrite
          by_cases hne : hw3 ≠ hw0
          · rw [if_pos hne]
            have hw00 : hw0 ≠ 0 := fun e => by
              have hq := hw3v.1
              rw [e] at hq
              unfold newMark at hq
              rw [if_neg (fun h => absurd (l2 _ h) (by decide)), if_neg (fun h => by
                obtain ⟨m, hm, e'⟩ := List.mem_map.1 h
                have := hf.two m hm
                rw [e'] at this; exact absurd this (by decide))] at hq
              exact hne (by rw [e]; exact UInt32.toNat_inj.1 hq)
            obtain ⟨dd, m1, m2, x, y, m3, m4, m5⟩ := markData_ok (hmk.data hw00) hdate hw3v.2
            rw [m1, hwFile_eq hd]
            simp only [Prog.bind_eq, Prog.bind, Prog.pure_eq, liftUB, writeFile]
            have keep : ∀ v n, 2 ≤ n → (f3.put (msgFile dir 1) v) (msgFile dir n) = f3 (msgFile dir n) := fun v n hn => FS.put_ne _ (inj (by omega)) _
            have i4 : ∀ v, MaintNow dir o.pack fs (f3.put (msgFile dir 1) v) ((leftMsgs o today l).map (·.num.toNat)) := fun v => by
              obtain ⟨⟨j, h1, h2⟩, h3⟩ := i3
              refine ⟨⟨j, h1, ⟨fun i n hi hn => ?_, fun i n hi hn => ?_⟩⟩, fun g hg => ?_⟩
              · rw [keep _ _ (by omega)]; exact h2.new i n hi hn
              · rw [keep _ _ (l2 n (List.mem_of_getElem? hn))]; exact h2.old i n hi hn
              · rw [FS.put_ne _ (hg 1 (by omega) (by decide))]; exact h3 g hg
            refine .write i3 (fun _ _ _ => i4 _) (.ret (i4 _) (fun _ => ⟨dleft _ (keep _), dothers _ (keep _), fun hw h hh => ?_⟩))
              (fun hf _ => .ret (i4 _) (fun _ => ⟨dleft _ (keep _), dothers _ (keep _), fun hw => absurd hf hw.writes⟩))
              (fun hf => .ret i3 (fun _ => ⟨dleft _ (fun _ _ => rfl), dothers _ (fun _ _ => rfl), fun hw => absurd hf hw.opens⟩))
            have : h = hw0.toNat := highWater_unique hh (hmk.mark hw.opens)
            rw [this, ← hw3v.1]
            have eo : overlay (opened f3 (msgFile dir 1) .new).1 (opened f3 (msgFile dir 1) .new).2 dd = dd := by simp [overlay, opened]
            rw [eo]
            unfold highWater
            rw [if_pos ⟨rfl, dd, FS.put_self _ _ _, m2⟩]
            exact ⟨dd, x, y, FS.put_self _ _ _, m3, m4, m5⟩
          · rw [if_neg hne]
            have e30 : hw3 = hw0 := Classical.byContradiction hne
            refine .ret i3 (fun _ => ⟨dleft _ (fun _ _ => rfl), dothers _ (fun _ _ => rfl), fun hw h hh => ?_⟩)
            have : h = hw0.toNat := highWater_unique hh (hmk.mark hw.opens)
            rw [this, ← hw3v.1, e30]
            have hq := hmk.mark hw.opens
            unfold highWater at hq ⊢
            rw [f31]; exact hq

theorem nothing_moved (dir : Str) (fs : FS) (ns : List Nat) : Moved dir fs fs ns 0 := ⟨fun _ _ h => by omega, fun _ _ _ _ => rfl⟩

theorem surviving_nil (o : JamMaintOpt) (old : Nat → Bool) : surviving o old [] = [] := by
  unfold surviving newest; simp

/-- `ProcessAreaMSG` for the files `es`. -/
theorem msg_maint_list (w : World) (hr : ¬ w.renameFails) (o : JamMaintOpt) (today : UInt32) {date : Str} (hdate : date.length < 20) {dir : Str} (hd : DirName dir) {fs : FS}
    {es : List FileEntry} {ms : List (Nat × Nat)} (hl : DirList fs dir isMsgName es) (hp : ProperNames fs dir) (hm : Messages es ms) :
    Through w (fun fs' => MaintNow dir o.pack fs fs' ((surviving o (tooOld today o.keepDays) ms).map (·.1)))
      (fun r fs' => r = true → MaintDone w dir o.pack fs fs' (ms.map (·.1)) ((surviving o (tooOld today o.keepDays) ms).map (·.1)))
      (msgMaintList o today date dir es) fs := by
  obtain ⟨hf, hms⟩ := scan_found hd hl hp
  replace hms := hms.unique hm
  have e1 : (isort cmpMsg (es.filterMap scanMsg)).map (·.num.toNat) = ms.map (·.1) := by
    rw [← hms, List.map_map]; rfl
  have e2 : (leftMsgs o today (isort cmpMsg (es.filterMap scanMsg))).map (·.num.toNat) = (surviving o (tooOld today o.keepDays) ms).map (·.1) := by
    rw [← hms, ← left_surviving, List.map_map]; rfl
  have now : MaintNow dir o.pack fs fs ((surviving o (tooOld today o.keepDays) ms).map (·.1)) := ⟨⟨0, fun _ => rfl, nothing_moved _ _ _⟩, fun _ _ => rfl⟩
  have run := msgMaintRun_through w hr o today hdate hd hf
  rw [e1, e2] at run
  unfold msgMaintList
  split
  · next hnil =>
    have hz : ms = [] := by rw [← hms, hnil]; rfl
    subst hz
    rw [surviving_nil] at now ⊢
    refine .ret now (fun _ => ⟨?_, fun _ n h2 h3 _ => hf.all n h2 h3 (fun m h => by rw [hnil] at h; cases h), fun _ h hh => ?_⟩)
    · have : (if o.pack then ([] : List (Nat × Nat)).map (·.1) |>.length else 0) = 0 := by split <;> rfl
      rw [this]; exact nothing_moved _ _ _
    · have : newMark o.pack (([] : List (Nat × Nat)).map (·.1)) (([] : List (Nat × Nat)).map (·.1)) h = h := by simp [newMark]
      rw [this]; exact hh
  · simp only [Prog.bind_eq, Prog.bind, Prog.pure_eq, pollCtrlC]
    refine .sleep now (fun b => ?_)
    cases b with
    | true => exact .ret now (fun h => by cases h)
    | false => exact run

/-- **C50.** Maintenance of an area in the *.msg format. At every moment — the program may be stopped anywhere, deletions may fail — every message that is to be left
is on the disk with its contents, at its old number or at its new one (2, 3, … in the old order), and no file but messages and the high water mark was touched. When the
program comes to the end, all of them are at their places, there are no other messages, and the high water mark is the one of the same message.

Partial: renames must not fail, and all files that count must have proper names (`Ex.msg_twice`, `Ex.msg_rename_fails` show what happens otherwise); what is too old is
decided by `tooOld`, for which messages of the future are too old (`tooOld_future`); links to replies are not adjusted. -/
theorem msg_maint_partial (w : World) (hr : ¬ w.renameFails) (o : JamMaintOpt) (today : UInt32) {date : Str} (hdate : date.length < 20) {dir : Str} (hd : DirName dir) {fs : FS}
    (hp : ProperNames fs dir) :
    Through w (fun fs' => fs' = fs ∨ ∃ es ms, DirList fs dir isMsgName es ∧ Messages es ms ∧ MaintNow dir o.pack fs fs' ((surviving o (tooOld today o.keepDays) ms).map (·.1)))
      (fun r fs' => r = true → ∃ es ms, DirList fs dir isMsgName es ∧ Messages es ms ∧
        MaintDone w dir o.pack fs fs' (ms.map (·.1)) ((surviving o (tooOld today o.keepDays) ms).map (·.1)))
      (msgMaint o today date dir) fs := by
  unfold msgMaint
  simp only [Prog.bind_eq, Prog.bind, Prog.pure_eq, osReadDir]
  refine .list (.inl rfl) (fun es hl => ?_) (fun _ => .ret (.inl rfl) (fun h => by cases h))
  obtain ⟨-, hm⟩ := scan_found hd hl hp
  exact (msg_maint_list w hr o today hdate hd hl hp hm).mono (fun f h => .inr ⟨_, _, hl, hm, h⟩) (fun r f _ h e => ⟨_, _, hl, hm, h e⟩)

/-- **C69.** While the mark is the number of a message that is left, the messages that are above the mark are above it after maintenance, and only they. -/
theorem mark_order_partial {pack : Bool} {all ns : List Nat} (hs : ns.Pairwise (· < ·)) {h : Nat} (hh : h ∈ ns) {i n : Nat} (hi : ns[i]? = some n) :
    (if pack then 2 + i else n) ≤ newMark pack all ns h ↔ n ≤ h := by
  unfold newMark
  rw [if_pos hh]
  cases pack with
  | false => simp
  | true =>
    simp only [if_true]
    have hj := List.idxOf_lt_length_of_mem hh
    have ej := List.getElem_idxOf hj
    obtain ⟨hi', ei⟩ := List.getElem?_eq_some_iff.1 hi
    rw [List.pairwise_iff_getElem] at hs
    rcases Nat.lt_trichotomy i (ns.idxOf h) with hlt | heq | hgt
    · have := hs _ _ hi' hj hlt
      rw [ei, ej] at this
      omega
    · subst heq
      rw [ei] at ej
      omega
    · have := hs _ _ hj hi' hgt
      rw [ei, ej] at this
      omega

namespace Ex

/-- A directory with some files. -/
def dirDisk (l : List (FileEntry × Data)) : FS := fun f => (l.find? (fun x => makeFullPath b!"/m" x.1.name 200 == f)).map (·.2)

theorem path_name {f g : Str} (hg : (47 : UInt8) ∉ g ∧ g.length ≤ 90) (he : makeFullPath b!"/m" f 200 = makeFullPath b!"/m" g 200) : f = g := by
  have hm : (b!"/m").length = 2 := rfl
  rw [makeFullPath_fits _ g _ msgDir.1 (by omega)] at he
  have hfit : (b!"/m").length + f.length + 3 ≤ 200 := by
    apply Nat.le_of_not_lt
    intro hl
    have := makeFullPath_long b!"/m" f msgDir.2 hl
    rw [he] at this
    split at this <;> simp only [List.length_append, List.length_cons, List.length_nil] at this <;> omega
  rw [makeFullPath_fits _ _ _ msgDir.1 hfit] at he
  split at he
  · exact List.append_cancel_left he
  · exact List.append_cancel_left he

theorem dirDisk_some {l : List (FileEntry × Data)} {f : Str} (hl : ∀ x ∈ l, (47 : UInt8) ∉ x.1.name ∧ x.1.name.length ≤ 90)
    (h : dirDisk l (makeFullPath b!"/m" f 200) ≠ none) : ∃ x ∈ l, x.1.name = f := by
  unfold dirDisk at h
  cases hx : l.find? (fun x => makeFullPath b!"/m" x.1.name 200 == makeFullPath b!"/m" f 200) with
  | none => rw [hx] at h; exact absurd rfl h
  | some x =>
    have e := List.find?_some hx
    have m := List.mem_of_find?_eq_some hx
    exact ⟨x, m, (path_name (hl x m) (beq_iff_eq.1 e).symm).symm⟩

theorem dirDisk_list {l : List (FileEntry × Data)} (hl : ∀ x ∈ l, (47 : UInt8) ∉ x.1.name ∧ x.1.name.length ≤ 90)
    (h2 : ∀ x ∈ l, x.1.name ≠ [] ∧ isMsgName x.1.name = true ∧ x.1.size = x.2.length % 2 ^ 32)
    (h3 : ∀ x ∈ l, dirDisk l (makeFullPath b!"/m" x.1.name 200) = some x.2) (h4 : l.Pairwise (fun a b => a.1.name ≠ b.1.name)) :
    DirList (dirDisk l) b!"/m" isMsgName (l.map (·.1)) := by
  refine ⟨fun e he => ?_, fun n h1 _ _ h => ?_, ?_⟩
  · obtain ⟨x, hx, rfl⟩ := List.mem_map.1 he
    refine ⟨x.1.name, x.2, ?_, (hl x hx).1, (h2 x hx).1, (h2 x hx).2.1, h3 x hx, (h2 x hx).2.2⟩
    rw [List.take_of_length_le (by have := (hl x hx).2; omega)]
  · obtain ⟨x, hx, rfl⟩ := dirDisk_some hl h
    refine ⟨x.1, List.mem_map.2 ⟨x, hx, rfl⟩, ?_⟩
    rw [List.take_of_length_le (by have := (hl x hx).2; omega)]
  · rw [List.pairwise_map]
    exact List.Pairwise.imp (fun {a b} (h : a.1.name ≠ b.1.name) (_ : a.1.name.length < 99) => h) h4

/-- Where maintenance of this directory ends when just the renames of `bad` fail. -/
def maintRun (bad : Str → Bool) (o : JamMaintOpt) (today : UInt32) (l : List (FileEntry × Data)) : Option (Prog Bool × FS) :=
  (msgMaintList o today date b!"/m" (l.map (·.1))).playTo bad (dirDisk l)

theorem maintRun_reach {w : World} {bad : Str → Bool} (hw : w.renameFails ∨ ∀ f, bad f = false) {o : JamMaintOpt} {today : UInt32} {l : List (FileEntry × Data)}
    (hl : DirList (dirDisk l) b!"/m" isMsgName (l.map (·.1))) {P : FS → Bool}
    (h : (maintRun bad o today l).any (fun r => (match r.1 with | .ret b => b | _ => false) && P r.2) = true) :
    ∃ fs', Reach w (msgMaint o today date b!"/m") (dirDisk l) (.ret true) fs' ∧ P fs' = true := by
  cases hr : maintRun bad o today l with
  | none => rw [hr] at h; cases h
  | some r =>
    obtain ⟨x, fs'⟩ := r
    rw [hr] at h
    simp only [Option.any_some, Bool.and_eq_true] at h
    have R : Reach w (msgMaint o today date b!"/m") (dirDisk l) x fs' := .step (.listOk _ _ _ _ _ hl) (playTo_reach hw _ _ hr)
    cases x with
    | ret b => obtain ⟨h1, h2⟩ := h; dsimp only at h1; subst h1; exact ⟨fs', R, h2⟩
    | _ => cases h.1

/-- Five messages and the mark, which is 7; the area is limited to three, and messages may be 10 days old. -/
def five : List (FileEntry × Data) := [({ name := b!"3.msg", size := 1, date := 86400 * 100 }, [3]), ({ name := b!"7.msg", size := 1, date := 86400 * 95 }, [7]),
  ({ name := b!"9.msg", size := 1, date := 86400 * 80 }, [9]), ({ name := b!"1.msg", size := 191 }, msgBytes 7 8 0 [0]), ({ name := b!"2.msg", size := 1, date := 86400 * 100 }, [2]),
  ({ name := b!"12.msg", size := 1, date := 86400 * 99 }, [12])]

def fiveOpt : JamMaintOpt := { maint := true, pack := true, keepNum := 3, keepDays := 10 }

theorem five_list : DirList (dirDisk five) b!"/m" isMsgName (five.map (·.1)) := dirDisk_list (by decide +kernel) (by decide +kernel) (by decide +kernel) (by decide +kernel)

theorem five_names : ProperNames (dirDisk five) b!"/m" := fun f h1 _ h _ => by
  obtain ⟨x, hx, rfl⟩ := dirDisk_some (by decide +kernel) h
  simp only [five, List.mem_cons, List.not_mem_nil, or_false] at hx
  rcases hx with rfl | rfl | rfl | rfl | rfl | rfl
  · exact ⟨3, by decide, by decide⟩
  · exact ⟨7, by decide, by decide⟩
  · exact ⟨9, by decide, by decide⟩
  · exact ⟨1, by decide, by decide⟩
  · exact ⟨2, by decide, by decide⟩
  · exact ⟨12, by decide, by decide⟩

/-- Messages 7 and 12 are left and become 2 and 3; the mark becomes 2. -/
theorem msg_maint_used : ∃ fs', Reach calm (msgMaint fiveOpt 100 date b!"/m") (dirDisk five) (.ret true) fs' ∧ fs' (msgFile b!"/m" 2) = some [7] ∧ fs' (msgFile b!"/m" 3) = some [12] ∧
    fs' (msgFile b!"/m" 4) = none ∧ fs' (msgFile b!"/m" 7) = none ∧ fs' (msgFile b!"/m" 9) = none ∧ fs' (msgFile b!"/m" 12) = none ∧
    (fs' (msgFile b!"/m" 1)).map (fun d => (d.drop 184).take 2) = some [2, 0] := by
  obtain ⟨fs', h1, h2⟩ := maintRun_reach (w := calm) (bad := fun _ => false) (.inr fun _ => rfl) five_list (o := fiveOpt) (today := 100)
    (P := fun f => f (msgFile b!"/m" 2) == some [7] && (f (msgFile b!"/m" 3) == some [12] && (f (msgFile b!"/m" 4) == none && (f (msgFile b!"/m" 7) == none && (f (msgFile b!"/m" 9) == none &&
      (f (msgFile b!"/m" 12) == none && (f (msgFile b!"/m" 1)).map (fun d => (d.drop 184).take 2) == some [2, 0])))))) (by decide +kernel)
  simp only [Bool.and_eq_true, beq_iff_eq] at h2
  exact ⟨fs', h1, h2⟩

/-- The hypotheses of `msg_maint_partial` are met by this directory. -/
example := msg_maint_partial calm calm_reliable.renames fiveOpt 100 (date := date) (by decide) msgDir five_names

def packOnly : JamMaintOpt := { maint := false, pack := true, keepNum := 0, keepDays := 0 }

/-- Files `02.msg` and `2.msg` are both message 2. -/
def twice : List (FileEntry × Data) := [({ name := b!"02.msg", size := 1 }, [1]), ({ name := b!"2.msg", size := 1 }, [2]), ({ name := b!"3.msg", size := 1 }, [3])]

theorem twice_list : DirList (dirDisk twice) b!"/m" isMsgName (twice.map (·.1)) := dirDisk_list (by decide +kernel) (by decide +kernel) (by decide +kernel) (by decide +kernel)

/-- **C50, negative.** A message is moved over message 3, which is lost, though nothing fails and nothing is to be deleted. -/
theorem msg_twice : ∃ fs', Reach calm (msgMaint packOnly 100 date b!"/m") (dirDisk twice) (.ret true) fs' ∧ dirDisk twice (msgFile b!"/m" 3) = some [3] ∧
    fs' b!"/m/02.msg" = some [1] ∧ fs' (msgFile b!"/m" 2) = none ∧ fs' (msgFile b!"/m" 3) = none ∧ fs' (msgFile b!"/m" 4) = some [2] := by
  obtain ⟨fs', h1, h2⟩ := maintRun_reach (w := calm) (bad := fun _ => false) (.inr fun _ => rfl) twice_list (o := packOnly) (today := 100)
    (P := fun f => f b!"/m/02.msg" == some [1] && (f (msgFile b!"/m" 2) == none && (f (msgFile b!"/m" 3) == none && f (msgFile b!"/m" 4) == some [2]))) (by decide +kernel)
  simp only [Bool.and_eq_true, beq_iff_eq] at h2
  exact ⟨fs', h1, by decide +kernel, h2⟩

/-- Renames can fail, and nothing else. -/
def sticky : World := { calm with renameFails := True }

def threeFour : List (FileEntry × Data) := [({ name := b!"3.msg", size := 1 }, [3]), ({ name := b!"4.msg", size := 1 }, [4])]

theorem threeFour_list : DirList (dirDisk threeFour) b!"/m" isMsgName (threeFour.map (·.1)) := dirDisk_list (by decide +kernel) (by decide +kernel) (by decide +kernel) (by decide +kernel)

/-- **C50, negative.** Message 3 cannot be moved; then message 4 is moved over it. -/
theorem msg_rename_fails : ∃ fs', Reach sticky (msgMaint packOnly 100 date b!"/m") (dirDisk threeFour) (.ret true) fs' ∧ dirDisk threeFour (msgFile b!"/m" 3) = some [3] ∧
    fs' (msgFile b!"/m" 2) = none ∧ fs' (msgFile b!"/m" 3) = some [4] ∧ fs' (msgFile b!"/m" 4) = none := by
  obtain ⟨fs', h1, h2⟩ := maintRun_reach (w := sticky) (bad := fun f => f == b!"/m/3.msg") (.inl trivial) threeFour_list (o := packOnly) (today := 100)
    (P := fun f => f (msgFile b!"/m" 2) == none && (f (msgFile b!"/m" 3) == some [4] && f (msgFile b!"/m" 4) == none)) (by decide +kernel)
  simp only [Bool.and_eq_true, beq_iff_eq] at h2
  exact ⟨fs', h1, by decide +kernel, h2⟩

/-- Two files whose numbers are multiples of 2^32. -/
def huge : List (FileEntry × Data) := [({ name := b!"4294967296.msg", size := 1 }, [1]), ({ name := b!"8589934592.msg", size := 1 }, [2])]

theorem huge_list : DirList (dirDisk huge) b!"/m" isMsgName (huge.map (·.1)) := dirDisk_list (by decide +kernel) (by decide +kernel) (by decide +kernel) (by decide +kernel)

/-- **C50, negative.** If the area is limited to one message, the program reads beyond the last message. -/
theorem msg_huge : ∃ fs', Reach calm (msgMaint { maint := true, pack := false, keepNum := 1, keepDays := 0 } 100 date b!"/m") (dirDisk huge) (.ub .nullDeref) fs' := by
  have h : (maintRun (fun _ => false) { maint := true, pack := false, keepNum := 1, keepDays := 0 } 100 huge).any
    (fun r => match r.1 with | .ub .nullDeref => true | _ => false) = true := by decide +kernel
  cases hr : maintRun (fun _ => false) { maint := true, pack := false, keepNum := 1, keepDays := 0 } 100 huge with
  | none => rw [hr] at h; cases h
  | some r =>
    obtain ⟨x, fs'⟩ := r
    rw [hr] at h
    simp only [Option.any_some] at h
    split at h
    · exact ⟨fs', .step (.listOk _ _ _ _ _ huge_list) (playTo_reach (.inr fun _ => rfl) _ _ hr)⟩
    · cases h

/-- The mark is 10, but message 10 was deleted by hand. -/
def markGap : List (FileEntry × Data) := [({ name := b!"5.msg", size := 1 }, [5]), ({ name := b!"12.msg", size := 1 }, [12]), ({ name := b!"1.msg", size := 191 }, msgBytes 10 8 0 [0])]

theorem markGap_list : DirList (dirDisk markGap) b!"/m" isMsgName (markGap.map (·.1)) := dirDisk_list (by decide +kernel) (by decide +kernel) (by decide +kernel) (by decide +kernel)

/-- **C69, negative.** Message 12, above the mark 10, becomes message 3; the mark stays 10. -/
theorem mark_gap : ∃ fs', Reach calm (msgMaint packOnly 100 date b!"/m") (dirDisk markGap) (.ret true) fs' ∧ dirDisk markGap (msgFile b!"/m" 12) = some [12] ∧
    (dirDisk markGap (msgFile b!"/m" 1)).map (fun d => (d.drop 184).take 2) = some [10, 0] ∧ fs' (msgFile b!"/m" 3) = some [12] ∧
    (fs' (msgFile b!"/m" 1)).map (fun d => (d.drop 184).take 2) = some [10, 0] := by
  obtain ⟨fs', h1, h2⟩ := maintRun_reach (w := calm) (bad := fun _ => false) (.inr fun _ => rfl) markGap_list (o := packOnly) (today := 100)
    (P := fun f => f (msgFile b!"/m" 3) == some [12] && (f (msgFile b!"/m" 1)).map (fun d => (d.drop 184).take 2) == some [10, 0]) (by decide +kernel)
  simp only [Bool.and_eq_true, beq_iff_eq] at h2
  exact ⟨fs', h1, by decide +kernel, by decide +kernel, h2⟩

/-- The hypotheses of `mark_order_partial`: messages 3, 7 and 12 with the mark 7. -/
example := mark_order_partial (pack := true) (all := [2, 3, 7, 12]) (ns := [3, 7, 12]) (by decide) (h := 7) (by decide) (i := 2) (n := 12) rfl

end Ex

end CM
