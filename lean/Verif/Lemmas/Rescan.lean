import Verif.Lemmas.JamScan
import Verif.Lemmas.Echo
import Verif.Spec.Rescan
import Verif.Model.Rescan
import Verif.Props.PktRound
import Verif.Props.ConfigFile
import Verif.Props.JamScan
import Verif.Props.Echo
/-! # Sending messages again -/

set_option linter.unusedSimpArgs false

namespace CM

/-! ## What is loaded from a JAM area -/

/-- The area stays, and the SEEN-BY entries and PATH lines stay well-formed. -/
def KeepsTag (m m' : MemMsg) : Prop := m'.area = m.area ∧ (Blocks m.seenBy → Blocks m'.seenBy) ∧ (PathOK m.path → PathOK m'.path)

theorem KeepsTag.trans {a b c : MemMsg} (h1 : KeepsTag a b) (h2 : KeepsTag b c) : KeepsTag a c := ⟨h2.1.trans h1.1, fun h => h2.2.1 (h1.2.1 h), fun h => h2.2.2 (h1.2.2 h)⟩

theorem KeepsTag.of {m m' : MemMsg} (h1 : m'.area = m.area) (h2 : m'.seenBy = m.seenBy) (h3 : m'.path = m.path) : KeepsTag m m' := ⟨h1, fun h => (by rw [h2]; exact h), fun h => (by rw [h3]; exact h)⟩

theorem keepsTag_of_addText {m m' : MemMsg} {l : Str} (h : addText m l = .ok (some m')) : KeepsTag m m' := by
  rw [addText_keep h]; exact .of rfl rfl rfl

theorem mmAddLine_keepsTag {m m' : MemMsg} {l : Str} (h : mmAddLine m l = .ok (some m')) : KeepsTag m m' := by
  unfold mmAddLine at h
  split at h
  · cases hs : strAt l 9 with
    | error e => rw [hs] at h; simp [bind, Except.bind] at h
    | ok v =>
      rw [hs] at h
      simp only [bind, Except.bind, Except.ok.injEq, Option.map_eq_some_iff] at h
      obtain ⟨a, ha, rfl⟩ := h
      exact ⟨rfl, fun hb => addSeenby_blocks ha hb, id⟩
  · split at h
    · cases hs : strAt l 7 with
      | error e => rw [hs] at h; simp [bind, Except.bind] at h
      | ok v =>
        rw [hs] at h
        simp only [bind, Except.bind] at h
        cases hp : mmAddPath v m.path with
        | error e => rw [hp] at h; simp at h
        | ok p =>
          rw [hp] at h
          simp only [Except.ok.injEq, Option.some.injEq] at h
          subst h; exact ⟨rfl, id, fun h => mmAddPath_ok hp h⟩
    · split at h
      · cases hs : extractAddress l with
        | error e => rw [hs] at h; simp [bind, Except.bind] at h
        | ok o =>
          rw [hs] at h
          simp only [bind, Except.bind] at h
          cases o with
          | none => exact keepsTag_of_addText h
          | some a =>
            have hx := keepsTag_of_addText h
            exact hx
      · split at h
        · cases hs : processKludge m l with
          | error e => rw [hs] at h; simp [bind, Except.bind] at h
          | ok m1 =>
            rw [hs] at h
            simp only [bind, Except.bind] at h
            have hk := processKludge_frame hs
            exact (KeepsTag.of hk.area hk.seenBy hk.path).trans (keepsTag_of_addText h)
        · exact keepsTag_of_addText h

theorem addLineJ_keepsTag {m m' : MemMsg} {l : Str} (h : addLineJ m l = .ok m') : KeepsTag m m' := by
  unfold addLineJ at h
  split at h
  · cases h
  · cases h
  · rename_i q hq
    cases h
    exact mmAddLine_keepsTag hq

theorem jamSubfield_keepsTag {x x' : JamReading} {f : JamSub} (h : jamSubfield x f = .ok x') : KeepsTag x.mm x'.mm := by
  have kl : ∀ {pre : Str} {d : Data}, jamKludge x pre d = .ok x' → KeepsTag x.mm x'.mm := by
    intro pre d h
    obtain ⟨m, h1, h2⟩ := jbind_ok.1 h
    rw [jpure_ok] at h2; subst h2
    exact addLineJ_keepsTag h1
  have fs : ∀ {n : Nat} {g : Str → JamReading}, (fieldStr n f.data >>= fun s => (pure (g s) : Except JErr JamReading)) = .ok x' → (∀ s, KeepsTag x.mm (g s).mm) → KeepsTag x.mm x'.mm := by
    intro n g h hg
    obtain ⟨s, _, h2⟩ := jbind_ok.1 h
    rw [jpure_ok] at h2; subst h2
    exact hg s
  unfold jamSubfield at h
  rcases iteq.1 h with ⟨-, h⟩ | ⟨-, h⟩
  · exact fs h fun _ => .of rfl rfl rfl
  rcases iteq.1 h with ⟨-, h⟩ | ⟨-, h⟩
  · obtain ⟨s, _, h2⟩ := jbind_ok.1 h
    rcases iteq.1 h2 with ⟨-, h⟩ | ⟨-, h⟩ <;> (rw [jpure_ok] at h; subst h; exact .of rfl rfl rfl)
  rcases iteq.1 h with ⟨-, h⟩ | ⟨-, h⟩
  · exact fs h fun _ => .of rfl rfl rfl
  rcases iteq.1 h with ⟨-, h⟩ | ⟨-, h⟩
  · exact fs h fun _ => .of rfl rfl rfl
  rcases iteq.1 h with ⟨-, h⟩ | ⟨-, h⟩
  · exact kl h
  rcases iteq.1 h with ⟨-, h⟩ | ⟨-, h⟩
  · exact kl h
  rcases iteq.1 h with ⟨-, h⟩ | ⟨-, h⟩
  · exact fs h fun _ => .of rfl rfl rfl
  rcases iteq.1 h with ⟨-, h⟩ | ⟨-, h⟩
  · exact kl h
  rcases iteq.1 h with ⟨-, h⟩ | ⟨-, h⟩
  · rcases iteq.1 h with ⟨-, h⟩ | ⟨-, h⟩
    · rw [jpure_ok] at h; subst h; exact .of rfl rfl rfl
    · exact fs h fun _ => .of rfl rfl rfl
  rcases iteq.1 h with ⟨-, h⟩ | ⟨-, h⟩
  · exact kl h
  rcases iteq.1 h with ⟨-, h⟩ | ⟨-, h⟩
  · exact kl h
  rcases iteq.1 h with ⟨-, h⟩ | ⟨-, h⟩
  · exact kl h
  rcases iteq.1 h with ⟨-, h⟩ | ⟨-, h⟩
  · exact fs h fun _ => .of rfl rfl rfl
  · cases h; exact .of rfl rfl rfl

theorem jamSubs_keepsTag : ∀ (fs : List JamSub) {x x' : JamReading}, fs.foldlM jamSubfield x = .ok x' → KeepsTag x.mm x'.mm
  | [], x, x', h => by rw [List.foldlM_nil, jpure_ok] at h; subst h; exact .of rfl rfl rfl
  | f :: fs, x, x', h => by
    rw [List.foldlM_cons] at h
    obtain ⟨y, h1, h2⟩ := jbind_ok.1 h
    exact (jamSubfield_keepsTag h1).trans (jamSubs_keepsTag fs h2)

theorem addLinesJ_keepsTag : ∀ (ls : List Str) {m m' : MemMsg}, ls.foldlM addLineJ m = .ok m' → KeepsTag m m'
  | [], m, m', h => by rw [List.foldlM_nil, jpure_ok] at h; subst h; exact .of rfl rfl rfl
  | f :: fs, x, x', h => by
    rw [List.foldlM_cons] at h
    obtain ⟨y, h1, h2⟩ := jbind_ok.1 h
    exact (addLineJ_keepsTag h1).trans (addLinesJ_keepsTag fs h2)

theorem jamHeadOut_keepsTag {r : JamRun} {h : JamHdr} {x : JamReading} {m : MemMsg} {old : UInt16} (hh : jamHeadOut r h x = .ok (m, old)) : KeepsTag x.mm m := by
  obtain ⟨m5, h5, h6⟩ := jbind_ok.1 hh
  rw [jpure_ok] at h6
  have e2 := congrArg Prod.fst h6
  simp only at e2
  subst e2
  have e0 : KeepsTag x.mm (if x.file ≠ [] then { x.mm with attr := x.mm.attr ||| 16, subject := mystrncpy x.file 72 } else x.mm) := by split <;> exact .of rfl rfl rfl
  refine e0.trans (KeepsTag.trans (b := m5) ?_ (.of rfl rfl rfl))
  rcases iteq.1 h5 with ⟨-, h5⟩ | ⟨-, h5⟩
  · split at h5
    · cases h5
    · have := addLineJ_keepsTag h5
      exact ⟨this.1, this.2.1, this.2.2⟩
  · cases h5; exact .of rfl rfl rfl

/-- A message loaded from an area carries the tag of the area, and its SEEN-BY and PATH are well-formed. -/
theorem jamLoaded_tag {o : JamOpt} {r : JamRun} {a : Area} {aka : Node4D} {rescan : Bool} {num : UInt32} {h : JamHdr} {subs : List JamSub} {text : Data} {m : MemMsg} {old : UInt16}
    (hl : jamLoaded o r a aka rescan num h subs text = .ok (m, old)) : m.area = (if a.type = .netmail then [] else a.tag) ∧ Blocks m.seenBy ∧ PathOK m.path := by
  obtain ⟨x, h1, hl⟩ := jbind_ok.1 hl
  obtain ⟨⟨m1, old1⟩, h2, hl⟩ := jbind_ok.1 hl
  obtain ⟨m2, h3, hl⟩ := jbind_ok.1 hl
  obtain ⟨m3, h4, hl⟩ := jbind_ok.1 hl
  rw [jpure_ok] at hl
  cases hl
  have e1 := ((jamSubs_keepsTag subs h1).trans (jamHeadOut_keepsTag h2)).trans (addLinesJ_keepsTag _ h3)
  have e4 : KeepsTag m2 m3 := by
    unfold jamTextOut at h4
    rcases iteq.1 h4 with ⟨-, h4⟩ | ⟨-, h4⟩
    · cases h4; exact .of rfl rfl rfl
    · obtain ⟨org, _, h4⟩ := jbind_ok.1 h4
      obtain ⟨t, _, h4⟩ := jbind_ok.1 h4
      cases t with
      | none => cases h4
      | some t => rw [jpure_ok] at h4; subst h4; exact .of rfl rfl rfl
  exact ⟨(e1.trans e4).1, (e1.trans e4).2.1 (by simp [Blocks]), (e1.trans e4).2.2 (by simp [PathOK])⟩

/-! ## The loop over a JAM area -/

theorem JamResent.none {load : UInt32 → JamMsg → MemMsg → Prop} {start : UInt32} {n : Nat} {ms : List (Option JamMsg)} : JamResent load start n n ms [] :=
  ⟨by rw [Nat.sub_self]; rfl, fun x hx => by cases hx⟩

theorem live_congr {ms ms1 : List (Option JamMsg)} {k : Nat} (h : ms1[k]? = ms[k]?) : JamLive ms1 k = JamLive ms k := by
  unfold JamLive; rw [h]

/-- Reading a message for sending it again. -/
def reloadsAs (o : JamOpt) (r : JamRun) (a : Area) (aka : Node4D) (num : UInt32) (m : JamMsg) (mm : MemMsg) : Prop :=
  ∃ old, jamLoaded o r a aka true num m.hdr m.subs m.text = .ok (mm, old)

theorem dead_iff (m : JamMsg) : jamDeleted m.hdr.attr = m.dead := jamDeleted_iff _

section
variable {o : JamOpt} {r : JamRun} {i : Nat} {a : Area} {aka : Node4D} {start : UInt32} {x : JamRec} {c : Nat}

theorem resendNum_spec {Inv : Nat → JamW → Prop} {Fit : MemMsg → Prop} {handle : JamHandler} (hh : JamKeeps Inv Fit i start c handle) (hI : JamElse Inv i)
    (hx : x.baseNum = start) {k : Nat} {ms : List (Option JamMsg)} {w : JamW} (h : JamAt i start x c (k + 1) ms w) (hInv : Inv (k + 1) w) {n : Nat} (hn : n < ms.length)
    (hload : ∀ m, ms[n]? = some (some m) → JamLive ms n = true → ∃ mm, reloadsAs o r a aka (start + UInt32.ofNat n) m mm ∧ Fit mm) :
    ∃ y new, jamExportNum o r handle i a aka true (start + UInt32.ofNat n) w = .ok y ∧ JamAt i start x c k (ms ++ new) y.w ∧ Inv k y.w ∧ y.w.hwFile i = w.hwFile i ∧
      ((y.ok = false ∧ y.sent = [] ∧ ∃ m w1 w2, handle m w1 = .ok (false, w2)) ∨ (y.ok = true ∧ JamResent (reloadsAs o r a aka) start n (n + 1) ms y.sent)) := by
  have hg := jamGetArea_at (r := r) h
  obtain ⟨b, y, h1, h2, h3, h4, h5, h6⟩ := id h
  have hfew : n < 2 ^ 32 := h2.few (List.getElem?_eq_getElem hn)
  have hrec : (w.recOf i).baseNum = start := by rw [JamW.recOf, h4]; exact h5.trans hx
  unfold jamExportNum
  simp only [hg, h1, hrec, pos_sub, Bool.not_true, Bool.false_eq_true, if_false, jam_readHdr h2, ofNat_few hfew]
  have hr1 : n + 1 - n = 1 := by omega
  have skip : JamLive ms n = false → ∃ y new, (pure ⟨true, w, []⟩ : Except JErr JamDone) = .ok y ∧ JamAt i start x c k (ms ++ new) y.w ∧ Inv k y.w ∧ y.w.hwFile i = w.hwFile i ∧
      ((y.ok = false ∧ y.sent = [] ∧ ∃ m w1 w2, handle m w1 = .ok (false, w2)) ∨ (y.ok = true ∧ JamResent (reloadsAs o r a aka) start n (n + 1) ms y.sent)) := fun hz =>
    ⟨⟨true, w, []⟩, [], rfl, by rw [List.append_nil]; exact h.mono (Nat.le_succ k), hI.2 k w hInv, rfl, .inr ⟨rfl, by rw [hr1]; simp [List.range', hz], fun x hx => (by cases hx)⟩⟩
  match hm : ms[n]? with
  | none => exact skip (by rw [JamLive, hm])
  | some none => exact skip (by rw [JamLive, hm])
  | some (some m) =>
    have hlv : JamLive ms n = !m.dead := by rw [JamLive, hm]
    simp only [liftJ]
    show ∃ y ms1, (if jamDeleted m.hdr.attr = true then _ else _ : Except JErr JamDone) = .ok y ∧ _
    by_cases hd : jamDeleted m.hdr.attr = true
    · rw [if_pos hd]
      exact skip (by rw [hlv, ← dead_iff, hd]; rfl)
    · rw [if_neg hd]
      show ∃ y ms1, (if (!true && (m.hdr.attr &&& 0x10 != 0 || m.hdr.attr &&& 0x1 == 0)) = true then _ else _ : Except JErr JamDone) = .ok y ∧ _
      rw [if_neg (by simp)]
      have hlive : JamLive ms n = true := by rw [hlv, ← dead_iff]; simpa using hd
      rw [jam_readText h2 hm]
      obtain ⟨mm, ⟨old, hlo⟩, hfit⟩ := hload m hm hlive
      obtain ⟨ok, w1, new, k1, k2, k3, k4⟩ := hh mm w x ms k hfit hInv h
      simp only [hlo]
      show ∃ y ms1, (handle mm w >>= _ : Except JErr JamDone) = .ok y ∧ _
      rw [k1]
      cases ok with
      | false => exact ⟨⟨false, w1, []⟩, new, rfl, k3, k2, k4, .inl ⟨rfl, rfl, mm, w, w1, k1⟩⟩
      | true =>
        refine ⟨⟨true, w1, [(start + UInt32.ofNat n, mm)]⟩, new, rfl, k3, k2, k4, .inr ⟨rfl, by rw [hr1]; simp [List.range', hlive], fun x hx => ?_⟩⟩
        rw [List.mem_singleton] at hx
        subst hx
        exact ⟨n, m, Nat.le_refl n, Nat.lt_succ_self n, hm, rfl, old, hlo⟩

theorem JamResent.append {load : UInt32 → JamMsg → MemMsg → Prop} {n q p : Nat} {ms new : List (Option JamMsg)} {s t : List (UInt32 × MemMsg)} (hq : n ≤ q) (hp : q ≤ p) (hl : p ≤ ms.length)
    (h1 : JamResent load start n q ms s) (h2 : JamResent load start q p (ms ++ new) t) : JamResent load start n p ms (s ++ t) := by
  constructor
  · have e : List.range' n (p - n) = List.range' n (q - n) ++ List.range' q (p - q) := by
      rw [show p - n = (q - n) + (p - q) by omega, ← List.range'_append, Nat.one_mul, show n + (q - n) = q by omega]
    rw [List.map_append, e, List.filter_append, List.map_append, h1.nums, h2.nums]
    congr 2
    refine List.filter_congr fun k hk => ?_
    have := List.mem_range'_1.1 hk
    exact live_congr (List.getElem?_append_left (by omega))
  · intro x hx
    rcases List.mem_append.1 hx with hx | hx
    · obtain ⟨k, m, a1, a2, a3⟩ := h1.what x hx
      exact ⟨k, m, a1, by omega, a3⟩
    · obtain ⟨k, m, a1, a2, a3, a4⟩ := h2.what x hx
      exact ⟨k, m, by omega, a2, by rw [List.getElem?_append_left (by omega)] at a3; exact a3, a4⟩

theorem reloop_spec {Inv : Nat → JamW → Prop} {Fit : MemMsg → Prop} {handle : JamHandler} (hh : JamKeeps Inv Fit i start c handle) (hI : JamElse Inv i)
    (hx : x.baseNum = start) {N : Nat} (hN : start.toNat + N < 2 ^ 32) : ∀ (d fuel n : Nat) {ms : List (Option JamMsg)} {w : JamW} (done : List (UInt32 × MemMsg)),
    n + d = N → d < fuel → N ≤ ms.length → JamAt i start x c d ms w → Inv d w →
    (∀ k m, n ≤ k → k < N → ms[k]? = some (some m) → JamLive ms k = true → ∃ mm, reloadsAs o r a aka (start + UInt32.ofNat k) m mm ∧ Fit mm) →
    ∃ y p new s, jamLoop o r handle i a aka true (start + UInt32.ofNat N) fuel (start + UInt32.ofNat n) w done = .ok y ∧ y.sent = done ++ s ∧ n ≤ p ∧ p ≤ N ∧ (y.ok = true → p = N) ∧ (y.ok = false → (∃ t, r.ctrlc t = true) ∨ ∃ m w1 w2, handle m w1 = .ok (false, w2)) ∧
      JamAt i start x c 0 (ms ++ new) y.w ∧ Inv 0 y.w ∧ y.w.hwFile i = w.hwFile i ∧ JamResent (reloadsAs o r a aka) start n p ms s := by
  intro d
  induction d with
  | zero =>
    intro fuel n ms w done hd hf hms hat hInv hload
    obtain ⟨fuel, rfl⟩ := Nat.exists_eq_add_one_of_ne_zero (show fuel ≠ 0 by omega)
    unfold jamLoop
    have hstep : Inv 0 w.step := hI.1 0 w w.step hInv (fun _ _ => ⟨rfl, rfl⟩) fun _ _ => rfl
    have hat' : JamAt i start x c 0 (ms ++ []) w.step := by rw [List.append_nil]; exact hat.step
    by_cases hc : r.ctrlc w.tick = true
    · rw [if_pos hc]
      exact ⟨_, n, [], [], rfl, by simp, Nat.le_refl n, by omega, fun h => (by cases h), fun _ => .inl ⟨_, hc⟩, hat', hstep, rfl, .none⟩
    · rw [if_neg hc, if_neg (by rw [num_lt hN (by omega)]; omega)]
      exact ⟨_, n, [], [], rfl, by simp, Nat.le_refl n, by omega, fun _ => by omega, fun h => (by cases h), hat', hstep, rfl, .none⟩
  | succ d ih =>
    intro fuel n ms w done hd hf hms hat hInv hload
    obtain ⟨fuel, rfl⟩ := Nat.exists_eq_add_one_of_ne_zero (show fuel ≠ 0 by omega)
    unfold jamLoop
    have hstep : Inv (d + 1) w.step := hI.1 _ w w.step hInv (fun _ _ => ⟨rfl, rfl⟩) fun _ _ => rfl
    by_cases hc : r.ctrlc w.tick = true
    · rw [if_pos hc]
      exact ⟨_, n, [], [], rfl, by simp, Nat.le_refl n, by omega, fun h => (by cases h), fun _ => .inl ⟨_, hc⟩, by rw [List.append_nil]; exact hat.step.mono (by omega), hI.mono hstep (by omega), rfl, .none⟩
    · rw [if_neg hc, if_pos (by rw [num_lt hN (by omega)]; omega)]
      obtain ⟨y, new, e1, e2, e3, e4, e5⟩ := resendNum_spec (aka := aka) hh hI hx hat.step hstep (n := n) (by omega) (hload n · (Nat.le_refl n) (by omega))
      rw [e1]
      show ∃ y' p ms' s, (if (!y.ok) = true then _ else _ : Except JErr JamDone) = .ok y' ∧ _
      obtain ⟨yok, yw, ys⟩ := y
      rcases e5 with ⟨q1, q2, q3⟩ | ⟨q1, q2⟩
      · simp only at q1 q2
        subst q1 q2
        exact ⟨⟨false, yw, done ++ []⟩, n, new, [], rfl, rfl, Nat.le_refl n, by omega, fun h => (by cases h), fun _ => .inr q3, e2.mono (by omega), hI.mono e3 (by omega), e4, .none⟩
      · simp only at q1 q2
        subst q1
        rw [if_neg (by simp), num_next]
        obtain ⟨y', p, new', s, f1, f2, f3, f4, f5, f5', f6, f7, f8, f9⟩ := ih fuel (n + 1) (ms := ms ++ new) (done ++ ys) (by omega) (by omega) (by rw [List.length_append]; omega) e2 e3 (fun k m h1 h2 h3 h4 => by
          have e : (ms ++ new)[k]? = ms[k]? := List.getElem?_append_left (by omega)
          exact hload k m (by omega) h2 (by rw [← e]; exact h3) (by rw [← live_congr e]; exact h4))
        exact ⟨y', p, new ++ new', ys ++ s, f1, by rw [f2, List.append_assoc], by omega, f4, f5, f5', by rw [← List.append_assoc]; exact f6, f7, f8.trans e4, .append (by omega) f3 (by omega) q2 f9⟩

end

/-! ## The messages of a rescan -/

theorem add_iff (p : Prop) [Decidable p] (bs : List (List N2)) (x y : N2) : y ∈ (if p then mmAddNodes2D bs x else bs).flatten ↔ y ∈ bs.flatten ∨ (p ∧ y = x) := by
  by_cases h : p
  · rw [if_pos h]
    have := mem_foldl_add (fun _ : Unit => x) [()] bs y
    simpa [h] using this
  · rw [if_neg h]; simp [h]

theorem add_blocks (p : Prop) [Decidable p] {bs : List (List N2)} (x : N2) (h : Blocks bs) : Blocks (if p then mmAddNodes2D bs x else bs) := by
  split
  · exact mmAddNodes2D_blocks _ _ h
  · exact h

theorem sendEcho_runs (env : Env) (aka : Node4D) (m : MemMsg) (l : Link) (s : HSt) (hb : Blocks m.seenBy) :
    (env.echoOk s.log l.idx (outMsg aka m l.node) = true → ∃ m1 t, sendEcho env aka m l s = .ok m1 t) ∧
      (env.echoOk s.log l.idx (outMsg aka m l.node) = false → sendEcho env aka m l s = .fail s) := by
  obtain ⟨bs, h1, _⟩ := echoSeenBy_spec m l.node aka hb
  obtain ⟨G, h2, _⟩ := mmMakeSeenByBuf_lines bs
  obtain ⟨r, h3, _⟩ := mmSortNodes2D_sorts m.seenBy hb
  unfold sendEcho
  rw [h1, h2, h3]
  exact ⟨fun h => by simp [h], fun h => by simp [h]⟩

/-- One message of a rescan. -/
theorem handleRescan_runs (env : Env) (l : Link) (m : MemMsg) (s : HSt) {i : Nat} {a : Area} {aka : Aka} (hf : s.cfg.findArea m.area = some i) (ha : s.cfg.areas[i]? = some a)
    (hk : a.aka.bind (s.cfg.akas[·]?) = some aka) (hb : Blocks m.seenBy) (hp : PathOK m.path) :
    ∃ m', ResentAs s.cfg aka.node l.node m m' ∧ ((env.echoOk s.log l.idx m' = true ∧ handleRescan env l m s = .ok () { s with log := s.log ++ [.echo l.idx aka.node m'] }) ∨
      (env.echoOk s.log l.idx m' = false ∧ handleRescan env l m s = .fail s)) := by
  have b1 := add_blocks (aka.node.point = 0) (aka.node.net, aka.node.node) hb
  have b2 := add_blocks (l.node.node.point = 0) (l.node.node.net, l.node.node.node) b1
  obtain ⟨r, h1, h2, h3, h4⟩ := mmSortNodes2D_sorts _ b2
  obtain ⟨p, hp1⟩ := addNodePath_total m.path aka.node
  generalize hq : (if (aka.node.point = 0 || s.cfg.has CFG_PATH3D) = true then p else m.path) = q
  have hr : ResentAs s.cfg aka.node l.node m (outMsg aka.node { m with seenBy := r, path := q } l.node) := by
    refine ⟨rfl, fun y => ?_, h4, fun e1 e2 => ?_, fun e => ?_⟩
    · show y ∈ r.flatten ↔ _
      rw [h3.mem_iff, add_iff, add_iff, or_assoc]
    · show q = m.path
      rw [← hq, if_neg (by simp [e1, e2])]
    · show q = m.path ∨ _ ∨ _
      rw [← hq, if_pos (by simpa using e)]
      exact (addNodePath_shape _ _ _ hp hp1).2
  refine ⟨_, hr, ?_⟩
  have hrun : handleRescan env l m s = (sendEcho env aka.node { m with seenBy := r, path := q } l >>= fun _ => pure ()) s := by
    unfold handleRescan
    rw [get_bind]
    simp only [hf, Option.bind_some, ha, hk]
    rw [← hq]
    split
    · rw [hp1, h1]; rfl
    · rw [h1]; rfl
  rw [hrun]
  have hs := sortedSB_of_sort b2 h1
  obtain ⟨g1, g2⟩ := sendEcho_runs env aka.node { m with seenBy := r, path := q } l s hs.1
  cases he : env.echoOk s.log l.idx (outMsg aka.node { m with seenBy := r, path := q } l.node) with
  | true =>
    obtain ⟨m1, t, g⟩ := g1 he
    refine .inl ⟨rfl, ?_⟩
    obtain ⟨_, e⟩ := sendEcho_ok hs g
    subst e
    exact bind_ok.2 ⟨m1, _, g, rfl⟩
  | false => exact .inr ⟨rfl, bind_fail.2 (.inl (g2 he))⟩

theorem rescanAll_runs (env : Env) (l : Link) {i : Nat} {a : Area} {aka : Aka} (cfg : Config) (ha : cfg.areas[i]? = some a) (hk : a.aka.bind (cfg.akas[·]?) = some aka) :
    ∀ (ms : List MemMsg) (s : HSt), s.cfg = cfg → (∀ m ∈ ms, cfg.findArea m.area = some i ∧ Blocks m.seenBy ∧ PathOK m.path) →
    ∃ b cs, Ret (rescanAll env l ms) s b { s with log := s.log ++ cs.map (.echo l.idx aka.node) } ∧ ResentAll cfg aka.node l.node ms cs b ∧
      ((∀ log m, env.echoOk log l.idx m = true) → b = true)
  | [], s, _, _ => ⟨true, [], ⟨(), by simp [rescanAll, pure]⟩, ⟨Nat.le_refl _, fun _ => rfl, fun j m m' h => (by simp at h)⟩, fun _ => rfl⟩
  | m :: ms, s, hs, hms => by
    obtain ⟨f1, f2, f3⟩ := hms m (by simp)
    obtain ⟨m', hr, h⟩ := handleRescan_runs env l m s (by rw [hs]; exact f1) (by rw [hs]; exact ha) (by rw [hs]; exact hk) f2 f3
    rw [hs] at hr
    rcases h with ⟨-, h⟩ | ⟨he, h⟩
    · obtain ⟨b, cs, h1, h2, h3⟩ := rescanAll_runs env l cfg ha hk ms { s with log := s.log ++ [.echo l.idx aka.node m'] } hs fun x hx => hms x (List.mem_cons_of_mem _ hx)
      refine ⟨b, m' :: cs, ?_, ⟨by simpa using h2.count, fun e => by simpa using h2.done e, fun j x x' e1 e2 => ?_⟩, h3⟩
      · simp only [List.append_assoc, List.singleton_append] at h1
        unfold Ret at h1 ⊢
        rw [rescanAll]
        cases b with
        | true =>
          obtain ⟨u, h1⟩ := h1
          exact ⟨u, bind_ok.2 ⟨(), _, h, h1⟩⟩
        | false => exact bind_fail.2 (.inr ⟨(), _, h, h1⟩)
      · cases j with
        | zero => simp at e1 e2; subst e1 e2; exact hr
        | succ j => exact h2.each j x x' (by simpa using e1) (by simpa using e2)
    · refine ⟨false, [], ?_, ⟨Nat.zero_le _, fun e => (by cases e), fun j x x' e1 e2 => (by simp at e2)⟩, fun e => (by rw [e] at he; cases he)⟩
      show rescanAll env l (m :: ms) s = .fail _
      rw [rescanAll]
      simp only [List.map_nil, List.append_nil]
      exact bind_fail.2 (.inl h)

theorem compare4D_comm (a b : Node4D) : (compare4D a b == 0) = (compare4D b a == 0) := by
  rw [compare4D_antisymm b a]
  by_cases h : compare4D b a = 0
  · simp [h]
  · rw [beq_eq_false_iff_ne.2 h, beq_eq_false_iff_ne.2 (by omega)]

theorem nodeIdx_iff (cfg : Config) (d : Node4D) (k : Nat) : (cfg.nodes.findIdx? fun n => compare4D n.node d == 0) = some k ↔ AddrOf cfg d k := by
  rw [← findNode_addrOf]
  simp only [compare4D_comm]

theorem findArea_of_tagOf {cfg : Config} {tag : Str} {i : Nat} {a : Area} (h : TagOf cfg tag i) (ha : cfg.areas[i]? = some a) : cfg.findArea a.tag = some i := by
  obtain ⟨a', h1, h2, h3⟩ := h
  rw [ha] at h1; cases h1
  have e : (fun x : Area => eqi x.tag a.tag) = fun x => eqi tag x.tag := by
    funext x
    rw [Bool.eq_iff_iff, eqi_iff, eqi_iff, (eqi_iff _ _).1 h2]
    exact eq_comm
  unfold Config.findArea
  rw [e, findArea_tagOf]
  exact ⟨a, ha, h2, h3⟩

end CM
