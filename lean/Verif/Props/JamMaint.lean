import Verif.Lemmas.JamMaint
import Verif.Lemmas.Disk
import Verif.Lemmas.Play
import Verif.Props.JamIndex
/-! # Maintenance of JAM message bases -/

set_option linter.unusedSimpArgs false

namespace CM

/-- What becomes of a slot that is copied to number `start + i`. -/
def SlotCopied (start : UInt32) (i : Nat) (o o' : Option JamMsg) : Prop :=
  if slotLive o then ∃ m m', o = some m ∧ o' = some m' ∧ AddedMsg start i m.hdr m.subs m.text m' else o' = none

def Copied (start : UInt32) : Nat → List (Option JamMsg) → List (Option JamMsg) → Prop
  | _, [], r => r = []
  | i, o :: t, r => ∃ o' r', r = o' :: r' ∧ SlotCopied start i o o' ∧ Copied start (i + 1) t r'

theorem Copied.length {start : UInt32} : ∀ {t r : List (Option JamMsg)} {i : Nat}, Copied start i t r → r.length = t.length
  | [], _, _, h => by rw [show _ = [] from h]
  | _ :: _, _, _, ⟨_, _, e, _, h⟩ => by rw [e, List.length_cons, List.length_cons, h.length]

theorem Copied.get {start : UInt32} : ∀ {t r : List (Option JamMsg)} {i : Nat}, Copied start i t r → ∀ {j : Nat} {o}, t[j]? = some o →
    ∃ o', r[j]? = some o' ∧ SlotCopied start (i + j) o o'
  | [], _, _, _, j, o, ho => by simp at ho
  | x :: t, _, i, ⟨o', r', e, h1, h2⟩, j, o, ho => by
    subst e
    cases j with
    | zero =>
      simp only [List.getElem?_cons_zero, Option.some.injEq] at ho
      subst ho
      exact ⟨o', rfl, h1⟩
    | succ j =>
      rw [List.getElem?_cons_succ] at ho
      obtain ⟨y, hy1, hy2⟩ := h2.get ho
      exact ⟨y, by rw [List.getElem?_cons_succ]; exact hy1, by rw [show i + (j + 1) = i + 1 + j by omega]; exact hy2⟩

/-- The space that messages need. -/
def hdrNeed (t : List (Option JamMsg)) : Nat := (t.map (fun o => (o.map JamMsg.size).getD 0)).sum
def txtNeed (t : List (Option JamMsg)) : Nat := (t.map (fun o => (o.map (·.text.length)).getD 0)).sum

theorem hdrNeed_cons (o t) : hdrNeed (o :: t) = (o.map JamMsg.size).getD 0 + hdrNeed t := rfl
theorem txtNeed_cons (o t) : txtNeed (o :: t) = (o.map (·.text.length)).getD 0 + txtNeed t := rfl

/-- Copying one message. -/
theorem jam_copy_one (e : JamEnv) {b new : JamBase} {start start' : UInt32} {ms ms' : List (Option JamMsg)} {H : JamBaseHdr} (hb : JamHolds b start ms)
    (hw : Working new H start' ms') {n : UInt32} {m : JamMsg} (hm : ms[n.toNat]? = some (some m)) (hd : m.dead = false) (hi : CanIndex e m.subs)
    (h1 : new.hdr.length + m.size < 2 ^ 32) (h2 : new.txt.length + m.text.length < 2 ^ 32) (h3 : ms'.length + 1 < 2 ^ 32) :
    ∃ new' m' h' , jamReadHdr b n = .ok (.ok (m.hdr, m.subs)) ∧ jamReadText b m.hdr.txtOffset m.hdr.txtLen = .ok m.text ∧
      jamAdd e new m.hdr m.subs m.text = .ok (.ok (new', h')) ∧ AddedMsg start' ms'.length m.hdr m.subs m.text m' ∧
      Working new' { H with active := H.active + 1 } start' (ms' ++ [some m']) ∧
      new'.hdr.length = new.hdr.length + m.size ∧ new'.txt.length = new.txt.length + m.text.length := by
  have hg := jam_get hb n
  rw [hm, jamGet] at hg
  have hsub : subBytes m.subs < 2 ^ 31 := by
    obtain ⟨off, hb⟩ := hb
    exact (hb.there _ _ hm).2.subMax
  have hsz : m.size = 76 + subBytes m.subs := rfl
  obtain ⟨new', m', a1, a2, a3, a4, a5, a6⟩ := jam_add e hw.holds hw.locked m.hdr m.subs m.text hi hsub (by omega) h2 h3
  match hr : jamReadHdr b n with
  | .error u => rw [hr] at hg; cases hg
  | .ok (.error r) => rw [hr] at hg; cases hg
  | .ok (.ok (h, subs)) =>
    rw [hr] at hg
    match ht : jamReadText b h.txtOffset h.txtLen with
    | .error r =>
      simp only [bind, Except.bind, pure, Except.pure, ht] at hg
      cases hg
    | .ok text =>
      simp only [bind, Except.bind, pure, Except.pure, ht, Except.ok.injEq] at hg
      subst hg
      refine ⟨new', m', m'.hdr, rfl, ht, a1, a2, ⟨a3, a4, ?_, hw.base, hw.res⟩, by omega, a6⟩
      have hdead : slotLive (some m') = true := by
        have : m'.hdr.attr = h.attr := by rw [a2.hdr]
        show (!decide (2 ^ 31 ≤ m'.hdr.attr.toNat)) = true
        rw [this]
        show (!(JamMsg.dead ⟨h, subs, text⟩)) = true
        rw [hd]; rfl
      have hle := jamActive_le ms'
      rw [jamActive_append, slotCount_live, hdead, if_pos rfl]
      show (H.active + 1).toNat = _
      exact u32_succ hw.active (by omega)

theorem jamCopy_more (e : JamEnv) {b : JamBase} {start start' : UInt32} {ms : List (Option JamMsg)} (hb : JamHolds b start ms) :
    ∀ (t pre : List (Option JamMsg)) (n : UInt32) (new : JamBase) (H : JamBaseHdr) (ms' : List (Option JamMsg)), ms = pre ++ t → n.toNat = pre.length →
    Working new H start' ms' → (∀ m, some m ∈ t → m.dead = false → CanIndex e m.subs) → new.hdr.length + hdrNeed t < 2 ^ 32 →
    new.txt.length + txtNeed t < 2 ^ 32 → ms'.length ≤ pre.length →
    ∃ new' H' r, jamCopy e b t.length n new H true = .ok (.ok (new', H')) ∧ Working new' H' start' (ms' ++ r) ∧ Copied start' ms'.length t r ∧ SameBase H H' := by
  intro t
  induction t with
  | nil => intro pre n new H ms' _ _ hw _ _ _ _; exact ⟨new, H, [], rfl, by simpa using hw, rfl, .refl _⟩
  | cons o t ih =>
    intro pre n new H ms' hms hn hw hi h1 h2 hl
    have hfew : (pre ++ o :: t).length < 2 ^ 32 := by rw [← hms]; exact hb.elim fun _ h => h.few
    have hlen : pre.length + (t.length + 1) < 2 ^ 32 := by simpa using hfew
    have hget : ms[n.toNat]? = some o := by rw [hms, hn]; simp
    have hn1 : (n + 1).toNat = (pre ++ [o]).length := by rw [u32_succ hn (by omega)]; simp
    have happ : ms = (pre ++ [o]) ++ t := by rw [hms]; simp
    have hi' := fun m hm => hi m (List.mem_cons_of_mem _ hm)
    rw [hdrNeed_cons] at h1
    rw [txtNeed_cons] at h2
    rw [List.length_cons, jamCopy, jam_head hb n, hget]
    have hskip : slotLive o = false → ∃ new' H' r, jamCopy e b t.length (n + 1) (jamSkip e new H true).1 (jamSkip e new H true).2 true = .ok (.ok (new', H')) ∧
        Working new' H' start' (ms' ++ r) ∧ Copied start' ms'.length (o :: t) r ∧ SameBase H H' := fun hlv => by
      obtain ⟨n1, a1, a2, a3, a4, a5⟩ := jam_add_empty e hw.holds hw.locked (by omega)
      have es : jamSkip e new H true = (n1, H) := by rw [jamSkip, if_pos rfl, a1]; rfl
      rw [es]
      obtain ⟨new', H', r, r1, r2, r3, r4⟩ := ih (pre ++ [o]) (n + 1) n1 H (ms' ++ [none]) happ hn1
        ⟨a2, a3, by rw [jamActive_append]; exact hw.active, hw.base, hw.res⟩ hi' (by rw [a4]; omega) (by rw [a5]; omega) (by simp; omega)
      refine ⟨new', H', none :: r, r1, by simpa using r2, ⟨none, r, rfl, ?_, by simpa using r3⟩, r4⟩
      rw [SlotCopied, if_neg (by simp [hlv])]
    cases o with
    | none => exact hskip rfl
    | some m =>
      dsimp only
      by_cases hd : m.dead = true
      · rw [if_pos (by rw [jamDeleted_iff]; exact hd)]
        exact hskip (by rw [slotLive_some, hd]; rfl)
      · have hd' : m.dead = false := by simpa using hd
        rw [if_neg (by rw [jamDeleted_iff]; exact hd), jamFirst, if_pos rfl]
        dsimp only
        simp only [Option.map_some, Option.getD_some] at h1 h2
        obtain ⟨n1, m', h', c1, c2, c3, c4, c5, c6, c7⟩ := jam_copy_one e hb hw hget hd' (hi m (List.mem_cons_self ..) hd') (by omega) (by omega) (by omega)
        simp only [c1, c2, c3]
        obtain ⟨new', H', r, r1, r2, r3, r4⟩ := ih (pre ++ [some m]) (n + 1) n1 _ (ms' ++ [some m']) happ hn1 c5 hi' (by omega) (by omega) (by simp; omega)
        refine ⟨new', H', some m' :: r, r1, by simpa using r2, ⟨some m', r, rfl, ?_, by simpa using r3⟩, r4⟩
        rw [SlotCopied, if_pos (by rw [slotLive_some, hd']; rfl)]
        exact ⟨m, m', rfl, rfl, c4⟩

theorem u32_add_assoc_one (start : UInt32) (k : Nat) : start + UInt32.ofNat k + 1 = start + UInt32.ofNat (k + 1) := by
  rw [UInt32.add_assoc, ← UInt32.ofNat_one, ← UInt32.ofNat_add]

theorem jamCopy_ok (e : JamEnv) {b : JamBase} {start : UInt32} {ms : List (Option JamMsg)} (hb : JamHolds b start ms) {new : JamBase} {any : UInt32}
    (hnew : JamHolds new any []) (hl : new.locked = true) (h0 : new.hdr.length = 1024) (ht : new.txt.length = 0) :
    ∀ (t pre : List (Option JamMsg)) (n : UInt32) (H : JamBaseHdr), ms = pre ++ t → n.toNat = pre.length →
    (∀ o ∈ pre, slotLive o = false) → H.baseNum = start + UInt32.ofNat pre.length → H.active = 0 → H.reserved.length = 1000 →
    (∀ m, some m ∈ t → m.dead = false → CanIndex e m.subs) → 1024 + hdrNeed t < 2 ^ 32 → txtNeed t < 2 ^ 32 →
    ∃ new' H' st' r k, jamCopy e b t.length n new H false = .ok (.ok (new', H')) ∧ SameBase H H' ∧ JamHolds new' (if r = [] then any else H'.baseNum) r ∧
      new'.locked = true ∧ H'.active.toNat = jamActive r ∧ H'.reserved.length = 1000 ∧ H'.baseNum = st' ∧ st' = start + UInt32.ofNat k ∧ k ≤ ms.length ∧
      (∀ o ∈ ms.take k, slotLive o = false) ∧ Copied st' 0 (ms.drop k) r ∧ r[0]? ≠ some none := by
  intro t
  induction t with
  | nil =>
    intro pre n H hms hn hp hs ha hr _ _ _
    rw [List.append_nil] at hms
    refine ⟨new, H, _, [], pre.length, rfl, .refl _, hnew, hl, by rw [ha]; rfl, hr, hs, rfl, by rw [hms]; omega, ?_, ?_, by simp⟩
    · rw [hms, List.take_length]; exact hp
    · rw [hms, List.drop_length]; rfl
  | cons o t ih =>
    intro pre n H hms hn hp hs ha hr hi h1 h2
    have hfew : (pre ++ o :: t).length < 2 ^ 32 := by rw [← hms]; exact hb.elim fun _ h => h.few
    have hlen : pre.length + (t.length + 1) < 2 ^ 32 := by simpa using hfew
    have hget : ms[n.toNat]? = some o := by rw [hms, hn]; simp
    have hn1 : (n + 1).toNat = (pre ++ [o]).length := by rw [u32_succ hn (by omega)]; simp
    have happ : ms = (pre ++ [o]) ++ t := by rw [hms]; simp
    have hi' := fun m hm => hi m (List.mem_cons_of_mem _ hm)
    rw [hdrNeed_cons] at h1
    rw [txtNeed_cons] at h2
    rw [List.length_cons, jamCopy, jam_head hb n, hget]
    have hskip : slotLive o = false → _ := fun hlv =>
      ih (pre ++ [o]) (n + 1) { H with baseNum := H.baseNum + 1 } happ hn1
        (fun x hx => (List.mem_append.1 hx).elim (hp x) fun h => by rw [List.mem_singleton.1 h]; exact hlv)
        (by show H.baseNum + 1 = _; rw [hs, u32_add_assoc_one]; simp) ha hr hi' (by omega) (by omega)
    have es : jamSkip e new H false = (new, { H with baseNum := H.baseNum + 1 }) := rfl
    rw [es]
    cases o with
    | none => exact hskip rfl
    | some m =>
      dsimp only
      by_cases hd : m.dead = true
      · rw [if_pos (by rw [jamDeleted_iff]; exact hd)]
        exact hskip (by rw [slotLive_some, hd]; rfl)
      · have hd' : m.dead = false := by simpa using hd
        obtain ⟨n0, b1, b2, b3, b4, b5, b6⟩ := jam_rebase e hnew hl H hr (by rw [ha]; rfl)
        rw [if_neg (by rw [jamDeleted_iff]; exact hd), jamFirst, if_neg (by simp), b1]
        dsimp only
        simp only [Option.map_some, Option.getD_some] at h1 h2
        have hw : Working n0 { H with sig := jamSig, modCounter := H.modCounter + 1 } H.baseNum [] :=
          ⟨b2, b3, by show H.active.toNat = _; rw [ha]; rfl, rfl, hr⟩
        have htx : n0.txt.length = 0 := by rw [b5]; exact ht
        obtain ⟨n1, m', h', c1, c2, c3, c4, c5, c6, c7⟩ := jam_copy_one e hb hw hget hd' (hi m (List.mem_cons_self ..) hd') (by omega) (by omega) (by simp)
        simp only [c1, c2, c3]
        obtain ⟨new', H', r, r1, r2, r3, r4⟩ := jamCopy_more e hb t (pre ++ [some m]) (n + 1) n1 _ ([] ++ [some m']) happ hn1 c5 hi' (by omega) (by omega) (by simp)
        have hbase := r2.base
        refine ⟨new', H', H.baseNum, some m' :: r, pre.length, r1, ⟨r4.1, r4.2.1, r4.2.2⟩, ?_, r2.locked, by simpa using r2.active, r2.res, r2.base, hs, by rw [hms]; simp, ?_, ?_, by simp⟩
        · rw [if_neg (by simp), r2.base]; simpa using r2.holds
        · rw [hms, List.take_left]; exact hp
        · rw [hms, List.drop_left]
          refine ⟨some m', r, rfl, ?_, by simpa using r3⟩
          rw [SlotCopied, if_pos (by rw [slotLive_some, hd']; rfl)]
          exact ⟨m, m', rfl, rfl, c4⟩

/-- Packing a base: no live message is lost, and each has the number it had. -/
theorem jam_pack_partial (e : JamEnv) (now : UInt32) {b : JamBase} {H : JamBaseHdr} {start : UInt32} {ms : List (Option JamMsg)} (h : Working b H start ms)
    (hc : CanPack e ms) : ∃ new start' ms' H', jamPack e now b H (jamSize b) = .ok (.ok new) ∧ JamHolds new start' ms' ∧ JamPacked start ms start' ms' ∧
      jamReadBase new = .ok H' ∧ SameBase H H' := by
  obtain ⟨n0, c1, c2⟩ := jam_create e now 1
  have hsz : (jamSize b).toNat = ms.length := by
    obtain ⟨_, _, _, _, h4⟩ := jam_count h.holds
    exact h4
  have hn0 : n0.hdr.length = 1024 ∧ n0.txt.length = 0 := by
    have hB := JamBaseHdr.layout_bytes (e.junk 1024) (e.size _)
      { sig := jamSig, created := now, modCounter := 0 + 1, active := 0, pwCrc := 0xffffffff, baseNum := 1, reserved := List.replicate 1000 0 }
      List.length_replicate
    injection c1 with c1
    rw [← c1]
    refine ⟨?_, rfl⟩
    show (overlay [] 0 _).length = _
    simp only [overlay, List.take_nil, List.drop_nil, List.nil_append, List.append_nil]
    exact hB.size
  have hlk : JamHolds { n0 with locked := true } 1 [] := by
    obtain ⟨off, h⟩ := c2
    exact ⟨off, h.base, h.len, h.few, h.gone, fun i m hi => by simp at hi, h.apart⟩
  obtain ⟨new', H', st', r, k, r1, r2, r3, r4, r5, r6, r7, r8, r9, r10, r11, r12⟩ := jamCopy_ok e h.holds hlk rfl hn0.1 hn0.2 ms [] 0 { H with active := 0 }
    rfl rfl (by simp) (by show H.baseNum = _; rw [h.base]; simp) rfl h.res hc.index hc.hdr hc.txt
  obtain ⟨b', w1, w2, w3, w4, w5, w6⟩ := jam_rebase e r3 r4 { H' with modCounter := H'.modCounter + 1 } r6 r5
  refine ⟨b', st', r, _, ?_, ?_, ⟨⟨k, ?_, r8, r10, ?_, ?_⟩, r12⟩, w6, ⟨r2.1, r2.2.1, r2.2.2⟩⟩
  · rw [jamPack, c1]
    simp only [hsz, r1, w1]
  · rw [← r7]; exact w2
  · rw [r11.length, List.length_drop]; omega
  · intro i
    constructor
    · intro hx
      have hlt : i < (ms.drop k).length := by rw [← r11.length]; exact (List.getElem?_eq_some_iff.1 hx).1
      obtain ⟨o', ho1, ho2⟩ := r11.get (List.getElem?_eq_getElem hlt)
      rw [hx] at ho1
      refine ⟨(ms.drop k)[i], by rw [← List.getElem?_drop]; exact List.getElem?_eq_getElem hlt, ?_⟩
      cases hv : slotLive (ms.drop k)[i] with
      | false => rfl
      | true =>
        rw [SlotCopied, hv, if_pos rfl] at ho2
        obtain ⟨_, m', _, e2, _⟩ := ho2
        rw [e2] at ho1; cases ho1
    · intro ⟨o, ho, hv⟩
      rw [← List.getElem?_drop] at ho
      obtain ⟨o', ho1, ho2⟩ := r11.get ho
      rw [SlotCopied, hv, if_neg (by simp)] at ho2
      rw [ho1, ho2]
  · intro i m hm hd
    rw [← List.getElem?_drop] at hm
    obtain ⟨o', ho1, ho2⟩ := r11.get hm
    rw [SlotCopied, if_pos (by rw [slotLive_some, hd]; rfl)] at ho2
    obtain ⟨m1, m', e1, e2, ha⟩ := ho2
    injection e1 with e1
    subst e1
    exact ⟨m', by rw [ho1, e2], by simpa using ha⟩

/-! ## Limits -/

/-- Limiting the number of messages leaves `keep` of them, or all. -/
theorem limit_count (keep : Nat) (ms : List (Option JamMsg)) : jamActive (limitTo keep ms) = min keep (jamActive ms) := by
  induction ms with
  | nil => rw [limitTo]; show 0 = min keep 0; omega
  | cons o t ih =>
    rw [limitTo, jamActive_cons, jamActive_cons, ih, slotCount_live, slotCount_live]
    by_cases h1 : slotLive o = true
    · by_cases h2 : keep ≤ jamActive t
      · rw [if_pos (show slotLive o = true ∧ keep ≤ jamActive t from ⟨h1, h2⟩), slotMark_dead, if_pos h1, if_neg (by simp)]; omega
      · rw [if_neg (show ¬ (slotLive o = true ∧ keep ≤ jamActive t) from fun h => h2 h.2), if_pos h1]; omega
    · rw [if_neg (show ¬ (slotLive o = true ∧ keep ≤ jamActive t) from fun h => h1 h.1), if_neg h1]; omega

/-- Exactly the messages are deleted that have `keep` or more newer ones; nothing else changes. -/
theorem limit_get (keep : Nat) (ms : List (Option JamMsg)) (i : Nat) {o : Option JamMsg} (h : ms[i]? = some o) :
    (limitTo keep ms)[i]? = some (if slotLive o ∧ keep ≤ jamActive (ms.drop (i + 1)) then slotMark o else o) := by
  induction ms generalizing i with
  | nil => simp at h
  | cons x t ih =>
    rw [limitTo]
    cases i with
    | zero =>
      simp only [List.getElem?_cons_zero, Option.some.injEq] at h
      subst h
      simp
    | succ i =>
      rw [List.getElem?_cons_succ] at h ⊢
      rw [ih i h]; simp

/-- For messages that are not of the future, "too old" means what it says. -/
theorem tooOld_past {today keep : UInt32} {d : Nat} (h : d ≤ today.toNat) : tooOld today keep d = true ↔ keep.toNat + d < today.toNat := by
  have := today.toNat_lt
  rw [tooOld, decide_eq_true_eq, show today.toNat + 2 ^ 32 - d = (today.toNat - d) + 2 ^ 32 by omega, Nat.add_mod_right, Nat.mod_eq_of_lt (by omega)]
  omega

/-- Messages of the future are deleted as if they were old (unless the limit is huge). -/
theorem tooOld_future {today keep : UInt32} {d : Nat} (h : today.toNat < d) (hk : d + keep.toNat < 2 ^ 32) : tooOld today keep d = true := by
  rw [tooOld, decide_eq_true_eq, Nat.mod_eq_of_lt (by omega)]
  omega

/-- The messages of a base after `ProcessAreaJAM` has deleted what is too much and too old. -/
def maintained (o : JamMaintOpt) (today : UInt32) (ms : List (Option JamMsg)) : List (Option JamMsg) :=
  let ms := if o.maint = true ∧ o.keepNum ≠ 0 then limitTo o.keepNum.toNat ms else ms
  if o.maint = true ∧ o.keepDays ≠ 0 then expire (tooOld today o.keepDays) ms else ms

theorem limitTo_length (keep : Nat) (ms : List (Option JamMsg)) : (limitTo keep ms).length = ms.length := by
  induction ms with
  | nil => rfl
  | cons o t ih => rw [limitTo, List.length_cons, List.length_cons, ih]

/-- Maintenance of a base: exactly the surplus of the oldest messages and the messages that are too old are marked as
deleted; and if the base is packed, the new base holds all the others under their numbers. -/
theorem jam_maint_partial (e : JamEnv) (o : JamMaintOpt) (now today : UInt32) {b : JamBase} {start : UInt32} {ms : List (Option JamMsg)} (hb : JamHolds b start ms)
    (hl : b.locked = true) (hne : ms ≠ []) (hc : o.pack = true → CanPack e (maintained o today ms)) :
    ∃ b' r, jamMaint e o now today b = .ok (b', r) ∧ JamHolds b' start (maintained o today ms) ∧
      (o.pack = false → r = none) ∧ (o.pack = true → ∃ new start' ms', r = some new ∧ JamHolds new start' ms' ∧ JamPacked start (maintained o today ms) start' ms') := by
  obtain ⟨H, h1, h2, h3, h4⟩ := jam_count hb
  have hres : H.reserved.length = 1000 := by
    obtain ⟨off, hb⟩ := hb
    obtain ⟨H', p1, _, _, p4, _⟩ := hb.readBase
    rw [h1] at p1
    injection p1 with p1
    rw [p1]; exact p4
  have hw : Working b H start ms := ⟨hb, hl, h2, h3, hres⟩
  have hsz : ¬ jamSize b = 0 := fun hh => by
    rw [hh] at h4
    exact hne (List.eq_nil_of_length_eq_zero h4.symm)
  rw [jamMaint, h1]
  simp only [if_neg hsz, h4]
  have hk := jamKeepNum_ok e o.keepNum ms [] 0 b H (by simpa using hw) rfl rfl
  simp only [List.nil_append] at hk
  generalize hr1 : (if (o.maint && o.keepNum != 0) = true then jamKeepNum e o.keepNum ms.length 0 b H H.active else (b, H)) = r1
  have hw1 : Working r1.1 r1.2 start (if o.maint = true ∧ o.keepNum ≠ 0 then limitTo o.keepNum.toNat ms else ms) := by
    rw [← hr1]
    by_cases hm : o.maint = true ∧ o.keepNum ≠ 0
    · rw [if_pos hm, if_pos (by simpa using hm)]; exact hk.1
    · rw [if_neg hm, if_neg (by simpa using hm)]; exact hw
  generalize hms1 : (if o.maint = true ∧ o.keepNum ≠ 0 then limitTo o.keepNum.toNat ms else ms) = ms1 at hw1
  have hlen : ms1.length = ms.length := by
    rw [← hms1]; split
    · exact limitTo_length _ _
    · rfl
  have hd := jamKeepDays_ok e today o.keepDays ms1 [] 0 r1.1 r1.2 (by simpa using hw1) rfl
  simp only [List.nil_append, hlen] at hd
  generalize hr2 : (if (o.maint && o.keepDays != 0) = true then jamKeepDays e today o.keepDays ms.length 0 r1.1 r1.2 else r1) = r2
  have hM : maintained o today ms = if o.maint = true ∧ o.keepDays ≠ 0 then expire (tooOld today o.keepDays) ms1 else ms1 := by
    rw [maintained, hms1]
  have hw2 : Working r2.1 r2.2 start (maintained o today ms) := by
    rw [← hr2, hM]
    by_cases hm : o.maint = true ∧ o.keepDays ≠ 0
    · rw [if_pos hm, if_pos (by simpa using hm)]; exact hd.1
    · rw [if_neg hm, if_neg (by simpa using hm)]; exact hw1
  cases hp : o.pack with
  | false =>
    simp only [Bool.false_eq_true, if_false]
    exact ⟨_, _, rfl, hw2.holds, fun _ => rfl, fun h => by cases h⟩
  | true =>
    simp only [if_true]
    obtain ⟨new, st, ms', H', p1, p2, p3, p4, p5⟩ := jam_pack_partial e now hw2 (hc hp)
    have hs2 : jamSize r2.1 = jamSize b := by
      obtain ⟨_, _, _, _, q⟩ := jam_count hw2.holds
      refine UInt32.toNat_inj.1 ?_
      rw [q, h4, hM]
      split
      · rw [expire, List.length_map, hlen]
      · exact hlen
    rw [hs2] at p1
    rw [p1]
    exact ⟨_, _, rfl, hw2.holds, (fun h => by cases h), fun _ => ⟨new, st, ms', rfl, p2, p3⟩⟩

/-! ## Replacing the files -/

/-- The new contents of a file are complete under one of two names. -/
def Saved (fs : FS) (old tmp : Str) (d : Data) : Prop := fs tmp = some d ∨ fs old = some d

theorem jamReplace_through (w : World) (I : FS → Prop) (fs : FS) (old tmp : Str) (d : Data) (hne : tmp ≠ old) (ht : fs tmp = some d)
    (h0 : I fs) (h1 : I (fs.put old none)) (h2 : I ((fs.put tmp none).put old (some d))) :
    Through w I (fun r fs' => (r.1 = true ∧ r.2 = true → fs' = (fs.put tmp none).put old (some d)) ∧
      (¬ (r.1 = true ∧ r.2 = true) → fs' = fs ∨ fs' = fs.put old none ∨ fs' = (fs.put tmp none).put old (some d))) (jamReplace old tmp) fs := by
  unfold jamReplace
  simp only [Prog.bind_eq, osRename, Prog.bind, osDelete, Prog.pure_eq]
  refine .delete h0 (fun x hx => ?_) (fun _ => ?_)
  · have e : ((fs.put old none).put tmp none).put old (some d) = (fs.put tmp none).put old (some d) := by
      funext g
      simp only [FS.put]
      by_cases ho : g = old <;> simp [ho]
    refine .rename h1 (fun x hx => ?_) (fun _ => ?_)
    · rw [FS.put_ne _ hne, ht] at hx
      cases hx
      rw [e]
      exact .ret h2 ⟨fun _ => rfl, fun h => absurd ⟨rfl, rfl⟩ h⟩
    · exact .ret h1 ⟨(fun h => by cases h.2), fun _ => .inr (.inl rfl)⟩
  · refine .rename h0 (fun x hx => ?_) (fun _ => ?_)
    · rw [ht] at hx
      cases hx
      exact .ret h2 ⟨(fun h => by cases h.1), fun _ => .inr (.inr rfl)⟩
    · exact .ret h0 ⟨(fun h => by cases h.1), fun _ => .inl rfl⟩

/-- The parts of a base that packing replaces. -/
def jamParts : List Str := [b!".jhr", b!".jdt", b!".jdx"]

/-- All along, the new contents of each part exist under the temporary or under the final name, and no other file is
touched but the temporary last-read file. -/
def Swapping (path : Str) (fs fs' : FS) : Prop :=
  (∀ x ∈ jamParts, ∀ d, fs (path ++ b!".cmtemp" ++ x) = some d → fs' (path ++ b!".cmtemp" ++ x) = some d ∨ fs' (path ++ x) = some d) ∧
  ∀ g, (∀ x ∈ jamParts, g ≠ path ++ x ∧ g ≠ path ++ b!".cmtemp" ++ x) → g ≠ path ++ b!".cmtemp" ++ b!".jlr" → fs' g = fs g

/-- The parts are in place. -/
def Swapped (path : Str) (fs fs' : FS) : Prop :=
  ∀ x ∈ jamParts, fs' (path ++ x) = fs (path ++ b!".cmtemp" ++ x) ∧ fs' (path ++ b!".cmtemp" ++ x) = none

theorem parts_apart {x y : Str} (hx : x ∈ jamParts) (hy : y ∈ jamParts) (path : Str) :
    path ++ x ≠ path ++ b!".cmtemp" ++ y ∧ (x ≠ y → path ++ x ≠ path ++ y ∧ path ++ b!".cmtemp" ++ x ≠ path ++ b!".cmtemp" ++ y) := by
  refine ⟨fun h => ?_, fun h => ⟨fun hh => h (List.append_cancel_left hh), fun hh => h (List.append_cancel_left hh)⟩⟩
  rw [List.append_assoc] at h
  replace h := List.append_cancel_left h
  have k : ∀ x ∈ jamParts, ∀ y ∈ jamParts, x ≠ b!".cmtemp" ++ y := by decide
  exact k x hx y hy h

theorem Swapping.drop {path : Str} {fs f : FS} (h : Swapping path fs f) {x : Str} (hx : x ∈ jamParts) {d : Data}
    (h1 : f (path ++ b!".cmtemp" ++ x) = some d) (h2 : fs (path ++ b!".cmtemp" ++ x) = some d) : Swapping path fs (f.put (path ++ x) none) := by
  refine ⟨fun y hy d' hd' => ?_, fun g hg hg2 => ?_⟩
  · rw [FS.put_ne _ (Ne.symm (parts_apart hx hy path).1)]
    by_cases hxy : x = y
    · subst hxy
      rw [h2] at hd'
      exact .inl (h1.trans hd')
    · rw [FS.put_ne _ (Ne.symm ((parts_apart hx hy path).2 hxy).1)]
      exact h.1 y hy d' hd'
  · rw [FS.put_ne _ (hg x hx).1]
    exact h.2 g hg hg2

theorem Swapping.move {path : Str} {fs f : FS} (h : Swapping path fs f) {x : Str} (hx : x ∈ jamParts) {d : Data}
    (h2 : fs (path ++ b!".cmtemp" ++ x) = some d) : Swapping path fs ((f.put (path ++ b!".cmtemp" ++ x) none).put (path ++ x) (some d)) := by
  refine ⟨fun y hy d' hd' => ?_, fun g hg hg2 => ?_⟩
  · by_cases hxy : x = y
    · subst hxy
      rw [FS.put_self]
      rw [h2] at hd'
      exact .inr hd'
    · have a := (parts_apart hx hy path).2 hxy
      rw [FS.put_ne _ (Ne.symm (parts_apart hx hy path).1), FS.put_ne _ (Ne.symm a.2), FS.put_ne _ (Ne.symm a.1), FS.put_ne _ (parts_apart hy hx path).1]
      exact h.1 y hy d' hd'
  · rw [FS.put_ne _ (hg x hx).1, FS.put_ne _ (hg x hx).2]
    exact h.2 g hg hg2

/-- The part `x` is in place; or still waits. -/
def InPlace (path : Str) (fs f : FS) (x : Str) : Prop := f (path ++ x) = fs (path ++ b!".cmtemp" ++ x) ∧ f (path ++ b!".cmtemp" ++ x) = none
def ToDo (path : Str) (fs f : FS) (x : Str) : Prop := f (path ++ b!".cmtemp" ++ x) = fs (path ++ b!".cmtemp" ++ x)

theorem jam_swap_one (w : World) {path : Str} {fs f : FS} (h : Swapping path fs f) {x : Str} (hx : x ∈ jamParts) (h1 : ToDo path fs f x)
    (h2 : fs (path ++ b!".cmtemp" ++ x) ≠ none) :
    Through w (Swapping path fs) (fun r f' => Swapping path fs f' ∧ (r.1 = true ∧ r.2 = true → InPlace path fs f' x ∧
        ∀ y ∈ jamParts, y ≠ x → (InPlace path fs f y → InPlace path fs f' y) ∧ (ToDo path fs f y → ToDo path fs f' y)))
      (jamReplace (path ++ x) (path ++ b!".cmtemp" ++ x)) f := by
  obtain ⟨d, e⟩ := Option.ne_none_iff_exists'.1 h2
  have h1 : f (path ++ b!".cmtemp" ++ x) = fs (path ++ b!".cmtemp" ++ x) := h1
  have a := h.drop hx (h1.trans e) e
  have c := h.move hx e
  refine (jamReplace_through w (Swapping path fs) f _ _ d (Ne.symm (parts_apart hx hx path).1) (h1.trans e) h a c).mono (fun _ h => h) (fun r f' _ hr => ⟨?_, fun hh => ?_⟩)
  · by_cases hh : r.1 = true ∧ r.2 = true
    · rw [hr.1 hh]; exact c
    · rcases hr.2 hh with q | q | q <;> rw [q] <;> assumption
  · rw [hr.1 hh]
    refine ⟨⟨?_, ?_⟩, fun y hy hne => ?_⟩
    · rw [FS.put_self, e]
    · rw [FS.put_ne _ (Ne.symm (parts_apart hx hx path).1), FS.put_self]
    · have p1 := (parts_apart hx hy path).1
      have p2 := (parts_apart hy hx path)
      have p3 := p2.2 hne
      simp only [InPlace, ToDo, FS.put_ne _ p1.symm, FS.put_ne _ p2.1, FS.put_ne _ p3.1, FS.put_ne _ p3.2]
      exact ⟨id, id⟩

/-- Replacing the files of a base by those of the packed one, stopped anywhere or with any operation failing: nothing of
the new base is lost, and if success is reported then the new base is in place. -/
theorem jam_swap (w : World) (path : Str) (fs : FS) (h : ∀ x ∈ jamParts, fs (path ++ b!".cmtemp" ++ x) ≠ none) :
    Through w (Swapping path fs) (fun r fs' => r = true → Swapped path fs fs') (jamSwap path) fs := by
  have m1 : b!".jhr" ∈ jamParts := by decide
  have m2 : b!".jdt" ∈ jamParts := by decide
  have m3 : b!".jdx" ∈ jamParts := by decide
  have h0 : Swapping path fs fs := ⟨fun x _ d hd => .inl hd, fun _ _ _ => rfl⟩
  unfold jamSwap
  simp only [Prog.bind_eq, Prog.pure_eq]
  refine (jam_swap_one w h0 m1 rfl (h _ m1)).bind (fun r f1 _ hr => ?_)
  split
  next hc =>
    obtain ⟨a1, b1⟩ := hr.2 (by simpa using hc)
    refine (jam_swap_one w hr.1 m2 ((b1 _ m2 (by decide)).2 rfl) (h _ m2)).bind (fun r f2 _ hr => ?_)
    split
    next hc =>
      obtain ⟨a2, b2⟩ := hr.2 (by simpa using hc)
      refine (jam_swap_one w hr.1 m3 ((b2 _ m3 (by decide)).2 ((b1 _ m3 (by decide)).2 rfl)) (h _ m3)).bind (fun r f3 _ hr => ?_)
      split
      next hc =>
        obtain ⟨a3, b3⟩ := hr.2 (by simpa using hc)
        have k1 := (b3 _ m1 (by decide)).1 ((b2 _ m1 (by decide)).1 a1)
        have k2 := (b3 _ m2 (by decide)).1 a2
        have hS : ∀ x ∈ jamParts, InPlace path fs f3 x := by
          intro x hx
          simp only [jamParts, List.mem_cons, List.not_mem_nil, or_false] at hx
          rcases hx with rfl | rfl | rfl <;> assumption
        have hd : ∀ x ∈ jamParts, path ++ x ≠ path ++ b!".cmtemp" ++ b!".jlr" ∧ path ++ b!".cmtemp" ++ x ≠ path ++ b!".cmtemp" ++ b!".jlr" := by
          intro x hx
          simp only [List.append_assoc, ne_eq, List.append_cancel_left_eq]
          revert x
          decide
        refine .delete hr.1 (fun x _ => .ret ⟨fun x hx d hd' => ?_, fun g hg hg2 => ?_⟩ (fun _ x hx => ?_)) (fun _ => .ret hr.1 (fun h => by cases h))
        · rw [FS.put_ne _ (hd x hx).1, FS.put_ne _ (hd x hx).2]
          exact hr.1.1 x hx d hd'
        · rw [FS.put_ne _ hg2]
          exact hr.1.2 g hg hg2
        · rw [FS.put_ne _ (hd x hx).1, FS.put_ne _ (hd x hx).2]
          exact hS x hx
      next => exact .ret hr.1 (fun h => by cases h)
    next => exact .ret hr.1 (fun h => by cases h)
  next => exact .ret hr.1 (fun h => by cases h)

/-- But there are moments when the base consists of the new headers and the old texts and index. -/
theorem jam_swap_mixed (w : World) (path : Str) (fs : FS) (d dn : Data) (h1 : fs (path ++ b!".jhr") = some d) (h2 : fs (path ++ b!".cmtemp" ++ b!".jhr") = some dn) :
    ∃ p fs', Reach w (jamSwap path) fs p fs' ∧ fs' (path ++ b!".jhr") = some dn ∧ fs' (path ++ b!".jdt") = fs (path ++ b!".jdt") ∧ fs' (path ++ b!".jdx") = fs (path ++ b!".jdx") := by
  have ne : path ++ b!".cmtemp" ++ b!".jhr" ≠ path ++ b!".jhr" := (parts_apart (x := b!".jhr") (y := b!".jhr") (by decide) (by decide) path).1.symm
  have n2 : path ++ b!".jdt" ≠ path ++ b!".jhr" := fun h => absurd (List.append_cancel_left h) (by decide)
  have n3 : path ++ b!".jdx" ≠ path ++ b!".jhr" := fun h => absurd (List.append_cancel_left h) (by decide)
  have n4 : path ++ b!".jdt" ≠ path ++ b!".cmtemp" ++ b!".jhr" := (parts_apart (x := b!".jdt") (y := b!".jhr") (by decide) (by decide) path).1
  have n5 : path ++ b!".jdx" ≠ path ++ b!".cmtemp" ++ b!".jhr" := (parts_apart (x := b!".jdx") (y := b!".jhr") (by decide) (by decide) path).1
  have r : ∃ p, Reach w (jamSwap path) fs p (((fs.put (path ++ b!".jhr") none).put (path ++ b!".cmtemp" ++ b!".jhr") none).put (path ++ b!".jhr") (some dn)) := by
    unfold jamSwap jamReplace
    simp only [Prog.bind_eq, osRename, Prog.bind, osDelete, Prog.pure_eq]
    exact ⟨_, .step (.deleteOk _ _ _ d h1) (.step (.renameOk _ _ _ _ dn (by rw [FS.put_ne _ ne, h2])) (.here _ _))⟩
  obtain ⟨p, r⟩ := r
  refine ⟨p, _, r, FS.put_self _ _ _, ?_, ?_⟩
  · rw [FS.put_ne _ n2, FS.put_ne _ n4, FS.put_ne _ n2]
  · rw [FS.put_ne _ n3, FS.put_ne _ n5, FS.put_ne _ n3]

namespace Ex

def jamOps1 : List JamOp := [.add jamHdr0 jamSubs0 b!"First", .add jamHdr0 jamSubs0 b!"Second", .add jamHdr0 jamSubs0 b!"Third"]

theorem jamSubs0_index : CanIndex jamEnv jamSubs0 := fun s hs _ => by
  simp only [jamSubs0, List.mem_cons, List.not_mem_nil, or_false] at hs
  rcases hs with rfl | rfl | rfl <;> exact ⟨by decide, fun h => nomatch h⟩

/-- Three messages; the base is limited to one and packed: the third one is left, and still has the number 3. -/
theorem jam_maint_used : ∃ b b1 b2 new m, jamCreate jamEnv 5 1 = .ok b ∧ jamRun jamEnv { b with locked := true } jamOps1 = .ok b1 ∧
    jamMaint jamEnv { maint := true, pack := true, keepNum := 1, keepDays := 0 } 9 0 { b1 with locked := true } = .ok (b2, some new) ∧
    jamGet new 0 = .ok (.ok m) ∧ m.text = b!"Third" ∧ m.hdr.msgNum = 3 ∧ jamSize new = 1 := by
  obtain ⟨b, h1, h2⟩ := jam_create jamEnv 5 1
  have hlen : b.hdr.length = 1024 ∧ b.txt = [] := by
    injection h1 with h1; rw [← h1]; exact ⟨by decide +kernel, rfl⟩
  obtain ⟨b', ms', r1, r2, r3⟩ := jam_history_partial jamEnv jamOps1 (b := { b with locked := true }) (start := 1) (ms := [])
    (by obtain ⟨off, h⟩ := h2; exact ⟨off, h.base, h.len, h.few, h.gone, fun i m hi => by simp at hi, h.apart⟩) rfl
    ⟨by show b.hdr.length + _ < _; rw [hlen.1]; decide, by show b.txt.length + _ < _; rw [hlen.2]; decide, by decide⟩
    (fun op hm => by
      simp only [jamOps1, List.mem_cons, List.not_mem_nil, or_false] at hm
      rcases hm with rfl | rfl | rfl <;> exact ⟨jamSubs0_index, by decide⟩)
  rw [jamOps1] at r2
  cases r2 with | cons n1 r2 =>
  cases n1 with | add a1 =>
  cases r2 with | cons n1 r2 =>
  cases n1 with | add a2 =>
  cases r2 with | cons n1 r2 =>
  cases n1 with | add a3 =>
  cases r2
  rename_i m1 m2 m3
  have dd : ∀ {n : Nat} {t : Data} {m : JamMsg}, AddedMsg 1 n jamHdr0 jamSubs0 t m → m.dead = false := fun a => by
    have := congrArg JamHdr.attr a.hdr
    rw [JamMsg.dead, this]; exact (show decide (2 ^ 31 ≤ jamHdr0.attr.toNat) = false by decide)
  have l1 : slotLive (some m1) = true := by simp [slotLive, dd a1]
  have l2 : slotLive (some m2) = true := by simp [slotLive, dd a2]
  have l3 : slotLive (some m3) = true := by simp [slotLive, dd a3]
  have hM : maintained { maint := true, pack := true, keepNum := 1, keepDays := 0 } 0 [some m1, some m2, some m3] = [slotMark (some m1), slotMark (some m2), some m3] := by
    have e3 : jamActive [some m3] = 1 := by simp [jamActive, dd a3]
    have e2 : jamActive [some m2, some m3] = 2 := by simp [jamActive, dd a3, dd a2]
    have e0 : jamActive [] = 0 := rfl
    rw [maintained]
    simp [limitTo, l1, l2, l3, e3, e2, e0]
  have hh : JamHolds { b' with locked := true } 1 [some m1, some m2, some m3] := by
    obtain ⟨off, h⟩ := r3
    exact ⟨off, h.base, h.len, h.few, h.gone, fun i m hi => ⟨(h.there i m hi).1, let q := (h.there i m hi).2; ⟨q.lo, q.hi, q.small, q.hdr, q.subs, q.subLen, q.subMax, q.txtLen, q.text⟩⟩, h.apart⟩
  obtain ⟨b2, r, q1, q2, -, q4⟩ := jam_maint_partial jamEnv { maint := true, pack := true, keepNum := 1, keepDays := 0 } 9 0 hh rfl (by simp) (fun _ => by
    rw [hM]
    refine ⟨fun m hm hd => ?_, ?_, ?_⟩
    · simp only [List.mem_cons, List.not_mem_nil, or_false] at hm
      rcases hm with hm | hm | hm
      · rw [show m.subs = jamSubs0 by simp only [slotMark, Option.map_some, Option.some.injEq] at hm; rw [hm]; exact a1.subs]; exact jamSubs0_index
      · rw [show m.subs = jamSubs0 by simp only [slotMark, Option.map_some, Option.some.injEq] at hm; rw [hm]; exact a2.subs]; exact jamSubs0_index
      · rw [show m.subs = jamSubs0 by simp only [Option.some.injEq] at hm; rw [hm]; exact a3.subs]; exact jamSubs0_index
    · simp only [List.map_cons, List.map_nil, slotMark, Option.map_some, Option.getD_some, JamMsg.size, a1.subs, a2.subs, a3.subs]; decide
    · simp only [List.map_cons, List.map_nil, slotMark, Option.map_some, Option.getD_some, a1.text, a2.text, a3.text]; decide)
  obtain ⟨new, st, ms', e, p1, p2⟩ := q4 rfl
  rw [hM] at p2
  have dead : ∀ m : JamMsg, slotLive (slotMark (some m)) = false := fun m => slotMark_dead _
  obtain ⟨⟨k, c1, c2, c3, c4, c5⟩, hd⟩ := p2
  have hk : k = 2 := by
    rcases Nat.lt_or_ge k 2 with hlt | hge
    · exfalso
      apply hd
      rw [c4 0]
      rcases (by omega : k = 0 ∨ k = 1) with rfl | rfl
      · exact ⟨_, rfl, dead _⟩
      · exact ⟨_, rfl, dead _⟩
    · simp only [List.length_cons, List.length_nil] at c1
      rcases (by omega : k = 2 ∨ k = 3) with rfl | rfl
      · rfl
      · exact absurd (c3 (some m3) (by simp)) (by rw [l3]; decide)
  subst hk
  obtain ⟨m', g1, g2⟩ := c5 0 m3 rfl (dd a3)
  have hget := jam_get p1 0
  rw [show (0 : UInt32).toNat = 0 from rfl, g1] at hget
  refine ⟨b, b', b2, new, m', h1, r1, by rw [q1, e], hget, g2.text.trans a3.text, ?_, ?_⟩
  · rw [g2.num, c2]; decide
  · obtain ⟨_, _, _, _, q⟩ := jam_count p1
    simp only [List.length_cons, List.length_nil] at c1
    exact UInt32.toNat_inj.1 (q.trans (by show ms'.length = 1; omega))

/-- A message of tomorrow is too old. -/
theorem jam_tomorrow : tooOld 20000 365 20001 = true := tooOld_future (by decide) (by decide)

def swapDisk : FS := ((((((FS.put (fun _ => none) b!"a.jhr" (some [1])).put b!"a.jdt" (some [1])).put b!"a.jdx" (some [1])).put b!"a.cmtemp.jhr" (some [2])).put b!"a.cmtemp.jdt" (some [2])).put
  b!"a.cmtemp.jdx" (some [2])).put b!"a.cmtemp.jlr" (some [])

/-- The new base is in place. -/
theorem jam_swap_used : (∀ x ∈ jamParts, swapDisk (b!"a" ++ b!".cmtemp" ++ x) ≠ none) ∧
    ((jamSwap b!"a").play swapDisk).any (fun r => r.1 && r.2 b!"a.jhr" == some [2] && r.2 b!"a.jdt" == some [2] && r.2 b!"a.jdx" == some [2]) = true := by decide +kernel

end Ex

end CM
