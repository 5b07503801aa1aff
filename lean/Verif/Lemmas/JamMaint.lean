import Verif.Props.Jam
import Verif.Spec.JamMaint
/-! # Lemmas about the maintenance of JAM message bases -/

set_option linter.unusedSimpArgs false

namespace CM

theorem slotLive_some (m : JamMsg) : slotLive (some m) = !m.dead := rfl

theorem slotCount_live (o : Option JamMsg) : slotCount o = if slotLive o then 1 else 0 := rfl

theorem slotMark_dead (o : Option JamMsg) : slotLive (slotMark o) = false := by
  cases o with
  | none => rfl
  | some m =>
    show (!decide (2 ^ 31 ≤ (m.hdr.attr ||| 0x80000000).toNat)) = false
    rw [decide_eq_true (dead_or _)]; rfl

/-- Reading only the header. -/
theorem jam_head {b : JamBase} {start : UInt32} {ms : List (Option JamMsg)} (h : JamHolds b start ms) (n : UInt32) :
    jamHead b n = (match ms[n.toNat]? with
      | some (some m) => .ok m.hdr
      | some none => .error .noMessage
      | none => .error .io) := by
  obtain ⟨off, h⟩ := h
  match hm : ms[n.toNat]? with
  | none => rw [jamHead, h.readNone hm]
  | some none =>
    obtain ⟨i, h1, h2⟩ := h.readGone hm
    rw [jamHead, h1]
    simp only [h2, if_true]
  | some (some m) =>
    obtain ⟨i, h1, h2, h3⟩ := h.readIdx hm
    obtain ⟨_, hat⟩ := h.there _ _ hm
    rw [jamHead, h1]
    simp only [h2, h3, hat.readHdr.1, hat.readHdr.2, Bool.false_eq_true, if_false]

/-- Writing the header of the base anew. -/
theorem jam_rebase (e : JamEnv) {b : JamBase} {start : UInt32} {ms : List (Option JamMsg)} (h : JamHolds b start ms) (hb : b.locked = true)
    (H : JamBaseHdr) (hr : H.reserved.length = 1000) (ha : H.active.toNat = jamActive ms) :
    ∃ b', jamWriteBase e b H = .ok b' ∧ JamHolds b' H.baseNum ms ∧ b'.locked = true ∧ b'.hdr.length = b.hdr.length ∧ b'.txt = b.txt ∧
      jamReadBase b' = .ok { H with sig := jamSig, modCounter := H.modCounter + 1 } := by
  obtain ⟨off, h⟩ := h
  obtain ⟨_, _, _, _, _, hl⟩ := h.readBase
  obtain ⟨b', w0, w1, w2, w3, w4, w5, w6, w7⟩ := jamWriteBase_ok e hb H hr hl
  refine ⟨b', w0, ⟨off, ⟨_, w7, rfl, ha⟩, by rw [w2]; exact h.len, h.few, by rw [w2]; exact h.gone, fun i m hm => ?_, h.apart⟩, w4, w5, w1, ?_⟩
  · obtain ⟨p1, p2⟩ := h.there i m hm
    exact ⟨by rw [w2]; exact p1, p2.frame (by omega) (fun k k1 _ => w6 k (by have := p2.lo; omega)) ⟨[], by rw [List.append_nil]; exact w1⟩⟩
  · rw [jamReadBase, freadAt_ok (by omega), List.drop_zero]
    show Except.ok _ = _
    rw [w7.decode]

/-- What is known while a base is worked on with its header in memory. -/
structure Working (b : JamBase) (H : JamBaseHdr) (start : UInt32) (ms : List (Option JamMsg)) : Prop where
  holds : JamHolds b start ms
  locked : b.locked = true
  active : H.active.toNat = jamActive ms
  base : H.baseNum = start
  res : H.reserved.length = 1000

/-- Marking a message. -/
theorem jam_mark (e : JamEnv) {b : JamBase} {H : JamBaseHdr} {start : UInt32} {ms : List (Option JamMsg)} (h : Working b H start ms)
    {n : UInt32} {m : JamMsg} (hm : ms[n.toNat]? = some (some m)) (hl : m.dead = false) :
    Working (jamMark e b H n m.hdr).1 (jamMark e b H n m.hdr).2 start (ms.set n.toNat (slotMark (some m))) ∧
      (jamMark e b H n m.hdr).2.active = H.active - 1 ∧ (jamMark e b H n m.hdr).2.created = H.created ∧
      (jamMark e b H n m.hdr).2.pwCrc = H.pwCrc ∧ (jamMark e b H n m.hdr).2.reserved = H.reserved := by
  obtain ⟨b1, c1, c2, c3, c4, c5⟩ := jam_change e h.holds h.locked n hm { m.hdr with attr := m.hdr.attr ||| 0x80000000 } rfl rfl rfl
    (fun hd => by rw [hl] at hd; cases hd)
  have hcnt := jamActive_set hm (slotMark (some m))
  rw [slotCount_live, slotCount_live, slotMark_dead, slotLive_some, hl] at hcnt
  simp only [Bool.not_false, if_true, Bool.false_eq_true, if_false] at hcnt
  have hle := jamActive_le ms
  have hfew : ms.length < 2 ^ 32 := h.holds.elim fun _ h => h.few
  have hact : (H.active - 1).toNat = jamActive (ms.set n.toNat (slotMark (some m))) := by
    rw [UInt32.toNat_sub, h.active]
    show (2 ^ 32 - 1 + jamActive ms) % 2 ^ 32 = _
    omega
  obtain ⟨b2, d1, d2, d3, d4, d5, d6⟩ := jam_rebase e c2 c3 { H with active := H.active - 1 } h.res hact
  have e1 : jamMark e b H n m.hdr = (b2, { H with active := H.active - 1, sig := jamSig, modCounter := H.modCounter + 1 }) := by
    rw [jamMark, c1]
    simp only [Except.toOption, Option.getD_some, d1]
  rw [e1]
  refine ⟨⟨?_, d3, hact, h.base, h.res⟩, rfl, rfl, rfl, rfl⟩
  have := d2
  rw [show ({ H with active := H.active - 1 } : JamBaseHdr).baseNum = start from h.base] at this
  exact this

theorem limitTo_le (keep : Nat) (t : List (Option JamMsg)) (h : jamActive t ≤ keep) : limitTo keep t = t := by
  induction t with
  | nil => rfl
  | cons o t ih =>
    rw [jamActive_cons, slotCount_live] at h
    rw [limitTo, ih (by omega), if_neg]
    intro ⟨h1, h2⟩
    rw [if_pos h1] at h
    omega

/-- The header fields that maintenance does not change. -/
def SameBase (H H' : JamBaseHdr) : Prop := H'.created = H.created ∧ H'.pwCrc = H.pwCrc ∧ H'.reserved = H.reserved

theorem SameBase.refl (H : JamBaseHdr) : SameBase H H := ⟨rfl, rfl, rfl⟩

theorem SameBase.trans {A B C : JamBaseHdr} (h : SameBase A B) (h' : SameBase B C) : SameBase A C :=
  ⟨h'.1.trans h.1, h'.2.1.trans h.2.1, h'.2.2.trans h.2.2⟩

theorem u32_succ {n : UInt32} {k : Nat} (h : n.toNat = k) (hk : k + 1 < 2 ^ 32) : (n + 1).toNat = k + 1 := by
  rw [UInt32.toNat_add, h]
  show (k + 1) % 2 ^ 32 = _
  omega

theorem jamKeepNum_ok (e : JamEnv) (keep : UInt32) {start : UInt32} : ∀ (t pre : List (Option JamMsg)) (n : UInt32) (b : JamBase) (H : JamBaseHdr),
    Working b H start (pre ++ t) → n.toNat = pre.length → jamActive pre = 0 →
    Working (jamKeepNum e keep t.length n b H H.active).1 (jamKeepNum e keep t.length n b H H.active).2 start (pre ++ limitTo keep.toNat t) ∧
    SameBase H (jamKeepNum e keep t.length n b H H.active).2 := by
  intro t
  induction t with
  | nil => intro pre n b H h _ _; exact ⟨h, .refl _⟩
  | cons o t ih =>
    intro pre n b H h hn hp
    have hfew : (pre ++ o :: t).length < 2 ^ 32 := h.holds.elim fun _ h => h.few
    have hlen : pre.length + (t.length + 1) < 2 ^ 32 := by simpa using hfew
    have hact : jamActive (pre ++ o :: t) = jamActive (o :: t) := by
      simp only [jamActive, List.filter_append, List.length_append] at hp ⊢
      omega
    have hactH := h.active
    rw [hact, jamActive_cons, slotCount_live] at hactH
    rw [List.length_cons, jamKeepNum]
    by_cases hk : keep < H.active
    · rw [if_pos hk]
      rw [UInt32.lt_iff_toNat_lt] at hk
      have hget : (pre ++ o :: t)[n.toNat]? = some o := by rw [hn]; simp
      have hn1 : (n + 1).toNat = (pre ++ [o]).length := by rw [u32_succ hn (by omega)]; simp
      have happ : pre ++ o :: t = (pre ++ [o]) ++ t := by simp
      rw [jam_head h.holds n, hget]
      rw [limitTo]
      have hskip : slotLive o = false → 
          Working (jamKeepNum e keep t.length (n + 1) b H H.active).1 (jamKeepNum e keep t.length (n + 1) b H H.active).2 start
            (pre ++ (if slotLive o = true ∧ keep.toNat ≤ jamActive t then slotMark o else o) :: limitTo keep.toNat t) ∧
          SameBase H (jamKeepNum e keep t.length (n + 1) b H H.active).2 := fun hl => by
        rw [if_neg (by simp [hl])]
        have := ih (pre ++ [o]) (n + 1) b H (happ ▸ h) hn1 (by rw [jamActive_append, slotCount_live, hl, hp]; rfl)
        simpa using this
      cases o with
      | none => exact hskip rfl
      | some m =>
        dsimp only
        by_cases hd : m.dead = true
        · rw [if_pos (by rw [jamDeleted_iff]; exact hd)]
          exact hskip (by rw [slotLive_some, hd]; rfl)
        · have hd' : m.dead = false := by simpa using hd
          rw [if_neg (by rw [jamDeleted_iff]; exact hd)]
          have hl : slotLive (some m) = true := by rw [slotLive_some, hd']; rfl
          rw [hl, if_pos rfl] at hactH
          rw [if_pos ⟨hl, by omega⟩]
          obtain ⟨hw, ha, hs⟩ := jam_mark e h hget hd'
          have hset : (pre ++ some m :: t).set n.toNat (slotMark (some m)) = (pre ++ [slotMark (some m)]) ++ t := by
            rw [hn, List.set_append_right _ _ (Nat.le_refl _)]; simp
          rw [hset] at hw
          have hx := ih (pre ++ [slotMark (some m)]) (n + 1) _ _ hw (by rw [hn1]; simp) (by rw [jamActive_append, slotCount_live, slotMark_dead, hp]; rfl)
          rw [ha] at hx
          exact ⟨by simpa using hx.1, SameBase.trans hs hx.2⟩
    · rw [if_neg hk, limitTo_le _ _ ?_]
      · exact ⟨h, .refl _⟩
      · rw [UInt32.lt_iff_toNat_lt] at hk
        rw [jamActive_cons, slotCount_live]
        omega

theorem jamDay_eq (m : JamMsg) : (jamDay m.hdr).toNat = m.day := by
  have hz : ∀ x : UInt32, x / 86400 ≠ 0 ↔ 86400 ≤ x.toNat := fun x => by
    rw [ne_eq, ← UInt32.toNat_inj, UInt32.toNat_div]
    show ¬ x.toNat / 86400 = 0 ↔ _
    omega
  rw [jamDay, JamMsg.day]
  by_cases h1 : 86400 ≤ m.hdr.dateReceived.toNat
  · rw [if_pos ((hz _).2 h1), if_pos h1, UInt32.toNat_div]; rfl
  · rw [if_neg (fun h => h1 ((hz _).1 h)), if_neg h1]
    by_cases h2 : 86400 ≤ m.hdr.dateProcessed.toNat
    · rw [if_pos ((hz _).2 h2), if_pos h2, UInt32.toNat_div]; rfl
    · rw [if_neg (fun h => h2 ((hz _).1 h)), if_neg h2, UInt32.toNat_div]; rfl

/-- What "old" means to CrashMaint: the difference of the days is taken modulo `2 ^ 32`, so messages of the future are old. -/
def tooOld (today keep : UInt32) (d : Nat) : Bool := keep.toNat < (today.toNat + 2 ^ 32 - d) % 2 ^ 32

theorem tooOld_iff (today keep : UInt32) (m : JamMsg) : (keep < today - jamDay m.hdr) ↔ tooOld today keep m.day = true := by
  have hlt := (jamDay m.hdr).toNat_lt
  have hs := UInt32.toNat_sub today (jamDay m.hdr)
  rw [jamDay_eq] at hlt hs
  unfold tooOld
  rw [decide_eq_true_eq, UInt32.lt_iff_toNat_lt, hs]
  have : 2 ^ 32 - m.day + today.toNat = today.toNat + 2 ^ 32 - m.day := by omega
  rw [this]

attribute [local irreducible] tooOld in
theorem jamKeepDays_ok (e : JamEnv) (today keep : UInt32) {start : UInt32} : ∀ (t pre : List (Option JamMsg)) (n : UInt32) (b : JamBase) (H : JamBaseHdr),
    Working b H start (pre ++ t) → n.toNat = pre.length →
    Working (jamKeepDays e today keep t.length n b H).1 (jamKeepDays e today keep t.length n b H).2 start (pre ++ expire (tooOld today keep) t) ∧
    SameBase H (jamKeepDays e today keep t.length n b H).2 := by
  intro t
  induction t with
  | nil => intro pre n b H h _; exact ⟨h, .refl _⟩
  | cons o t ih =>
    intro pre n b H h hn
    have hfew : (pre ++ o :: t).length < 2 ^ 32 := h.holds.elim fun _ h => h.few
    have hlen : pre.length + (t.length + 1) < 2 ^ 32 := by simpa using hfew
    have hget : (pre ++ o :: t)[n.toNat]? = some o := by rw [hn]; simp
    have hn1 : (n + 1).toNat = (pre ++ [o]).length := by rw [u32_succ hn (by omega)]; simp
    have happ : pre ++ o :: t = (pre ++ [o]) ++ t := by simp
    rw [List.length_cons, jamKeepDays, jam_head h.holds n, hget]
    have hex : expire (tooOld today keep) (o :: t) = (if slotLive o ∧ o.any (fun m => tooOld today keep m.day) then slotMark o else o) :: expire (tooOld today keep) t := by
      unfold expire; rw [List.map_cons]
    rw [hex]
    have hskip : ¬ (slotLive o = true ∧ o.any (fun m => tooOld today keep m.day) = true) → 
          Working (jamKeepDays e today keep t.length (n + 1) b H).1 (jamKeepDays e today keep t.length (n + 1) b H).2 start
            (pre ++ (if slotLive o = true ∧ o.any (fun m => tooOld today keep m.day) = true then slotMark o else o) :: expire (tooOld today keep) t) ∧
          SameBase H (jamKeepDays e today keep t.length (n + 1) b H).2 := fun hl => by
      rw [if_neg hl]
      have := ih (pre ++ [o]) (n + 1) b H (happ ▸ h) hn1
      simpa using this
    cases o with
    | none => exact hskip (by simp [slotLive])
    | some m =>
      have hday : (keep < today - jamDay m.hdr) ↔ tooOld today keep m.day = true := tooOld_iff today keep m
      dsimp only
      by_cases hc : keep < today - jamDay m.hdr ∧ jamDeleted m.hdr.attr = false
      · have hd' : m.dead = false := by
          have := hc.2
          rw [jamDeleted_iff] at this
          exact this
        have hl : slotLive (some m) = true := by rw [slotLive_some, hd']; rfl
        rw [if_pos hc, if_pos ⟨hl, by rw [Option.any_some]; exact hday.1 hc.1⟩]
        obtain ⟨hw, ha, hs⟩ := jam_mark e h hget hd'
        have hset : (pre ++ some m :: t).set n.toNat (slotMark (some m)) = (pre ++ [slotMark (some m)]) ++ t := by
          rw [hn, List.set_append_right _ _ (Nat.le_refl _)]; simp
        rw [hset] at hw
        have hx := ih (pre ++ [slotMark (some m)]) (n + 1) _ _ hw (by rw [hn1]; simp)
        exact ⟨by simpa using hx.1, SameBase.trans hs hx.2⟩
      · rw [if_neg hc]
        refine hskip fun ⟨h1, h2⟩ => hc ⟨hday.2 (by rw [Option.any_some] at h2; exact h2), ?_⟩
        rw [jamDeleted_iff]
        rw [slotLive_some] at h1
        simpa [JamMsg.dead] using h1

end CM
