import Verif.Spec.JamShare
import Verif.Props.Jam
/-! # Several programs that write to one JAM area -/

set_option linter.unusedSimpArgs false

namespace CM

/-- The process makes a new base. -/
def JamPc.creates : JamPc → Bool
  | .making _ => true
  | .makeLock => true
  | .makeHead => true
  | .makeUnlock => true
  | _ => false

/-- How far the message `m` has been added to the base `b`. -/
def JamStage (e : JamEnv) (b : JamBase) (m : JamNew) (d : JamBase) : JamPc → Prop
  | .locked => d = b
  | .gotBase base => d = b ∧ jamReadBase b = .ok base
  | .wroteText base off => d = { b with txt := b.txt ++ m.text } ∧ jamReadBase b = .ok base ∧ off = b.txt.length
  | .wroteHdr base h off => jamReadBase b = .ok base ∧ h = jamNewHdr b base m.hdr m.subs m.text ∧ off = b.hdr.length ∧
      d = { b with txt := b.txt ++ m.text, hdr := b.hdr ++ h.bytes (e.junk 76) ++ m.subs.flatMap (JamSub.bytes (e.junk 16)) }
  | .wroteIdx base h => jamReadBase b = .ok base ∧ h = jamNewHdr b base m.hdr m.subs m.text ∧ ∃ crc, jamUserCrc e m.subs = .ok crc ∧
      d = { b with txt := b.txt ++ m.text, hdr := b.hdr ++ h.bytes (e.junk 76) ++ m.subs.flatMap (JamSub.bytes (e.junk 16)),
                   idx := b.idx ++ JamIdx.bytes (e.junk 8) { userCrc := crc, hdrOffset := UInt32.ofNat b.hdr.length } }
  | .wrote => ∃ h, jamAdd e b m.hdr m.subs m.text = .ok (.ok (d, h)) ∧ d.hdr.length = b.hdr.length + 76 + subBytes m.subs ∧
      d.txt.length = b.txt.length + m.text.length ∧ d.idx.length = b.idx.length + 8
  | _ => False

/-- No process makes a new base, and all files are there. -/
structure JamCalm (s : JamSys) : Prop where
  whole : s.disk.Whole
  calm : ∀ i, (s.procs i).pc.creates = false
  busy : ∀ i, (s.procs i).pc.critical = true → (s.procs i).todo ≠ []

/-- The invariant: `b` is the base without what is just being added. -/
structure JamSound (e : JamEnv) (start : UInt32) (ms0 : List (Option JamMsg)) (s : JamSys) (b : JamBase) (log : List (Nat × JamNew)) (ms : List JamMsg) : Prop where
  holds : JamHolds b start (ms0 ++ ms.map some)
  locked : b.locked = true
  logged : s.Logged log
  stored : LogStored start ms0.length log ms
  free : s.disk.owner = none → s.disk.base true = b
  owned : ∀ i, s.disk.owner = some i → (s.procs i).pc.critical = true
  stage : ∀ i m r, (s.procs i).pc.critical = true → (s.procs i).todo = m :: r →
    s.disk.owner = some i ∧ JamStage e b m (s.disk.base true) (s.procs i).pc

theorem overlay_grows (o x : Data) : o.length ≤ (overlay o 0 x).length := by
  simp only [overlay, List.take_zero, List.nil_append, List.length_append, List.length_drop]
  omega

/-- A step of a process that makes no new base. -/
theorem jamMove_calm (e : JamEnv) (now : UInt32) (c : JamChoice) (hc : c ≠ .fail) (me : Nat) (p : JamProc) (d : JamDisk) (hw : d.Whole)
    (hp : p.pc.creates = false) (hb : p.pc.critical = true → p.todo ≠ []) :
    (jamMove e now c me p d).2.Whole ∧ (jamMove e now c me p d).1.pc.creates = false ∧
    ((jamMove e now c me p d).1.pc.critical = true → (jamMove e now c me p d).1.todo ≠ []) ∧
    d.hdr.length ≤ (jamMove e now c me p d).2.hdr.length ∧ d.txt.length ≤ (jamMove e now c me p d).2.txt.length ∧
    d.idx.length ≤ (jamMove e now c me p d).2.idx.length := by
  obtain ⟨pc, todo, done⟩ := p
  cases todo with
  | nil => exact ⟨hw, hp, hb, Nat.le_refl _, Nat.le_refl _, Nat.le_refl _⟩
  | cons m rest =>
    cases pc with
    | opening n =>
      simp only [jamMove, hw n, hc, Bool.true_eq_false, or_self, if_false]
      split <;> exact ⟨hw, rfl, fun h => (by cases h), Nat.le_refl _, Nat.le_refl _, Nat.le_refl _⟩
    | making n => cases hp
    | makeLock => cases hp
    | makeHead => cases hp
    | makeUnlock => cases hp
    | ready =>
      simp only [jamMove]
      split
      · exact ⟨hw, rfl, fun h => (by cases h), Nat.le_refl _, Nat.le_refl _, Nat.le_refl _⟩
      · split
        · exact ⟨hw, rfl, fun h => (by cases h), Nat.le_refl _, Nat.le_refl _, Nat.le_refl _⟩
        · split
          · exact ⟨hw, rfl, fun _ => by simp, Nat.le_refl _, Nat.le_refl _, Nat.le_refl _⟩
          · exact ⟨hw, rfl, fun h => (by cases h), Nat.le_refl _, Nat.le_refl _, Nat.le_refl _⟩
    | locked =>
      simp only [jamMove]
      split <;> exact ⟨hw, rfl, fun _ => by simp, Nat.le_refl _, Nat.le_refl _, Nat.le_refl _⟩
    | gotBase base => exact ⟨hw, rfl, fun _ => by simp [jamMove], Nat.le_refl _, by simp [jamMove], Nat.le_refl _⟩
    | wroteText base off => exact ⟨hw, rfl, fun _ => by simp [jamMove], by simp [jamMove], Nat.le_refl _, Nat.le_refl _⟩
    | wroteHdr base h off =>
      simp only [jamMove]
      split
      · exact ⟨hw, rfl, fun _ => by simp, Nat.le_refl _, Nat.le_refl _, Nat.le_refl _⟩
      · exact ⟨hw, rfl, fun _ => by simp, Nat.le_refl _, Nat.le_refl _, by simp⟩
    | wroteIdx base h =>
      simp only [jamMove]
      refine ⟨hw, rfl, fun _ => by simp, ?_, Nat.le_refl _, Nat.le_refl _⟩
      generalize JamBaseHdr.bytes _ _ = x
      exact overlay_grows _ _
    | wrote => exact ⟨hw, rfl, fun h => (by cases h), Nat.le_refl _, Nat.le_refl _, Nat.le_refl _⟩
    | failed => exact ⟨hw, rfl, fun h => (by cases h), Nat.le_refl _, Nat.le_refl _, Nat.le_refl _⟩
    | undefined u => exact ⟨hw, rfl, hb, Nat.le_refl _, Nat.le_refl _, Nat.le_refl _⟩

theorem JamCalm.step {e : JamEnv} {now : UInt32} {s : JamSys} (h : JamCalm s) (x : Nat × JamChoice) (hx : x.2 ≠ .fail) :
    JamCalm (s.step e now x) ∧ ((s.step e now x).disk.Small → s.disk.Small) := by
  obtain ⟨a, b, c, d1, d2, d3⟩ := jamMove_calm e now x.2 hx x.1 (s.procs x.1) s.disk h.whole (h.calm _) (h.busy _)
  refine ⟨⟨a, fun i => ?_, fun i => ?_⟩, fun hs => ⟨Nat.lt_of_le_of_lt d1 hs.hdr, Nat.lt_of_le_of_lt d2 hs.txt, Nat.lt_of_le_of_lt d3 hs.idx⟩⟩
  · simp only [JamSys.step]
    split
    · exact b
    · exact h.calm i
  · simp only [JamSys.step]
    split
    · exact c
    · exact h.busy i

/-- A step of a process that leaves the other ones and the lock alone. -/
theorem JamSound.inner {e : JamEnv} {now : UInt32} {start : UInt32} {ms0 : List (Option JamMsg)} {s : JamSys} {b : JamBase} {log : List (Nat × JamNew)}
    {ms : List JamMsg} (h : JamSound e start ms0 s b log ms) (x : Nat × JamChoice) {m : JamNew} {r : List JamNew} (hm : (s.procs x.1).todo = m :: r)
    (hc : (s.procs x.1).pc.critical = true) {pc : JamPc} {d : JamDisk}
    (hs : jamMove e now x.2 x.1 (s.procs x.1) s.disk = ({ s.procs x.1 with pc := pc }, d)) (hd : d.owner = s.disk.owner) (hp : pc.critical = true)
    (hst : JamStage e b m (d.base true) pc) : JamSound e start ms0 (s.step e now x) b log ms := by
  have ho := (h.stage _ m r hc hm).1
  have e1 : (s.step e now x).disk = d := by simp only [JamSys.step, hs]
  have e2 : (s.step e now x).procs x.1 = { s.procs x.1 with pc := pc } := by simp only [JamSys.step, hs, if_true]
  have e3 : ∀ j, j ≠ x.1 → (s.step e now x).procs j = s.procs j := fun j hj => by simp only [JamSys.step, if_neg hj]
  refine ⟨h.holds, h.locked, fun i => ?_, h.stored, fun hn => ?_, fun i hi => ?_, fun i m' r' hi hm' => ?_⟩
  · by_cases hi : i = x.1
    · rw [hi, e2]; exact h.logged x.1
    · rw [e3 i hi]; exact h.logged i
  · rw [e1, hd, ho] at hn; cases hn
  · rw [e1, hd, ho] at hi
    cases hi
    rw [e2]; exact hp
  · by_cases hj : i = x.1
    · subst hj
      rw [e2] at hm' ⊢
      rw [e1]
      rw [show ({ s.procs x.1 with pc := pc } : JamProc).todo = m :: r from hm] at hm'
      cases hm'
      exact ⟨hd.trans ho, hst⟩
    · rw [e3 i hj] at hi hm'
      have := (h.stage i m' r' hi hm').1
      rw [ho] at this
      cases this
      exact absurd rfl hj

/-- A step outside of the critical section, or one that does nothing. -/
theorem JamSound.outer {e : JamEnv} {now : UInt32} {start : UInt32} {ms0 : List (Option JamMsg)} {s : JamSys} {b : JamBase} {log : List (Nat × JamNew)}
    {ms : List JamMsg} (h : JamSound e start ms0 s b log ms) (x : Nat × JamChoice) {p : JamProc}
    (hs : jamMove e now x.2 x.1 (s.procs x.1) s.disk = (p, s.disk)) (hd : p.done = (s.procs x.1).done)
    (hp : p = s.procs x.1 ∨ p.pc.critical = false ∧ (s.procs x.1).pc.critical = false) : JamSound e start ms0 (s.step e now x) b log ms := by
  have e1 : (s.step e now x).disk = s.disk := by simp only [JamSys.step, hs]
  have e2 : (s.step e now x).procs x.1 = p := by simp only [JamSys.step, hs, if_true]
  have e3 : ∀ j, j ≠ x.1 → (s.step e now x).procs j = s.procs j := fun j hj => by simp only [JamSys.step, if_neg hj]
  refine ⟨h.holds, h.locked, fun i => ?_, h.stored, fun hn => ?_, fun i hi => ?_, fun i m' r' hi hm' => ?_⟩
  · by_cases hi : i = x.1
    · rw [hi, e2, hd]; exact h.logged x.1
    · rw [e3 i hi]; exact h.logged i
  · rw [e1] at hn ⊢; exact h.free hn
  · rw [e1] at hi
    have := h.owned i hi
    by_cases hj : i = x.1
    · subst hj
      rw [e2]
      rcases hp with rfl | ⟨_, hp⟩
      · exact this
      · rw [hp] at this; cases this
    · rw [e3 i hj]; exact this
  · rw [e1]
    by_cases hj : i = x.1
    · subst hj
      rw [e2] at hi hm' ⊢
      rcases hp with rfl | ⟨hp, _⟩
      · exact h.stage _ m' r' hi hm'
      · rw [hp] at hi; cases hi
    · rw [e3 i hj] at hi hm' ⊢
      exact h.stage i m' r' hi hm'

/-- The lock is taken. -/
theorem JamSound.take {e : JamEnv} {now : UInt32} {start : UInt32} {ms0 : List (Option JamMsg)} {s : JamSys} {b : JamBase} {log : List (Nat × JamNew)}
    {ms : List JamMsg} (h : JamSound e start ms0 s b log ms) (x : Nat × JamChoice) (hn : s.disk.owner = none)
    (hs : jamMove e now x.2 x.1 (s.procs x.1) s.disk = ({ s.procs x.1 with pc := .locked }, { s.disk with owner := some x.1 })) :
    JamSound e start ms0 (s.step e now x) b log ms := by
  have e1 : (s.step e now x).disk = { s.disk with owner := some x.1 } := by simp only [JamSys.step, hs]
  have e2 : (s.step e now x).procs x.1 = { s.procs x.1 with pc := .locked } := by simp only [JamSys.step, hs, if_true]
  have e3 : ∀ j, j ≠ x.1 → (s.step e now x).procs j = s.procs j := fun j hj => by simp only [JamSys.step, if_neg hj]
  refine ⟨h.holds, h.locked, fun i => ?_, h.stored, fun hn' => ?_, fun i hi => ?_, fun i m' r' hi hm' => ?_⟩
  · by_cases hi : i = x.1
    · rw [hi, e2]; exact h.logged x.1
    · rw [e3 i hi]; exact h.logged i
  · rw [e1] at hn'; cases hn'
  · rw [e1] at hi
    cases hi
    rw [e2]; rfl
  · rw [e1]
    by_cases hj : i = x.1
    · subst hj
      rw [e2]
      exact ⟨rfl, h.free hn⟩
    · rw [e3 i hj] at hi hm'
      have := (h.stage i m' r' hi hm').1
      rw [hn] at this; cases this

theorem JamSys.Logged.snoc {s : JamSys} {log : List (Nat × JamNew)} (h : s.Logged log) (i : Nat) (m : JamNew) (j : Nat) :
    ((log ++ [(i, m)]).filter fun x => x.1 == j).map (·.2) = (s.procs j).done ++ (if i = j then [m] else []) := by
  rw [List.filter_append, List.map_append, ← h j]
  by_cases hij : i = j
  · simp [hij]
  · simp [hij]

/-- The message has been written and the lock is released. -/
theorem JamSound.release {e : JamEnv} {now : UInt32} {start : UInt32} {ms0 : List (Option JamMsg)} {s : JamSys} {b : JamBase} {log : List (Nat × JamNew)}
    {ms : List JamMsg} (h : JamSound e start ms0 s b log ms) (x : Nat × JamChoice) {m : JamNew} {r : List JamNew} (hm : (s.procs x.1).todo = m :: r)
    (hpc : (s.procs x.1).pc = .wrote) (hf : m.Fits e) (hb : s.disk.Small) :
    ∃ b' log' ms', JamSound e start ms0 (s.step e now x) b' log' ms' := by
  have hcr : (s.procs x.1).pc.critical = true := by rw [hpc]; rfl
  obtain ⟨ho, hst⟩ := h.stage x.1 m r hcr hm
  rw [hpc] at hst
  obtain ⟨hd, ha, l1, l2, l3⟩ := hst
  have hs : jamMove e now x.2 x.1 (s.procs x.1) s.disk = ({ pc := .ready, todo := r, done := (s.procs x.1).done ++ [m] }, { s.disk with owner := none }) := by
    simp only [jamMove, hm, hpc]
  have e1 : (s.step e now x).disk = { s.disk with owner := none } := by simp only [JamSys.step, hs]
  have e2 : (s.step e now x).procs x.1 = { pc := .ready, todo := r, done := (s.procs x.1).done ++ [m] } := by simp only [JamSys.step, hs, if_true]
  have e3 : ∀ j, j ≠ x.1 → (s.step e now x).procs j = s.procs j := fun j hj => by simp only [JamSys.step, if_neg hj]
  have s1 : (s.disk.base true).hdr.length < 2 ^ 32 := hb.hdr
  have s2 : (s.disk.base true).txt.length < 2 ^ 32 := hb.txt
  have s3 : (s.disk.base true).idx.length < 8 * 2 ^ 32 := hb.idx
  have hlen : b.idx.length = 8 * (ms0 ++ ms.map some).length := by obtain ⟨off, h⟩ := h.holds; exact h.len
  obtain ⟨b', m', a1, a2, a3, a4, _, _⟩ := jam_add e h.holds h.locked m.hdr m.subs m.text hf.1 hf.2 (by omega) (by omega) (by omega)
  rw [ha] at a1
  cases a1
  refine ⟨_, log ++ [(x.1, m)], ms ++ [m'], ⟨by rw [List.map_append, ← List.append_assoc]; exact a3, a4, fun i => ?_, ⟨?_, fun k y z hy hz => ?_⟩, fun _ => by rw [e1]; rfl,
    fun i hi => ?_, fun i p' r' hi hm' => ?_⟩⟩
  · rw [h.logged.snoc]
    by_cases hi : i = x.1
    · rw [hi, e2, if_pos rfl]
    · rw [e3 i hi, if_neg (Ne.symm hi), List.append_nil]
  · simp [h.stored.1]
  · have hl := h.stored.1
    by_cases hk : k < log.length
    · rw [List.getElem?_append_left hk] at hy
      rw [List.getElem?_append_left (by omega)] at hz
      exact h.stored.2 k y z hy hz
    · by_cases hk' : k = log.length
      · subst hk'
        rw [List.getElem?_append_right (Nat.le_refl _), Nat.sub_self] at hy
        rw [← hl, List.getElem?_append_right (Nat.le_refl _), Nat.sub_self] at hz
        simp only [List.getElem?_cons_zero, Option.some.injEq] at hy hz
        rw [← hy, ← hz, ← hl]
        simpa using a2
      · rw [List.getElem?_eq_none (by simp; omega)] at hy; cases hy
  · rw [e1] at hi; cases hi
  · by_cases hj : i = x.1
    · subst hj
      rw [e2] at hi; cases hi
    · rw [e3 i hj] at hi hm'
      have := (h.stage i p' r' hi hm').1
      rw [ho] at this
      cases this
      exact absurd rfl hj

theorem jamAdd_eq {e : JamEnv} {b d : JamBase} {m : JamNew} {base : JamBaseHdr} {crc : UInt32} (hl : b.locked = true) (hr : jamReadBase b = .ok base)
    (hc : jamUserCrc e m.subs = .ok crc)
    (hw : jamWriteBase e { b with
        txt := b.txt ++ m.text,
        hdr := b.hdr ++ (jamNewHdr b base m.hdr m.subs m.text).bytes (e.junk 76) ++ m.subs.flatMap (JamSub.bytes (e.junk 16)),
        idx := b.idx ++ JamIdx.bytes (e.junk 8) { userCrc := crc, hdrOffset := UInt32.ofNat b.hdr.length } }
      { base with active := if jamDeleted (jamNewHdr b base m.hdr m.subs m.text).attr then base.active else base.active + 1 } = .ok d) :
    jamAdd e b m.hdr m.subs m.text = .ok (.ok (d, jamNewHdr b base m.hdr m.subs m.text)) := by
  unfold jamAdd
  rw [if_neg (by simp [hl])]
  simp only [hr, hc, hw]

/-- One step of any process. -/
theorem JamSound.step {e : JamEnv} {now : UInt32} {start : UInt32} {ms0 : List (Option JamMsg)} {s : JamSys} {b : JamBase} {log : List (Nat × JamNew)}
    {ms : List JamMsg} (h : JamSound e start ms0 s b log ms) (hcalm : JamCalm s) (x : Nat × JamChoice) (hx : x.2 ≠ .fail)
    (hf : ∀ m ∈ (s.procs x.1).todo, m.Fits e) (hb : s.disk.Small) :
    ∃ b' log' ms', JamSound e start ms0 (s.step e now x) b' log' ms' := by
  have hcr := hcalm.calm x.1
  have hw := hcalm.whole
  cases hm : (s.procs x.1).todo with
  | nil => exact ⟨b, log, ms, h.outer x (by rw [jamMove, hm]) rfl (.inl rfl)⟩
  | cons m r =>
    have hstg := fun hc => (h.stage x.1 m r hc hm).2
    have hfm := hf m (by rw [hm]; exact List.mem_cons_self)
    obtain ⟨off, hh⟩ := h.holds
    obtain ⟨H, hH, _, _, hres, hlen⟩ := hh.readBase
    cases hpc : (s.procs x.1).pc with
    | opening n =>
      have hwn := hw n
      by_cases hn : n = 3
      · rw [hn] at hwn
        exact ⟨b, log, ms, h.outer x (p := { s.procs x.1 with pc := .ready }) (by simp only [jamMove, hm, hpc, hwn, hx, hn, Bool.true_eq_false, or_self, if_false, if_true]) rfl
          (.inr ⟨rfl, by rw [hpc]; rfl⟩)⟩
      · exact ⟨b, log, ms, h.outer x (p := { s.procs x.1 with pc := .opening (n + 1) }) (by simp only [jamMove, hm, hpc, hw n, hx, hn, Bool.true_eq_false, or_self, if_false]) rfl
          (.inr ⟨rfl, by rw [hpc]; rfl⟩)⟩
    | making n => rw [hpc] at hcr; cases hcr
    | makeLock => rw [hpc] at hcr; cases hcr
    | makeHead => rw [hpc] at hcr; cases hcr
    | makeUnlock => rw [hpc] at hcr; cases hcr
    | ready =>
      by_cases h1 : x.2 = .close
      · exact ⟨b, log, ms, h.outer x (p := { s.procs x.1 with pc := .opening 0 }) (by simp only [jamMove, hm, hpc, h1, if_true]) rfl (.inr ⟨rfl, by rw [hpc]; rfl⟩)⟩
      · by_cases h2 : x.2 = .giveUp
        · exact ⟨b, log, ms, h.outer x (p := (s.procs x.1).drop .ready) (by simp only [jamMove, hm, hpc, h2, reduceCtorEq, if_true, if_false]) rfl (.inr ⟨rfl, by rw [hpc]; rfl⟩)⟩
        · by_cases h3 : s.disk.owner = none
          · exact ⟨b, log, ms, h.take x h3 (by simp only [jamMove, hm, hpc, h1, h2, h3, true_or, if_true, if_false])⟩
          · by_cases h4 : s.disk.owner = some x.1
            · have := h.owned _ h4
              rw [hpc] at this; cases this
            · exact ⟨b, log, ms, h.outer x (p := s.procs x.1) (by simp only [jamMove, hm, hpc, h1, h2, h3, h4, or_self, if_false]) rfl (.inl rfl)⟩
    | locked =>
      have hc : (s.procs x.1).pc.critical = true := by rw [hpc]; rfl
      have hst := hstg hc
      rw [hpc] at hst
      have hst : s.disk.base true = b := hst
      have hd : s.disk.hdr = b.hdr := by rw [← hst]; rfl
      have hr : ∃ y, freadAt b.hdr 0 1024 = .ok y ∧ jamReadBase b = .ok (.ofBytes y) := ⟨_, freadAt_ok (by omega), by rw [jamReadBase, freadAt_ok (by omega)]; rfl⟩
      obtain ⟨y, hy, hyb⟩ := hr
      exact ⟨b, log, ms, h.inner x hm hc (pc := .gotBase (.ofBytes y)) (d := s.disk) (by simp only [jamMove, hm, hpc, hd, hy]) rfl rfl ⟨hst, hyb⟩⟩
    | gotBase base =>
      have hc : (s.procs x.1).pc.critical = true := by rw [hpc]; rfl
      have hst := hstg hc
      rw [hpc] at hst
      obtain ⟨hst, hrb⟩ := hst
      refine ⟨b, log, ms, h.inner x hm hc (pc := .wroteText base s.disk.txt.length) (d := { s.disk with txt := s.disk.txt ++ m.text }) (by simp only [jamMove, hm, hpc]) rfl rfl
        ⟨?_, hrb, ?_⟩⟩
      · rw [← hst]; rfl
      · rw [← hst]; rfl
    | wroteText base off' =>
      have hc : (s.procs x.1).pc.critical = true := by rw [hpc]; rfl
      have hst := hstg hc
      rw [hpc] at hst
      obtain ⟨hst, hrb, ho⟩ := hst
      have d1 : s.disk.idx = b.idx := congrArg JamBase.idx hst
      have d2 : s.disk.hdr = b.hdr := congrArg JamBase.hdr hst
      have d3 : s.disk.txt = b.txt ++ m.text := congrArg JamBase.txt hst
      have d4 : s.disk.lrd = b.lrd := congrArg JamBase.lrd hst
      refine ⟨b, log, ms, h.inner x hm hc (pc := .wroteHdr base (jamNewHdr b base m.hdr m.subs m.text) s.disk.hdr.length)
        (d := { s.disk with hdr := s.disk.hdr ++ (jamNewHdr b base m.hdr m.subs m.text).bytes (e.junk 76) ++ m.subs.flatMap (JamSub.bytes (e.junk 16)) })
        (by simp only [jamMove, hm, hpc, ho, d1, jamNewHdr]) rfl rfl ⟨hrb, rfl, by rw [d2], ?_⟩⟩
      simp only [JamDisk.base, d1, d2, d3, d4, h.locked]
    | wroteHdr base hd off' =>
      have hc : (s.procs x.1).pc.critical = true := by rw [hpc]; rfl
      have hst := hstg hc
      rw [hpc] at hst
      obtain ⟨hrb, hh', ho, hst⟩ := hst
      have d1 : s.disk.idx = b.idx := congrArg JamBase.idx hst
      have d2 : s.disk.hdr = _ := congrArg JamBase.hdr hst
      have d3 : s.disk.txt = b.txt ++ m.text := congrArg JamBase.txt hst
      have d4 : s.disk.lrd = b.lrd := congrArg JamBase.lrd hst
      obtain ⟨crc, hcrc⟩ := jam_crc_ok e m.subs hfm.1
      refine ⟨b, log, ms, h.inner x hm hc (pc := .wroteIdx base hd)
        (d := { s.disk with idx := s.disk.idx ++ JamIdx.bytes (e.junk 8) { userCrc := crc, hdrOffset := UInt32.ofNat off' } })
        (by simp only [jamMove, hm, hpc, hcrc]) rfl rfl ⟨hrb, hh', crc, hcrc, ?_⟩⟩
      simp only [JamDisk.base, d1, d2, d3, d4, h.locked, ho]
    | wroteIdx base hd =>
      have hc : (s.procs x.1).pc.critical = true := by rw [hpc]; rfl
      have hst := hstg hc
      rw [hpc] at hst
      obtain ⟨hrb, hh', crc, hcrc, hst⟩ := hst
      have d1 : s.disk.idx = _ := congrArg JamBase.idx hst
      have d2 : s.disk.hdr = _ := congrArg JamBase.hdr hst
      have d3 : s.disk.txt = b.txt ++ m.text := congrArg JamBase.txt hst
      have d4 : s.disk.lrd = b.lrd := congrArg JamBase.lrd hst
      have hN := JamHdr.layout_bytes (e.junk 76) (e.size _) hd
      have hS := SubsLayout.bytes (e.junk 16) (e.size _) m.subs fun s hm => by have := subBytes_mem hm; have := hfm.2; omega
      have hX := JamIdx.layout_bytes (e.junk 8) (e.size _) { userCrc := crc, hdrOffset := UInt32.ofNat b.hdr.length }
      obtain ⟨b', hw', w⟩ := jamWriteBase_ok e (b := s.disk.base true) rfl
        { base with active := if jamDeleted hd.attr then base.active else base.active + 1 } (by
          have := hrb; rw [hH] at this; cases this; exact hres) (by
          show 1024 ≤ s.disk.hdr.length
          rw [d2]; simp only [List.length_append]; omega)
      have hsl : b.hdr.length + 76 + subBytes m.subs = s.disk.hdr.length := by
        rw [d2, List.length_append, List.length_append, hN.size, hS.length]
      have hbd : jamWriteBase e (s.disk.base true) { base with active := if jamDeleted hd.attr then base.active else base.active + 1 } =
          .ok (({ s.disk with hdr := overlay s.disk.hdr 0 (JamBaseHdr.bytes (e.junk 1024)
            { base with active := if jamDeleted hd.attr then base.active else base.active + 1, sig := jamSig, modCounter := base.modCounter + 1 }) } : JamDisk).base true) := rfl
      refine ⟨b, log, ms, h.inner x hm hc (pc := .wrote) (d := { s.disk with hdr := overlay s.disk.hdr 0 (JamBaseHdr.bytes (e.junk 1024)
            { base with active := if jamDeleted hd.attr then base.active else base.active + 1, sig := jamSig, modCounter := base.modCounter + 1 }) })
        (by simp only [jamMove, hm, hpc]) rfl rfl ⟨hd, ?_, ?_, ?_, ?_⟩⟩
      · rw [hst, hh'] at hbd
        rw [hh']
        exact jamAdd_eq h.locked hrb hcrc hbd
      · rw [hbd] at hw'
        cases hw'
        rw [hsl]
        exact w.2.2.2.2.1
      · show s.disk.txt.length = _
        rw [d3, List.length_append]
      · show s.disk.idx.length = _
        rw [d1, List.length_append, hX.size]
    | wrote => exact h.release x hm hpc hfm hb
    | failed =>
      have hc : (s.procs x.1).pc.critical = true := by rw [hpc]; rfl
      have hst := hstg hc
      rw [hpc] at hst
      cases hst
    | undefined u =>
      have hc : (s.procs x.1).pc.critical = true := by rw [hpc]; rfl
      have hst := hstg hc
      rw [hpc] at hst
      cases hst

/-- What becomes of the messages of a process in one step. -/
theorem jamMove_todo (e : JamEnv) (now : UInt32) (c : JamChoice) (me : Nat) (p : JamProc) (d : JamDisk) :
    (jamMove e now c me p d).1.todo = p.todo ∨ (jamMove e now c me p d).1.todo = p.todo.tail := by
  obtain ⟨pc, todo, done⟩ := p
  cases todo with
  | nil => exact .inl rfl
  | cons m rest =>
    cases pc <;> simp only [jamMove]
    all_goals (repeat' split)
    all_goals simp [JamProc.drop]

/-- Without errors nothing is given up. -/
theorem jamMove_keeps (e : JamEnv) (now : UInt32) (c : JamChoice) (hc : c ≠ .giveUp) (me : Nat) (p : JamProc) (d : JamDisk) (hp : p.pc.creates = false)
    (hf : p.pc ≠ .failed) : (jamMove e now c me p d).1.done ++ (jamMove e now c me p d).1.todo = p.done ++ p.todo := by
  obtain ⟨pc, todo, done⟩ := p
  cases todo with
  | nil => rfl
  | cons m rest =>
    cases pc with
    | making n => cases hp
    | makeLock => cases hp
    | makeHead => cases hp
    | makeUnlock => cases hp
    | failed => exact absurd rfl hf
    | wrote => simp only [jamMove, List.append_assoc, List.cons_append, List.nil_append]
    | ready =>
      simp only [jamMove, hc, if_false]
      repeat' split
      all_goals rfl
    | _ =>
      simp only [jamMove]
      repeat' split
      all_goals rfl

theorem JamHolds.anyLock {d : JamDisk} {l l' : Bool} {start : UInt32} {ms : List (Option JamMsg)} (h : JamHolds (d.base l) start ms) :
    JamHolds (d.base l') start ms := by
  obtain ⟨off, h⟩ := h
  exact ⟨off, h.base, h.len, h.few, h.gone, fun i m hm => ⟨(h.there i m hm).1, (h.there i m hm).2.frame (Nat.le_refl _) (fun _ _ _ => rfl) ⟨[], (List.append_nil _).symm⟩⟩,
    h.apart⟩

/-- Everything that holds while the processes run. -/
theorem JamSys.run_sound {e : JamEnv} {now : UInt32} {start : UInt32} {ms0 : List (Option JamMsg)} {s : JamSys} (hb : s.Begins) (hw : s.disk.Whole)
    (hh : JamHolds (s.disk.base false) start ms0) (hf : ∀ i, ∀ m ∈ (s.procs i).todo, m.Fits e) (order : List (Nat × JamChoice))
    (ho : ∀ x ∈ order, x.2 ≠ .fail) :
    JamCalm (s.run e now order) ∧ (∀ i, ∀ m ∈ ((s.run e now order).procs i).todo, m.Fits e) ∧
    ((s.run e now order).disk.Small → (∃ b log ms, JamSound e start ms0 (s.run e now order) b log ms) ∧
      ((∀ x ∈ order, x.2 ≠ .giveUp) → ∀ i, ((s.run e now order).procs i).done ++ ((s.run e now order).procs i).todo = (s.procs i).todo)) := by
  obtain ⟨l, rfl⟩ : ∃ l, order = l.reverse := ⟨order.reverse, order.reverse_reverse.symm⟩
  induction l with
  | nil =>
    refine ⟨⟨hw, fun i => ?_, fun i h => ?_⟩, hf, fun _ => ⟨⟨s.disk.base true, [], [], by simpa using hh.anyLock, rfl, fun i => (hb.2 i).2, ⟨rfl, fun k x m hx => by cases hx⟩, fun _ => rfl,
      fun i hi => ?_, fun i m r hi => ?_⟩, fun _ i => ?_⟩⟩
    · show ((s.procs i).pc).creates = false
      rw [(hb.2 i).1]; rfl
    · have h : ((s.procs i).pc).critical = true := h
      rw [(hb.2 i).1] at h; cases h
    · have hi : s.disk.owner = some i := hi
      rw [hb.1] at hi; cases hi
    · have hi : ((s.procs i).pc).critical = true := hi
      rw [(hb.2 i).1] at hi; cases hi
    · show (s.procs i).done ++ (s.procs i).todo = _
      rw [(hb.2 i).2]; rfl
  | cons x l' ih =>
    rw [List.reverse_cons] at ho ⊢
    generalize l'.reverse = l at ih ho ⊢
    obtain ⟨i1, i2, i3⟩ := ih fun y hy => ho y (List.mem_append_left _ hy)
    have hx := ho x (List.mem_append_right _ List.mem_cons_self)
    have hr : s.run e now (l ++ [x]) = (s.run e now l).step e now x := by rw [JamSys.run, List.foldl_append]; rfl
    rw [hr]
    obtain ⟨c1, c2⟩ := i1.step (e := e) (now := now) x hx
    refine ⟨c1, fun i m hm => ?_, fun hsm => ?_⟩
    · simp only [JamSys.step] at hm
      split at hm
      · rcases jamMove_todo e now x.2 x.1 ((s.run e now l).procs x.1) (s.run e now l).disk with h | h <;> rw [h] at hm
        · exact i2 _ m hm
        · exact i2 _ m (List.mem_of_mem_tail hm)
      · exact i2 i m hm
    · obtain ⟨⟨b, log, ms, hs⟩, hk⟩ := i3 (c2 hsm)
      refine ⟨hs.step i1 x hx (i2 _) (c2 hsm), fun hg i => ?_⟩
      have hk := hk fun y hy => hg y (List.mem_append_left _ hy)
      rw [← hk i]
      simp only [JamSys.step]
      split
      · next hi =>
        subst hi
        refine jamMove_keeps e now x.2 (hg x (List.mem_append_right _ List.mem_cons_self)) _ _ _ (i1.calm _) fun hfl => ?_
        cases htd : ((s.run e now l).procs x.1).todo with
        | nil => exact i1.busy x.1 (by rw [hfl]; rfl) htd
        | cons m r =>
          have := (hs.stage x.1 m r (by rw [hfl]; rfl) htd).2
          rw [hfl] at this
          exact this
      · rfl

end CM
