import Verif.Lemmas.JamShare
/-! # C101: several programs can write to one JAM area, and opening one loses nothing

Violated where a base has to be made: it is truncated before it is locked, and one file that is missing is enough. -/

set_option linter.unusedSimpArgs false

namespace CM

/-- All four files are there and can be opened. Then, however the steps of any number of processes are mixed: at most one of
them is between lock and unlock; none of them runs into an error or into undefined behaviour; and
whenever nobody has the lock, the area holds what it held before and then the messages that the processes have
reported as written, each of them once, those of each process in order, with the next numbers. If no process gives up waiting, each has written its messages up to where it is.
Missing: an area that does not exist yet (`jam_wiped`, `jam_race`), and processes that are stopped. -/
theorem jam_shared_partial {e : JamEnv} {now : UInt32} {start : UInt32} {ms0 : List (Option JamMsg)} {s : JamSys} (hb : s.Begins) (hw : s.disk.Whole)
    (hh : JamHolds (s.disk.base false) start ms0) (hf : ∀ i, ∀ m ∈ (s.procs i).todo, m.Fits e) (order : List (Nat × JamChoice))
    (ho : ∀ x ∈ order, x.2 ≠ .fail) (hsm : (s.run e now order).disk.Small) :
    (∀ i j, ((s.run e now order).procs i).pc.critical = true → ((s.run e now order).procs j).pc.critical = true → i = j) ∧
    (∀ i, ((s.run e now order).procs i).pc ≠ .failed ∧ ∀ u, ((s.run e now order).procs i).pc ≠ .undefined u) ∧
    ((s.run e now order).disk.owner = none → ∃ log ms, JamHolds ((s.run e now order).disk.base false) start (ms0 ++ ms.map some) ∧
      (s.run e now order).Logged log ∧ LogStored start ms0.length log ms) ∧
    ((∀ x ∈ order, x.2 ≠ .giveUp) → ∀ i, ((s.run e now order).procs i).done ++ ((s.run e now order).procs i).todo = (s.procs i).todo) := by
  obtain ⟨hc, _, h⟩ := JamSys.run_sound (now := now) hb hw hh hf order ho
  obtain ⟨⟨b, log, ms, hs⟩, hk⟩ := h hsm
  have st : ∀ i, ((s.run e now order).procs i).pc.critical = true → ∃ m, (s.run e now order).disk.owner = some i ∧
      JamStage e b m ((s.run e now order).disk.base true) ((s.run e now order).procs i).pc := fun i hi => by
    cases ht : ((s.run e now order).procs i).todo with
    | nil => exact absurd ht (hc.busy i hi)
    | cons m r => exact ⟨m, hs.stage i m r hi ht⟩
  refine ⟨fun i j hi hj => ?_, fun i => ⟨fun hp => ?_, fun u hp => ?_⟩, fun hn => ⟨log, ms, ?_, hs.logged, hs.stored⟩, hk⟩
  · obtain ⟨_, h1, _⟩ := st i hi
    obtain ⟨_, h2, _⟩ := st j hj
    rw [h1] at h2
    exact Option.some.inj h2
  · obtain ⟨_, _, h⟩ := st i (by rw [hp]; rfl)
    rw [hp] at h; exact h
  · obtain ⟨_, _, h⟩ := st i (by rw [hp]; rfl)
    rw [hp] at h; exact h
  · have hh := hs.holds
    rw [← hs.free hn] at hh
    exact hh.anyLock

/-- C101 violated: only the file for last-read pointers is missing, which nobody needs to toss. The process finds no
base and makes a new one: whatever the area held is gone. -/
theorem jam_wiped (e : JamEnv) (now : UInt32) (s : JamSys) (hp : (s.procs 0).pc = .opening 0) (ht : (s.procs 0).todo ≠ [])
    (h0 : s.disk.hasHdr = true) (h1 : s.disk.hasTxt = true) (h2 : s.disk.hasIdx = true) (h3 : s.disk.hasLrd = false) :
    (s.run e now (List.replicate 8 (0, .go))).disk.hdr = [] ∧ (s.run e now (List.replicate 8 (0, .go))).disk.txt = [] ∧
    (s.run e now (List.replicate 8 (0, .go))).disk.idx = [] := by
  cases hm : (s.procs 0).todo with
  | nil => exact absurd hm ht
  | cons m r =>
    simp [JamSys.run, List.replicate, JamSys.step, jamMove, hp, hm, JamDisk.has, JamDisk.create, h0, h1, h2, h3]

/-- C101 violated: nothing is missing, but one of the files could not be opened, for example because there are too many open
files. -/
theorem jam_wiped_open (e : JamEnv) (now : UInt32) (s : JamSys) (hp : (s.procs 0).pc = .opening 0) (ht : (s.procs 0).todo ≠ []) :
    (s.run e now ((0, .fail) :: List.replicate 4 (0, .go))).disk.hdr = [] ∧ (s.run e now ((0, .fail) :: List.replicate 4 (0, .go))).disk.txt = [] ∧
    (s.run e now ((0, .fail) :: List.replicate 4 (0, .go))).disk.idx = [] := by
  cases hm : (s.procs 0).todo with
  | nil => exact absurd hm ht
  | cons m r =>
    simp [JamSys.run, List.replicate, JamSys.step, jamMove, hp, hm, JamDisk.has, JamDisk.create]

namespace Ex

def shareEnv : JamEnv := ⟨true, fun n => List.replicate n 0, by simp⟩

def shareMsg (c : UInt8) : JamNew := ⟨JamHdr.ofBytes (List.replicate 76 0), [⟨2, 0, b!"Ann"⟩], [c, 13]⟩

/-- No file is there. -/
def nothingThere : JamDisk := ⟨false, false, false, false, [], [], [], [], none⟩

/-- Two processes, the first with two messages and the second with one. -/
def twoWriters (d : JamDisk) : JamSys := ⟨fun i => if i = 0 then { todo := [shareMsg 65, shareMsg 66] } else { todo := if i = 1 then [shareMsg 67] else [] }, d⟩

/-- Steps of one process. -/
def times (n i : Nat) : List (Nat × JamChoice) := List.replicate n (i, .go)

/-- C101 violated: both processes find no base. The first one makes it, writes a message and reports it as written; then the
second one makes it again. The area is empty. -/
theorem jam_race :
    (let s := (twoWriters nothingThere).run shareEnv 0 (times 1 1 ++ times 15 0)
     (s.procs 0).done = [shareMsg 65] ∧ s.disk.idx.length = 8) ∧
    (let s := (twoWriters nothingThere).run shareEnv 0 (times 1 1 ++ times 15 0 ++ times 7 1)
     (s.procs 0).done = [shareMsg 65] ∧ (s.procs 1).pc = .ready ∧ s.disk.hdr.length = 1024 ∧ s.disk.txt = [] ∧ s.disk.idx = [] ∧ s.disk.owner = none) := by
  decide +kernel

/-- An area that is there and empty. -/
def emptyArea (e : JamEnv) : JamDisk := { nothingThere with
  hasHdr := true, hasTxt := true, hasIdx := true, hasLrd := true,
  hdr := JamBaseHdr.bytes (e.junk 1024) { sig := jamSig, created := 0, modCounter := 0 + 1, active := 0, pwCrc := 0xffffffff, baseNum := 1, reserved := List.replicate 1000 0 } }

theorem emptyArea_holds (e : JamEnv) : JamHolds ((emptyArea e).base false) 1 [] := by
  obtain ⟨b, hb, h⟩ := jam_create e 0 1
  have ov : ∀ x : Data, overlay [] 0 x = x := fun x => by simp [overlay]
  simp only [jamCreate, jamWriteBase, if_true, bind, Except.bind, pure, Except.pure, ov] at hb
  rw [← Except.ok.inj hb] at h
  exact h

/-- Both processes write; the second one has to wait. -/
theorem two_wrote :
    let s := (twoWriters (emptyArea shareEnv)).run shareEnv 0 (times 4 0 ++ times 4 1 ++ times 3 0 ++ times 2 1 ++ times 4 0 ++ times 3 1 ++ times 3 0 ++ times 4 1 ++ times 7 0)
    (s.procs 0).done = [shareMsg 65, shareMsg 66] ∧ (s.procs 1).done = [shareMsg 67] ∧ s.disk.txt = [65, 13, 67, 13, 66, 13] ∧ s.disk.owner = none := by
  decide +kernel

/-- The hypotheses of `jam_shared_partial` for it. -/
example : (twoWriters (emptyArea shareEnv)).Begins ∧ (twoWriters (emptyArea shareEnv)).disk.Whole ∧ JamHolds ((twoWriters (emptyArea shareEnv)).disk.base false) 1 [] ∧
    ∀ i, ∀ m ∈ ((twoWriters (emptyArea shareEnv)).procs i).todo, m.Fits shareEnv := by
  refine ⟨⟨rfl, fun i => ?_⟩, fun n => ?_, ?_, fun i m hm => ?_⟩
  · simp only [twoWriters]; split <;> exact ⟨rfl, rfl⟩
  · revert n; decide
  · exact emptyArea_holds shareEnv
  · have hm : m = shareMsg 65 ∨ m = shareMsg 66 ∨ m = shareMsg 67 := by
      simp only [twoWriters] at hm
      split at hm
      · simp at hm; rcases hm with h | h <;> simp [h]
      · split at hm <;> simp at hm; simp [hm]
    have hc : ∀ c, (shareMsg c).Fits shareEnv := fun c => ⟨fun s hs h3 => by
      simp only [shareMsg, List.mem_singleton] at hs
      rw [hs] at h3
      exact absurd h3 (by decide), (by decide : (11 : Nat) < 2 ^ 31)⟩
    rcases hm with rfl | rfl | rfl <;> exact hc _

end Ex

end CM
