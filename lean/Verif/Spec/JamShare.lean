import Verif.Model.JamShare
import Verif.Spec.Jam
/-! # What programs that write to one JAM area can rely on -/

namespace CM

/-- What the files hold, as a message base (locked or not). -/
def JamDisk.base (d : JamDisk) (locked : Bool) : JamBase := ⟨d.hdr, d.txt, d.idx, d.lrd, locked⟩

/-- All four files are there. -/
def JamDisk.Whole (d : JamDisk) : Prop := ∀ n, d.has n = true

/-- The files have not outgrown the format. -/
structure JamDisk.Small (d : JamDisk) : Prop where
  hdr : d.hdr.length < 2 ^ 32
  txt : d.txt.length < 2 ^ 32
  idx : d.idx.length < 8 * 2 ^ 32

/-- A message can be written at all. -/
def JamNew.Fits (e : JamEnv) (m : JamNew) : Prop := CanIndex e m.subs ∧ subBytes m.subs < 2 ^ 31

/-- The process is between taking the lock and releasing it. -/
def JamPc.critical : JamPc → Bool
  | .opening _ => false
  | .making _ => false
  | .makeLock => false
  | .ready => false
  | _ => true

/-- The processes have only begun. -/
def JamSys.Begins (s : JamSys) : Prop := s.disk.owner = none ∧ ∀ i, (s.procs i).pc = .opening 0 ∧ (s.procs i).done = []

/-- `log` says who has written what, in the order of the area; each process has written its messages in the order in
which it has reported them. -/
def JamSys.Logged (s : JamSys) (log : List (Nat × JamNew)) : Prop := ∀ i, (s.procs i).done = (log.filter fun x => x.1 == i).map (·.2)

/-- The messages `ms` are the messages of the log, numbered from `start + n`. -/
def LogStored (start : UInt32) (n : Nat) (log : List (Nat × JamNew)) (ms : List JamMsg) : Prop :=
  ms.length = log.length ∧ ∀ k x m, log[k]? = some x → ms[k]? = some m → AddedMsg start (n + k) x.2.hdr x.2.subs x.2.text m

end CM
