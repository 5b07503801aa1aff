import Verif.Model.Disk

/-! # The log file, with several runs of the program

`OpenLogfile` and `CloseLogfile` (`logwrite.c` 23-59) in the order in which `main` uses them: `LockConfig` (`crashmail.c` 478-505, 611), `Init` with `OpenLogfile`
(114-124, 639), the work, and `CleanUp` (517-535) with `UnlockConfig` before `Free`, which closes the log (94-112). The runs are numbered and share the log and the
configuration. Simplifications: testing for the lock and making it is one step (what is between them is C55); `fopen` and `fwrite` do not fail; nobody else
changes the log; the log is not syslog. Lines are kept in the buffer of stdio, which writes any part of it at any time, at the position reached, and the rest at the
end. -/

namespace CM

/-- How far a run has got. In `opn`, the position in the log, what is still in the buffer, and whether the lock is still there. -/
inductive LogPhase where
  | waiting
  | locked
  | opn (lock : Bool) (pos : Nat) (buf : Data)
  | shut
  | done
  | killed
  deriving DecidableEq, Repr

/-- The log, the lock and the runs. -/
structure LogSys where
  file : Option Data := none
  lock : Bool := false
  ph : Nat → LogPhase := fun _ => .waiting

/-- What a run does. -/
inductive LogEvent where
  /-- `LockConfig`, when there is no lock -/
  | lock (i : Nat)
  /-- `OpenLogfile` -/
  | opens (i : Nat)
  /-- `LogWrite` -/
  | say (i : Nat) (d : Data)
  /-- stdio writes the first bytes of its buffer -/
  | flush (i : Nat) (n : Nat)
  /-- `UnlockConfig` in `CleanUp` -/
  | unlock (i : Nat)
  /-- `CloseLogfile` in `Free`, after `UnlockConfig` -/
  | close (i : Nat)
  /-- `CloseLogfile` after a failure in `Init` (`crashmail.c` 128-132), before `UnlockConfig` -/
  | shut (i : Nat)
  /-- `UnlockConfig` without the log being open -/
  | fail (i : Nat)
  /-- the run is killed -/
  | kill (i : Nat)
  /-- the user removes the lock -/
  | free
  deriving DecidableEq, Repr

def LogSys.set (s : LogSys) (i : Nat) (p : LogPhase) : LogSys := { s with ph := fun j => if j = i then p else s.ph j }

/-- `fwrite` at a position. -/
def LogSys.put (s : LogSys) (pos : Nat) (d : Data) : LogSys := { s with file := some (overlay (s.file.getD []) pos d) }

/-- One step; `none` if it is not possible. -/
def logStep (s : LogSys) : LogEvent → Option LogSys
  | .lock i => match s.ph i with
    | .waiting => if s.lock then none else some { s.set i .locked with lock := true }
    | _ => none
  | .opens i => match s.ph i with
    | .locked => some { s.set i (.opn true (s.file.getD []).length []) with file := some (s.file.getD []) }
    | _ => none
  | .say i d => match s.ph i with
    | .opn l p b => some (s.set i (.opn l p (b ++ d)))
    | _ => none
  | .flush i n => match s.ph i with
    | .opn l p b => some ((s.put p (b.take n)).set i (.opn l (p + (b.take n).length) (b.drop n)))
    | _ => none
  | .unlock i => match s.ph i with
    | .opn true p b => some { s.set i (.opn false p b) with lock := false }
    | _ => none
  | .close i => match s.ph i with
    | .opn false p b => some ((s.put p b).set i .done)
    | _ => none
  | .shut i => match s.ph i with
    | .opn true p b => some ((s.put p b).set i .shut)
    | _ => none
  | .fail i => match s.ph i with
    | .locked | .shut => some { s.set i .done with lock := false }
    | _ => none
  | .kill i => match s.ph i with
    | .done => none
    | _ => some (s.set i .killed)
  | .free => some { s with lock := false }

/-- The events of a history, one after the other. -/
def logRun (s : LogSys) (evs : List LogEvent) : Option LogSys := evs.foldlM logStep s

end CM
