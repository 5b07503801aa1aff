import Verif.Model.Outbound
/-! # Programs that work on the disk

The disk operations of `oslib_linux` and what they can do. An operation can fail, and the program can be
stopped between any two steps; the states in which it can be stopped are the states that
can be reached. Several programs can run at the same time on the same disk.

Assumptions: a file is one of finitely or infinitely many names with contents (no links, two names are
two files); `stat` fails only for a file that does not exist; data written is on the disk, in order,
when the file is closed (`fclose` does not fail, and the machine itself keeps running); renaming is
atomic. -/

namespace CM

/-- Contents of a file. -/
abbrev Data := List UInt8

/-- The files on the disk, by full path. -/
abbrev FS := Str → Option Data

/-- The disk after a file was written (`some`) or removed (`none`). -/
def FS.put (fs : FS) (f : Str) (v : Option Data) : FS := fun g => if g = f then v else fs g

/-- How a file is opened for writing (`osfile.c` 11-33) and where: `MODE_NEWFILE` at the beginning;
`MODE_READWRITE` this many bytes before the end (`osSeek` with `OFFSET_END`; if the file is shorter, the
seek fails and the position is the beginning); `MODE_READWRITE` at the beginning. -/
inductive WMode where
  | new
  | fromEnd (n : Nat)
  | start
  deriving DecidableEq, Repr

/-- `old` overwritten with `d` from `pos`. -/
def overlay (old : Data) (pos : Nat) (d : Data) : Data := old.take pos ++ d ++ old.drop (pos + d.length)

/-- A program that works on the disk and has a result. `writing` and `running` are the states within
`write` and `exec`. -/
inductive Prog (α : Type) where
  /-- finished -/
  | ret (a : α)
  /-- undefined behaviour -/
  | ub (u : UB)
  /-- the bound for a loop is used up -/
  | stuck
  /-- `osExists` (`osmisc.c` 53-61) -/
  | exist (f : Str) (k : Bool → Prog α)
  /-- `osRename` (`osmisc.c` 71-77) -/
  | rename (f g : Str) (k : Bool → Prog α)
  /-- `osDelete` (`osmisc.c` 79-85) -/
  | delete (f : Str) (k : Bool → Prog α)
  /-- `osOpen` with `MODE_OLDFILE`, reading to the end and `osClose` -/
  | read (f : Str) (k : Option Data → Prog α)
  /-- `osOpen` for writing, writing, `osClose`: `none` if the file could not be opened, otherwise
  whether all writes succeeded -/
  | write (f : Str) (m : WMode) (d : Data) (k : Option Bool → Prog α)
  | writing (f : Str) (old : Data) (pos : Nat) (done todo : Data) (k : Bool → Prog α)
  /-- `osExecute` (`osmisc.c` 44-51) -/
  | exec (cmd : Str) (k : Nat → Prog α)
  | running (cmd : Str) (fs : FS) (k : Nat → Prog α)
  /-- `osReadDir` (`osdir.c` 19-65) -/
  | list (dir : Str) (accept : Str → Bool) (k : Option (List FileEntry) → Prog α)
  /-- `time`: any value -/
  | time (k : UInt32 → Prog α)
  /-- `osSleep`, and whether the user has pressed Ctrl-C by then -/
  | sleep (k : Bool → Prog α)

namespace Prog

/-- One program after the other. -/
def bind {α β : Type} : Prog α → (α → Prog β) → Prog β
  | ret a, h => h a
  | ub u, _ => ub u
  | stuck, _ => stuck
  | exist f k, h => exist f fun r => (k r).bind h
  | rename f g k, h => rename f g fun r => (k r).bind h
  | delete f k, h => delete f fun r => (k r).bind h
  | read f k, h => read f fun r => (k r).bind h
  | write f m d k, h => write f m d fun r => (k r).bind h
  | writing f o p d t k, h => writing f o p d t fun r => (k r).bind h
  | exec c k, h => exec c fun r => (k r).bind h
  | running c s k, h => running c s fun r => (k r).bind h
  | list d a k, h => list d a fun r => (k r).bind h
  | time k, h => time fun r => (k r).bind h
  | sleep k, h => sleep fun r => (k r).bind h

instance : Monad Prog where
  pure := ret
  bind := bind

end Prog

def osExists (f : Str) : Prog Bool := .exist f .ret
def osRename (f g : Str) : Prog Bool := .rename f g .ret
def osDelete (f : Str) : Prog Bool := .delete f .ret
def readFile (f : Str) : Prog (Option Data) := .read f .ret
def writeFile (f : Str) (m : WMode) (d : Data) : Prog (Option Bool) := .write f m d .ret
def osExecute (cmd : Str) : Prog Nat := .exec cmd .ret
def osReadDir (dir : Str) (accept : Str → Bool) : Prog (Option (List FileEntry)) := .list dir accept .ret
def osTime : Prog UInt32 := .time .ret
def osSleep : Prog Bool := .sleep .ret

/-- A computation without disk operations. -/
def liftUB {α : Type} : Except UB α → Prog α
  | .ok a => .ret a
  | .error u => .ub u

/-- What is outside of the program: which operations can fail although the file exists, and what other
programs do that are started (the disk in between, and at the end, with the exit code). -/
structure World where
  openFails : Prop := True
  writeFails : Prop := True
  renameFails : Prop := True
  deleteFails : Prop := True
  listFails : Prop := True
  during : Str → FS → FS → Prop := fun _ fs fs' => fs' = fs
  exec : Str → FS → Nat → FS → Prop := fun _ fs _ fs' => fs' = fs

/-- Nothing fails. -/
structure World.Reliable (w : World) : Prop where
  opens : ¬ w.openFails
  writes : ¬ w.writeFails
  renames : ¬ w.renameFails
  deletes : ¬ w.deleteFails
  lists : ¬ w.listFails

/-- The contents of a file that is opened for writing, and the position: a new file is empty; a file
that does not exist is created. -/
def opened (fs : FS) (f : Str) : WMode → Data × Nat
  | .new => ([], 0)
  | .fromEnd n =>
    let old := (fs f).getD []
    (old, if old.length < n then 0 else old.length - n)
  | .start => ((fs f).getD [], 0)

/-- What `osReadDir` can find: the accepted files of the directory (names are cut to 99 characters), in
any order, with the low 32 bits of their sizes; dates are arbitrary. -/
def DirList (fs : FS) (dir : Str) (accept : Str → Bool) (es : List FileEntry) : Prop :=
  (∀ e ∈ es, ∃ n d, e.name = n.take 99 ∧ (47 : UInt8) ∉ n ∧ n ≠ [] ∧ accept n = true ∧
    fs (makeFullPath dir n 200) = some d ∧ e.size = d.length % 2 ^ 32) ∧
  (∀ n, (47 : UInt8) ∉ n → n ≠ [] → accept n = true → fs (makeFullPath dir n 200) ≠ none →
    ∃ e ∈ es, e.name = n.take 99) ∧
  es.Pairwise fun a b => a.name.length < 99 → a.name ≠ b.name

/-- One step of a program. -/
inductive Step (w : World) {α : Type} : Prog α → FS → Prog α → FS → Prop where
  | exist (f k fs) : Step w (.exist f k) fs (k (fs f).isSome) fs
  | renameOk (f g k fs d) : fs f = some d → Step w (.rename f g k) fs (k true) ((fs.put f none).put g (some d))
  | renameFail (f g k fs) : fs f = none ∨ w.renameFails → Step w (.rename f g k) fs (k false) fs
  | deleteOk (f k fs d) : fs f = some d → Step w (.delete f k) fs (k true) (fs.put f none)
  | deleteFail (f k fs) : fs f = none ∨ w.deleteFails → Step w (.delete f k) fs (k false) fs
  | readOk (f k fs d) : fs f = some d → Step w (.read f k) fs (k (some d)) fs
  | readFail (f k fs) : fs f = none ∨ w.openFails → Step w (.read f k) fs (k none) fs
  | openOk (f m d k fs) : Step w (.write f m d k) fs
      (.writing f (opened fs f m).1 (opened fs f m).2 [] d fun r => k (some r)) (fs.put f (some (opened fs f m).1))
  | openFail (f m d k fs) : w.openFails → Step w (.write f m d k) fs (k none) fs
  | byte (f o p d c t k fs) : Step w (.writing f o p d (c :: t) k) fs (.writing f o p (d ++ [c]) t k)
      (fs.put f (some (overlay o p (d ++ [c]))))
  | writeDone (f o p d k fs) : Step w (.writing f o p d [] k) fs (k true) fs
  | writeFail (f o p d t k fs junk) : w.writeFails → Step w (.writing f o p d t k) fs (k false)
      (fs.put f (some (o.take p ++ junk)))
  | execStart (c k fs) : Step w (.exec c k) fs (.running c fs k) fs
  | execDuring (c s k fs fs') : w.during c s fs' → Step w (.running c s k) fs (.running c s k) fs'
  | execEnd (c s k fs n fs') : w.exec c s n fs' → Step w (.running c s k) fs (k n) fs'
  | listOk (dir acc k fs es) : DirList fs dir acc es → Step w (.list dir acc k) fs (k (some es)) fs
  | listFail (dir acc k fs) : w.listFails → Step w (.list dir acc k) fs (k none) fs
  | time (k fs t) : Step w (.time k) fs (k t) fs
  | sleep (k fs b) : Step w (.sleep k) fs (k b) fs

/-- The states a program can reach: where it is and what is on the disk. -/
inductive Reach (w : World) {α : Type} : Prog α → FS → Prog α → FS → Prop where
  | here (p fs) : Reach w p fs p fs
  | step {p fs p' fs' p'' fs''} : Step w p fs p' fs' → Reach w p' fs' p'' fs'' → Reach w p fs p'' fs''

/-- Whatever fails and wherever the program is stopped, `I` holds of the disk; the program does nothing
undefined; and when it is finished, `Q` holds of its result and the disk. -/
def Through (w : World) {α : Type} (I : FS → Prop) (Q : α → FS → Prop) (p : Prog α) (fs : FS) : Prop :=
  ∀ p' fs', Reach w p fs p' fs' → I fs' ∧ (∀ a, p' = .ret a → Q a fs') ∧ (∀ u, p' ≠ .ub u)

end CM
