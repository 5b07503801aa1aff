import Verif.Model.MsgBase
/-! # Message areas in the *.msg format, from outside

The file `n.msg` of a directory is message `n`; `1.msg` holds the high water mark. -/

namespace CM

/-- The path of a file in a directory. -/
def inDir (dir f : Str) : Str := (if dir.getLast? = some 47 then dir else dir ++ [47]) ++ f

/-- Message `n` of a directory. -/
def msgFile (dir : Str) (n : Nat) : Str := inDir dir (dec n ++ b!".msg")

/-- Names of directories as they are in the configuration (`char Path[80]`). -/
def DirName (dir : Str) : Prop := dir ≠ [] ∧ dir.length < 80

/-- No file that counts as a message has a number of `b` or more. -/
def NumbersBelow (fs : FS) (dir : Str) (b : Int) : Prop :=
  ∀ f, (47 : UInt8) ∉ f → isMsgName f = true → fs (makeFullPath dir f 200) ≠ none → atoi f < b ∧ atoi (f.take 99) < b

/-- All files of `fs` are as they were. -/
def AllKept (fs fs' : FS) : Prop := ∀ f, fs f ≠ none → fs' f = fs f

/-- The fields of the message fit the header: the buffers of `struct MemMessage` are as large. -/
def FieldsFit (m : MemMsg) : Prop := m.frm.length < 36 ∧ m.to.length < 36 ∧ m.subject.length < 72 ∧ m.date.length < 20

/-- A message that is to be sent: it is complete, marked as local (bit 8) and not as sent (bit 3). -/
def Unsent (d : Data) : Prop := 190 ≤ d.length ∧ ∃ x y, d[186]? = some x ∧ d[187]? = some y ∧ x &&& 8 = 0 ∧ y &&& 1 ≠ 0

/-- Message `n` of the directory is to be sent. -/
def Waiting (fs : FS) (dir : Str) (n : Nat) : Prop := ∃ d, fs (msgFile dir n) = some d ∧ Unsent d

/-- What becomes of a message that has been sent: it is not to be sent any more. If messages are not
written back, everything but its flags and the zones in the header is as it was. -/
structure SentCopy (o : MsgOpt) (d d' : Data) : Prop where
  sent : ¬ Unsent d'
  same : o.writeback = false → d'.length = d.length ∧ ∀ k, (k < 176 ∨ 179 < k) → k ≠ 186 → d'[k]? = d[k]?

/-- The high water mark of a directory: bytes 184 and 185 of `1.msg`. -/
def highWater (o : MsgOpt) (fs : FS) (dir : Str) (n : Nat) : Prop :=
  if o.highwater = true ∧ ∃ f, fs (msgFile dir 1) = some f ∧ 190 ≤ f.length then
    ∃ f x y, fs (msgFile dir 1) = some f ∧ f[184]? = some x ∧ f[185]? = some y ∧ n = x.toNat + 256 * y.toNat
  else n = 0

end CM
