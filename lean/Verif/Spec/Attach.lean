import Verif.Model.Handle
import Verif.Spec.FilterVar
import Verif.Spec.ListOut

/-! # File attaches and netmails that are not passed on: specification (C112) -/

namespace CM

/-! ## Subjects that name files -/

/-- Names are separated by blanks, tabs and commas. -/
def NameSep (c : UInt8) : Prop := c = 32 ∨ c = 9 ∨ c = 44

/-- A name as it stands in a subject. -/
def AttachName (w : Str) : Prop := w ≠ [] ∧ w.head? ≠ some 34 ∧ ∀ c ∈ w, ¬ NameSep c ∧ c ≠ 10

/-- The names in a subject. -/
inductive NamesIn : List Str → Str → Prop
  | nil (b : Str) : (∀ c ∈ b, NameSep c) → NamesIn [] b
  | last (b w : Str) : (∀ c ∈ b, NameSep c) → AttachName w → NamesIn [w] (b ++ w)
  | cons (b w : Str) (c : UInt8) (ws : List Str) (r : Str) : (∀ c ∈ b, NameSep c) → AttachName w → NameSep c → NamesIn ws r →
      NamesIn (w :: ws) (b ++ w ++ c :: r)

/-- The name with the separators of directories used here. -/
def slashed (w : Str) : Str := w.map fun c => if c = 92 then 47 else c

/-- `b` is the name `f` without directories. -/
def BareName (f b : Str) : Prop := (47 : UInt8) ∉ b ∧ (f = b ∨ ∃ d, f = d ++ 47 :: b)

/-- Names with one blank between them. -/
def blankJoin : List Str → Str
  | [] => []
  | [b] => b
  | b :: c :: r => b ++ 32 :: blankJoin (c :: r)

/-! ## What happens to a file -/

/-- What is done with the file called `f` after the effects `log`. The node `dest` gets it with the
flavour of the message. -/
inductive FileSent (env : Env) (cfg : Config) (m : MemMsg) (dest : Node4D) (log : List Effect) (f : Str) : List Effect → Prop
  /-- A file of a message written here is copied and the copy is sent and then deleted. -/
  | copied (b : Str) : m.flags &&& MMFLAG_EXPORTED ≠ 0 → BareName f b → env.fileExists log f = true → env.copyOk log f (pathIn cfg.packetDir b) = true →
      FileSent env cfg m dest log f [.copyFile f (pathIn cfg.packetDir b), .flow (pathIn cfg.packetDir b) dest m.type true]
  /-- A file that is not there is left to the mailer under its name and not deleted. -/
  | absent : m.flags &&& MMFLAG_EXPORTED ≠ 0 → env.fileExists log f = false → FileSent env cfg m dest log f [.flow f dest m.type false]
  /-- A file that came with a message is taken from the inbound. -/
  | moved (b : Str) : m.flags &&& MMFLAG_EXPORTED = 0 → BareName f b → env.moveOk log (pathIn cfg.inbound b) (pathIn cfg.packetDir b) = true →
      FileSent env cfg m dest log f
        [.moveFile (pathIn cfg.inbound b) (pathIn cfg.packetDir b), .flow (pathIn cfg.packetDir b) dest m.type true]
  | stays (b : Str) : m.flags &&& MMFLAG_EXPORTED = 0 → BareName f b → env.moveOk log (pathIn cfg.inbound b) (pathIn cfg.packetDir b) = false →
      FileSent env cfg m dest log f [.flow (pathIn cfg.inbound b) dest m.type true]

/-- The files are sent one after the other. -/
inductive FilesSent (env : Env) (cfg : Config) (m : MemMsg) (dest : Node4D) : List Effect → List Str → List Effect → Prop
  | nil (log : List Effect) : FilesSent env cfg m dest log [] log
  | cons (log : List Effect) (f : Str) (fs : List Str) (es log' : List Effect) : FileSent env cfg m dest log f es →
      FilesSent env cfg m dest (log ++ es) fs log' → FilesSent env cfg m dest log (f :: fs) log'

/-- A file that is there cannot be copied. -/
def CopyFails (env : Env) (cfg : Config) (m : MemMsg) (log : List Effect) (f : Str) : Prop :=
  m.flags &&& MMFLAG_EXPORTED ≠ 0 ∧ env.fileExists log f = true ∧ ∃ b, BareName f b ∧ env.copyOk log f (pathIn cfg.packetDir b) = false

/-! ## Netmails that are not passed on -/

/-- Why a netmail is sent back. -/
inductive Refusal where
  | unlisted | noPoint | noAttach

/-- When there is the reason. -/
def Refusal.Holds (cfg : Config) (m : MemMsg) : Refusal → Prop
  | .unlisted => cfg.nlConfigured = true ∧ (∃ p ∈ cfg.bounceList, compare4DPat cfg.nl p m.dest = true) ∧ cfg.nlCheck (bossOf m.dest) = false
  | .noPoint => cfg.has CFG_BOUNCEPOINTS = true ∧ (∃ a ∈ cfg.akas, SameNode a.node (bossOf m.dest)) ∧ ¬ Configured cfg m.dest
  | .noAttach => m.attr &&& FLAG_FILEATTACH ≠ 0 ∧ m.flags &&& MMFLAG_EXPORTED = 0 ∧
      ∀ p ∈ cfg.fileAttachList, compare4DPat cfg.nl p m.dest = false

/-- What the sender is told. -/
def Refusal.text (d : Node4D) : Refusal → Str
  | .unlisted => b!"Warning! Your message has been bounced because the node " ++ dec d.zone.toNat ++ b!":" ++ dec d.net.toNat ++ b!"/" ++
      dec d.node.toNat ++ b!" doesn't exist in the nodelist."
  | .noPoint => b!"Warning! Your message has been bounced because the point " ++ dec d.zone.toNat ++ b!":" ++ dec d.net.toNat ++ b!"/" ++
      dec d.node.toNat ++ b!"." ++ dec d.point.toNat ++ b!" doesn't exist."
  | .noAttach => b!"Warning! Your message has been bounced because because routing of file-attaches to " ++ dec d.zone.toNat ++ b!":" ++
      dec d.net.toNat ++ b!"/" ++ dec d.node.toNat ++ b!"." ++ dec d.point.toNat ++ b!" is not allowed."

/-- The first reason there is. -/
inductive FirstRefusal (cfg : Config) (m : MemMsg) : Refusal → Prop
  | unlisted : Refusal.Holds cfg m .unlisted → FirstRefusal cfg m .unlisted
  | noPoint : ¬ Refusal.Holds cfg m .unlisted → Refusal.Holds cfg m .noPoint → FirstRefusal cfg m .noPoint
  | noAttach : ¬ Refusal.Holds cfg m .unlisted → ¬ Refusal.Holds cfg m .noPoint → Refusal.Holds cfg m .noAttach → FirstRefusal cfg m .noAttach

end CM
