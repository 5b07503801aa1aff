import Verif.Spec.Jam
import Verif.Model.MbJam
/-! # Messages that a JAM area keeps, from outside

A JAM area does not store a message as it is: the control lines become subfields, and the header has other fields. Described here is
which messages come back, and what they look like then. -/

namespace CM

/-- The control lines with the addresses, which are written anew. -/
def AddressLine (t : Str) : Prop := (1 :: b!"INTL") <+: t ∨ (1 :: b!"TOPT") <+: t ∨ (1 :: b!"FMPT") <+: t

instance (t : Str) : Decidable (AddressLine t) := by unfold AddressLine; infer_instance

/-- The argument of a control line: it does not begin with a blank and ends with a printable ASCII character, and has at most `n` characters. -/
def ArgOk (n : Nat) (v : Str) : Prop := v.head? ≠ some 32 ∧ (∃ c, v.getLast? = some c ∧ 32 < c ∧ c < 128) ∧ v.length ≤ n

/-- A control line (without its end) that is kept: PID, MSGID and REPLY with one blank behind the colon; FLAGS is not among them, and PATH is none
in echomail. -/
def KeptLine (echo : Prop) (t : Str) : Prop :=
  (∃ name v, name ∈ [b!"PID:", b!"MSGID:", b!"REPLY:"] ∧ t = 1 :: name ++ 32 :: v ∧ ArgOk 98 v) ∨
  (∃ v, t = 1 :: v ∧ ArgOk 99 v ∧ (∀ name ∈ [b!"PID:", b!"MSGID:", b!"REPLY:", b!"FLAGS:", b!"INTL", b!"TOPT", b!"FMPT"], ¬ name <+: v) ∧
    (echo → ¬ b!"PATH:" <+: v))

/-- A line of the text. In echomail the address in an origin line must be one that can be read (see C15). -/
structure JamLineOk (echo : Prop) (l : Str) : Prop where
  ends : ∃ t, l = t ++ [13] ∧ 13 ∉ t ∧ 10 ∉ t ∧ NoNul t
  control : l.head? = some 1 → ∀ t, l = t ++ [13] → AddressLine t ∨ KeptLine echo t
  origin : echo → b!" * Origin: " <+: l → ∃ x, extractAddress (mystrncpy l (min l.length 200)) = .ok x

/-- The lines that come back in front of the text, and behind them. -/
def isControl (l : Str) : Bool := l.head? == some 1
def controlsBack (ls : List Str) : List Str := ls.filter fun l => isControl l && !decide (AddressLine l)
def bodyBack (ls : List Str) : List Str := ls.filter fun l => !isControl l

/-- The lines that are added: those with the addresses, in netmail, and TID or RESCANNED. -/
def jamNewLines (o : JamOpt) (netmail rescan : Bool) (aka orig dest : Node4D) : List Str :=
  let addr (n : Node4D) : Str := dec n.zone.toNat ++ b!":" ++ dec n.net.toNat ++ b!"/" ++ dec n.node.toNat
  (if netmail then
    (if orig.zone ≠ dest.zone ∨ o.forceIntl then [1 :: b!"INTL " ++ addr dest ++ b!" " ++ addr orig ++ [13]] else []) ++
    (if orig.point ≠ 0 then [1 :: b!"FMPT " ++ dec orig.point.toNat ++ [13]] else []) ++
    (if dest.point ≠ 0 then [1 :: b!"TOPT " ++ dec dest.point.toNat ++ [13]] else []) else []) ++
  (if rescan then [1 :: b!"RESCANNED " ++ addr aka ++ b!"." ++ dec aka.point.toNat ++ [13]]
   else if o.addTID then [tidLine] else [])

/-- The header of a message that fits. -/
structure JamHeadOk (m : MemMsg) : Prop where
  frm : NoNul m.frm ∧ m.frm.length ≤ 35
  to : NoNul m.to ∧ m.to.length ≤ 35
  subject : NoNul m.subject ∧ m.subject.length ≤ 71
  file : m.attr &&& 16 ≠ 0 → m.subject ≠ [] ∧ ∀ c ∈ m.subject, c ≠ 32 ∧ c ≠ 44

/-- The attributes of which a JAM area keeps the value: Private, Crash, FileAttach, Hold, FileRequest and ReturnReceiptRequest. -/
def jamAttrs : UInt16 := 0x1A13

/-- A line of the PATH that is kept. -/
def PathLineOk (p : Str) : Prop := NoNul p ∧ (∃ c, p.getLast? = some c ∧ 32 < c ∧ c < 128) ∧ p.length ≤ 98

end CM
