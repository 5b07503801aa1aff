import Verif.Spec.Readdress
import Verif.Spec.Reply
/-!
# Messages a system writes by itself: specification

Bounces, receipts and audits, and the copies filters make.
-/

namespace CM

/-- A netmail of this system, with the text `body` below its control lines. -/
structure Writes (c : Config) (aka dest : Node4D) (to subject : Str) (attr : UInt16) (body : Str) (t : MemMsg) : Prop where
  netmail : t.area = []
  orig : t.orig = aka
  dest : t.dest = dest
  frm : t.frm = c.sysop
  to : t.to = to
  subject : t.subject = subject
  attr : t.attr = attr
  text : ∃ k, ControlLines k ∧ t.text.flatten = k ++ body

/-- Control characters made visible. -/
def madeVisible (t : Str) : Str := t.map fun b => if b = 1 then 64 else b

/-- The text of a bounce: the reason, the header, and the message itself unless it is left out. -/
def bounceText (m : MemMsg) (sender : Node4D) (reason : Str) (headerOnly : Bool) : Str :=
  reason ++ [13, 13] ++
  (if headerOnly then b!"This is the header of the message that was bounced:" else b!"This is the message that was bounced:") ++ [13, 13] ++
  (if m.area = [] then [] else b!"Area: " ++ m.area ++ [13]) ++
  b!"From: " ++ m.frm ++ b!" (" ++ shown sender ++ b!")" ++ [13] ++
  b!"  To: " ++ m.to ++ (if m.area = [] then b!" (" ++ shown m.dest ++ b!")" else []) ++ [13] ++
  b!"Subj: " ++ m.subject ++ [13] ++ b!"Date: " ++ m.date ++ [13, 13] ++
  (if headerOnly then [] else madeVisible m.text.flatten)

/-- Which message is meant. -/
def yourMessage (m : MemMsg) : Str := b!"Your message to " ++ m.to ++ b!" dated " ++ m.date ++ b!" with the subject \"" ++ m.subject ++ b!"\""

/-- What has become of it. -/
def arrivedText : Str := b!" has reached its final destination. This message doesn't mean that the message has been read, it just tells you that it has arrived at this system."

/-- The text of a receipt. -/
def receiptText (m : MemMsg) : Str := yourMessage m ++ arrivedText ++ [13, 13]

/-- The text of an audit of a message that was sent to `d`. -/
def auditText (m : MemMsg) (d : Node4D) : Str :=
  yourMessage m ++ b!" has just been routed to " ++ shown d ++ b!" by this system." ++ [13, 13]

/-- The text of a copy: for echomail the name of the area is put in front. -/
def copyText (m : MemMsg) : Str := (if m.area = [] then [] else b!"AREA:" ++ m.area ++ [13]) ++ m.text.flatten

/-- The strings of the message have the lengths they have in packets. -/
structure Usual (m : MemMsg) : Prop where
  area : m.area.length ≤ 79
  frm : m.frm.length ≤ 35
  to : m.to.length ≤ 35
  subject : m.subject.length ≤ 71
  date : m.date.length ≤ 19
  chunks : ∀ c ∈ m.text, c.length ≤ chunkLen

end CM
