import Verif.Spec.Pkt
import Verif.Model.MsgBase
/-! # Messages that a *.msg area keeps, from outside

A message is stored with its text as it is. When it is read again, some lines are put into the text. -/

namespace CM

/-- The lines at the beginning of a text behind which lines are added: control lines, and those that begin with a line feed. -/
def leadLine (l : Str) : Bool := l.head? == some 1 || l.head? == some 10

/-- A text with lines added before the first line that is no control line. -/
def withLines (new : List Str) (t : Str) : Str :=
  ((pieces t).takeWhile leadLine).flatten ++ new.flatten ++ ((pieces t).dropWhile leadLine).flatten

/-- The line that is added to say who has read the message: RESCANNED in a rescan, TID otherwise (if so configured). -/
def msgNewLines (o : MsgOpt) (rescan : Bool) (aka : Node4D) : List Str :=
  if rescan then
    [1 :: b!"RESCANNED " ++ dec aka.zone.toNat ++ b!":" ++ dec aka.net.toNat ++ b!"/" ++ dec aka.node.toNat ++ b!"." ++ dec aka.point.toNat ++ [13]]
  else if o.addTID then [tidLine] else []

/-- The INTL line that is added to a netmail without zones (if so configured): the zone of the area on both sides. -/
def msgZoneLine (o : MsgOpt) (zone : UInt16) (orig dest : Node4D) : List Str :=
  if o.forceIntl then
    [1 :: b!"INTL " ++ dec zone.toNat ++ b!":" ++ dec dest.net.toNat ++ b!"/" ++ dec dest.node.toNat ++ b!" " ++
      dec zone.toNat ++ b!":" ++ dec orig.net.toNat ++ b!"/" ++ dec orig.node.toNat ++ [13]]
  else []

/-- The attributes that come back: all but Received, Sent, InTransit, Orphan, Kill, Local, the unused one and FileUpdateRequest. -/
def msgAttrs : UInt16 := 0x7A13

/-- The fields of a message that came back, and its text with the lines that were added. -/
structure CameBack (new : List Str) (m m' : MemMsg) : Prop where
  to : m'.to = m.to
  frm : m'.frm = m.frm
  subject : m'.subject = m.subject
  date : m'.date = m.date
  cost : m'.cost = m.cost
  attr : m'.attr = m.attr &&& msgAttrs
  text : m'.text.flatten = withLines new m.text.flatten

end CM
