import Verif.Props.PktRound
import Verif.Model.Handle
/-!
# Messages that are given other addresses: specification

`doc/filter.txt`: REMAPMSG gives a netmail another recipient, MASQUERADE gives a message another sender.
-/

namespace CM

/-- The text consists of these lines; each is ended by a CR. -/
def IsLines (t : Str) (ls : List Str) : Prop := ls.flatten = t ∧ ∀ l ∈ ls, ∃ q : Str, l = q ++ [13] ∧ 13 ∉ q

/-- An address as it is shown. -/
def shown (n : Node4D) : Str :=
  dec n.zone.toNat ++ 58 :: (dec n.net.toNat ++ 47 :: (dec n.node.toNat ++ 46 :: dec n.point.toNat))

/-- The name a pattern asks for. -/
def named (pat old : Str) : Str := if pat = [42] then old else pat

/-- The address this system has towards `d`. -/
def towards (c : Config) (d : Node4D) : Node4D :=
  match c.findRoute d with
  | some r => r.aka
  | none => ⟨0, 0, 0, 0⟩

/-- A line that tells addresses. -/
def addrLine (l : Str) : Bool :=
  (1 :: b!"INTL").isPrefixOf l || (1 :: b!"FMPT").isPrefixOf l || (1 :: b!"TOPT").isPrefixOf l

/-- What is added below a remapped message. -/
def remapNote (c : Config) (to : Str) (d : Node4D) (oldTo : Str) (old : Node4D) : Str :=
  1 :: b!"Remapped to " ++ to ++ b!" at " ++ shown d ++ b!" by " ++ shown (towards c d) ++ [13] ++
    (1 :: b!"Message originally to " ++ oldTo ++ b!" at " ++ shown old ++ b!"d")

/-- The netmail `m` has been sent on as `m'`, to `name` at `d`. -/
structure Remapped (c : Config) (m : MemMsg) (name : Str) (d : Node4D) (m' : MemMsg) : Prop where
  to : m'.to = named name m.to
  dest : m'.dest = d
  others : m' = { m with
    to := m'.to
    dest := m'.dest
    text := m'.text }
  text : ∃ ls, IsLines m.text.flatten ls ∧
    m'.text.flatten = (netmailKludgeLines (c.has CFG_FORCEINTL) m.orig d).flatten ++ (ls.filter (!addrLine ·)).flatten ++
      remapNote c m'.to d m.to m.dest

/-- A line that tells who has sent a message, or which way it has come. -/
def senderLine (netmail : Bool) (l : Str) : Bool :=
  addrLine l || (1 :: b!"MSGID").isPrefixOf l || (1 :: b!"Via").isPrefixOf l || (netmail && (1 :: b!"REPLY").isPrefixOf l)

/-- An origin line with an address, that is, some text in parentheses. -/
def OriginAt (x y z : Str) (l : Str) : Prop := l = b!" * Origin" ++ x ++ 40 :: (y ++ 41 :: z) ∧ 40 ∉ x ∧ 41 ∉ y

/-- What becomes of a line of a message that is given the sender's address `a`. -/
inductive MasqLine (netmail : Bool) (a : Str) : Str → Str → Prop
  | gone {l : Str} (h : senderLine netmail l = true) : MasqLine netmail a l []
  | origin {l x y z : Str} (h : OriginAt x y z l) : MasqLine netmail a l (b!" * Origin" ++ x ++ 40 :: (a ++ 41 :: z))
  | kept {l : Str} (h : senderLine netmail l = false) (ho : ∀ x y z, ¬ OriginAt x y z l) : MasqLine netmail a l l

/-- The same for each of several lines. -/
inductive MasqText (netmail : Bool) (a : Str) : List Str → List Str → Prop
  | nil : MasqText netmail a [] []
  | cons {l o : Str} {ls os : List Str} (h : MasqLine netmail a l o) (hs : MasqText netmail a ls os) : MasqText netmail a (l :: ls) (o :: os)

/-- The identification of a message with another address; what has none is left. -/
def relabel (a old : Str) : Str := if 32 ∈ old then a ++ old.dropWhile (· != 32) else old

/-- The line that tells it. -/
def idLine (kludge id : Str) : Str := if 32 ∈ id then 1 :: kludge ++ b!": " ++ id ++ [13] else []

/-- The message `m` has been given the sender `name` at `o`. -/
structure Masqueraded (c : Config) (m : MemMsg) (name : Str) (o : Node4D) (m' : MemMsg) : Prop where
  frm : m'.frm = named name m.frm
  orig : m'.orig = o
  msgid : m'.msgid = relabel (shown o) m.msgid
  reply : m'.reply = if m.area = [] then relabel (shown o) m.reply else m.reply
  origin : m'.origin4D = if m.area = [] then m.origin4D else o
  seenBy : m'.seenBy = [[(o.net, o.node)]]
  path : m'.path = [[dec o.net.toNat ++ 47 :: dec o.node.toNat]]
  others : m' = { m with
    frm := m'.frm
    orig := m'.orig
    msgid := m'.msgid
    reply := m'.reply
    origin4D := m'.origin4D
    seenBy := m'.seenBy
    path := m'.path
    text := m'.text }
  text : ∃ ls out, IsLines m.text.flatten ls ∧ MasqText (m.area == []) (shown o) ls out ∧
    m'.text.flatten = idLine b!"MSGID" m'.msgid ++ (if m.area = [] then idLine b!"REPLY" m'.reply else []) ++
      (if m.area = [] then (netmailKludgeLines (c.has CFG_FORCEINTL) o m.dest).flatten else []) ++ out.flatten

/-- No origin line has an address that is not closed. -/
def OriginsClosed (t : Str) : Prop :=
  ∀ ls, IsLines t ls → ∀ l ∈ ls, b!" * Origin" <+: l → 40 ∈ l → ∃ x y z, OriginAt x y z l

/-- The identifications fit into their lines. -/
def IdsFit (m : MemMsg) (o : Node4D) : Prop :=
  (relabel (shown o) m.msgid).length ≤ 70 ∧ (relabel (shown o) m.reply).length ≤ 70

/-- A text of chunks that hold complete lines only. -/
def WholeText (cs : List Str) : Prop := TextOK cs ∧ ∀ c ∈ cs, EndsCR c

end CM
