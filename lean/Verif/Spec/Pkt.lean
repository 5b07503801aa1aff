import Verif.Model.Types
import Verif.Model.Bytes
/-! # The packet format, independent of the reader -/

namespace CM

/-- Two bytes of a buffer as a little-endian number. -/
def u16At (b : List UInt8) (off : Nat) : Nat := (b[off]?.getD 0).toNat + 256 * (b[off + 1]?.getD 0).toNat

/-- The contents of one packed message. -/
structure RawMsg where
  hdr : List UInt8        -- the 14 bytes of the message header
  date : Str
  to : Str
  frm : Str
  subject : Str
  text : Str

/-- The bytes of a packed message: header, four NUL-terminated strings, NUL-terminated text. -/
def RawMsg.bytes (r : RawMsg) : List UInt8 :=
  r.hdr ++ (r.date ++ 0 :: (r.to ++ 0 :: (r.frm ++ 0 :: (r.subject ++ 0 :: (r.text ++ [0])))))

/-- A well-formed packed message: type 2, strings within the limits of the format. -/
structure RawMsg.OK (r : RawMsg) : Prop where
  hdr : r.hdr.length = 14
  type : u16At r.hdr 0 = 2
  date : NoNul r.date ∧ r.date.length ≤ 19
  to : NoNul r.to ∧ r.to.length ≤ 35
  frm : NoNul r.frm ∧ r.frm.length ≤ 35
  subject : NoNul r.subject ∧ r.subject.length ≤ 71
  text : NoNul r.text

/-- The end of a packet: two zero bytes, followed by anything (a single zero byte is accepted after
at least one message). -/
def PktTail (first : Bool) (t : List UInt8) : Prop := (∃ r, t = 0 :: 0 :: r) ∨ (first = false ∧ t = [0])

/-- Text cut into lines: after every CR or LF, and after 198 bytes without one. -/
def piecesFrom (cur : Str) : Str → List Str
  | [] => if cur = [] then [] else [cur]
  | c :: r =>
    if c = 10 ∨ c = 13 ∨ cur.length = 197 then (cur ++ [c]) :: piecesFrom [] r
    else piecesFrom (cur ++ [c]) r

def pieces (t : Str) : List Str := piecesFrom [] t

/-! ## Lines that are read without leaving the line buffer -/

/-- A control line is complete: it ends in CR or LF, or is long enough to hold any keyword and a
separator. -/
def SafeKludge (l : Str) : Prop :=
  l.head? = some 1 → 8 ≤ l.length ∨ l.getLast? = some 13 ∨ l.getLast? = some 10

/-- The text after the last `(` of a line, if any, holds a digit and, after the first one, a `)`. -/
def SafeOrigin (l : Str) : Prop :=
  40 ∉ l ∨ ∃ a b d c e : Str, l = a ++ 40 :: (b ++ (d ++ (c ++ 41 :: e))) ∧ 40 ∉ b ++ (d ++ (c ++ 41 :: e)) ∧
    (∀ x ∈ b, isDigit x = false ∧ x ≠ 13) ∧ (∃ x, d = [x] ∧ isDigit x = true)

/-- Echomail lines: SEEN-BY and PATH have something after the keyword, PATH something visible;
origin lines have a closed address. -/
def SafeEcho (l : Str) : Prop :=
  SafeKludge l ∧ (b!"SEEN-BY:" <+: l → 9 ≤ l.length) ∧
  ((1 :: b!"PATH:") <+: l → 7 ≤ l.length ∧ (l.length = 7 ∨ ∃ c ∈ (l.drop 7).take 99, 33 ≤ c.toNat ∧ c.toNat < 128)) ∧
  (b!" * Origin: " <+: l → SafeOrigin l)

/-- Lines that are read within the line buffer wherever they occur in a message. -/
def SafeLine (l : Str) : Prop :=
  SafeEcho l ∧ (b!"AREA:" <+: l → ∃ c ∈ (l.drop 5).take 79, 33 ≤ c.toNat ∧ c.toNat < 128)

/-- The line a reader finds at a position of a packet: the first piece of the text up to the next NUL. -/
def lineAt (post : List UInt8) : Str := ((pieces (post.takeWhile (· != 0))).head?).getD []

end CM
