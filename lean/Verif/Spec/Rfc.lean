import Verif.Model.Rfc
/-! # Messages as mail files, from outside

A mail file: header lines, an empty line, the lines of the text. -/

namespace CM

/-- The lines of a text, each ended by the byte `e`; what is behind the last one is left out. -/
def linesEnded (e : UInt8) (cur : Str) : Str → List Str
  | [] => []
  | c :: r => if c = e then cur :: linesEnded e [] r else linesEnded e (cur ++ [c]) r

/-- The header lines and the text lines of a mail file. -/
def mailFile (d : Data) : List Str × List Str :=
  ((linesEnded 10 [] d).takeWhile (· ≠ []), ((linesEnded 10 [] d).dropWhile (· ≠ [])).drop 1)

/-- `zone:net/node.point@domain`. -/
def fidoAddress (n : Node4D) (dom : Str) : Str :=
  dec n.zone.toNat ++ b!":" ++ dec n.net.toNat ++ b!"/" ++ dec n.node.toNat ++ b!"." ++ dec n.point.toNat ++ b!"@" ++ dom

/-- `User_Name@p1.f2.n3.z4.domain`, without the first part for a system that is no point. -/
def inetAddress (name : Str) (n : Node4D) (dom : Str) : Str :=
  name.map (fun c => if c = 32 then 95 else c) ++ b!"@" ++ (if n.point = 0 then [] else b!"p" ++ dec n.point.toNat ++ b!".") ++
    b!"f" ++ dec n.node.toNat ++ b!".n" ++ dec n.net.toNat ++ b!".z" ++ dec n.zone.toNat ++ b!"." ++
    (if dom.map lower = b!"fidonet" then b!"fidonet.org" else dom.map lower)

/-- The domain of the system with an address: that of the first AKA with this address (zone 0 standing for any zone), or FidoNet. -/
def homeDomain (akas : List Aka) (n : Node4D) : Str :=
  match (akas.filter fun k => (k.node.zone = n.zone ∨ k.node.zone = 0 ∨ n.zone = 0) ∧ k.node.net = n.net ∧ k.node.node = n.node ∧
    k.node.point = n.point).map (·.domain) with
  | [] => b!"FidoNet"
  | d :: _ => if d = [] then b!"FidoNet" else d

/-- The header lines of a message. -/
def mailHeader (m : MemMsg) (dom : Str) (inet : Bool) : List Str :=
  [b!"From: " ++ (if inet then inetAddress m.frm m.orig dom else fidoAddress m.orig dom) ++ b!" (" ++ m.frm ++ b!")",
   b!"To: " ++ (if inet then inetAddress m.to m.dest dom else fidoAddress m.dest dom) ++ b!" (" ++ m.to ++ b!")",
   b!"Subject: " ++ m.subject, b!"Date: " ++ m.date] ++
  (if m.msgid = [] then [] else [b!"Message-ID: <" ++ m.msgid ++ b!">"]) ++
  (if m.reply = [] then [] else [b!"References: <" ++ m.reply ++ b!">"])

/-- The control lines of a text, as header lines. -/
def mailControl (ls : List Str) : List Str :=
  (ls.filter fun l => l.head? = some 1 && l ≠ [1]).map fun l => b!"X-Fido-" ++ l.drop 1

/-- A line and the lines it is broken into: a line of less than 78 bytes is kept; a longer one is broken at the last space within 78 bytes
(but not at the first byte), which is left out, or after 78 bytes if there is none. -/
inductive Folded : Str → List Str → Prop where
  | short {l : Str} : l.length < 78 → Folded l [l]
  | space {a b : Str} {ls : List Str} : a ≠ [] → a.length < 78 → 78 ≤ (a ++ 32 :: b).length → 32 ∉ b.take (77 - a.length) → Folded b ls →
      Folded (a ++ 32 :: b) (a :: ls)
  | full {a : Str} : a.length = 78 → 32 ∉ a.drop 1 → Folded a [a]
  | cut {a b : Str} {ls : List Str} : a.length = 78 → 32 ∉ a.drop 1 → b ≠ [] → Folded b ls → Folded (a ++ b) (a :: ls)

/-- All lines of a text. -/
inductive FoldedText : List Str → List Str → Prop where
  | nil : FoldedText [] []
  | cons {l : Str} {ps ls qs : List Str} : Folded l ps → FoldedText ls qs → FoldedText (l :: ls) (ps ++ qs)

/-- A message that can be written as a mail file: its names and the domain are as long as they can be, its header fields and lines have no
line feeds, and every part of its text ends with a line. -/
structure Mailable (akas : List Aka) (m : MemMsg) : Prop where
  names : m.frm.length ≤ 35 ∧ m.to.length ≤ 35
  domain : (homeDomain akas m.dest).length ≤ 19
  header : ∀ s ∈ [m.frm, m.to, m.subject, m.date, m.msgid, m.reply, homeDomain akas m.dest], 10 ∉ s
  text : ∀ c ∈ m.text, (c = [] ∨ c.getLast? = some 13) ∧ 10 ∉ c ∧ NoNul c

/-- A string in which every placeholder has been replaced. `%a` is the area, `%r` and `%R` are the two mail files, `%m` the message file,
`%s` the subject, `%x` the date, `%f` and `%t` the names, `%o` and `%d` the addresses; another byte after `%` stands for itself. -/
def filledIn (a : XArgs) : Str → Str
  | [] => []
  | 37 :: c :: r =>
    (match ([(97, a.area), (114, a.rfc1), (82, a.rfc2), (109, a.msg), (77, a.msg), (115, a.subj), (83, a.subj), (120, a.date), (88, a.date),
        (102, a.frm), (70, a.frm), (116, a.to), (84, a.to), (111, a.orig), (79, a.orig), (100, a.dest), (68, a.dest)] : List (UInt8 × Str)).lookup c with
      | some t => t
      | none => [c]) ++ filledIn a r
  | c :: r => c :: filledIn a r

end CM
