import Verif.Spec.Pkt
import Verif.Model.CrashWrite
/-! # Messages written from the command line: specification -/

namespace CM

/-- A text file: complete lines, ended by LF, or by CR and LF if the flag is set, and what comes after
the last line end. -/
def textFile (ls : List (Str × Bool)) (last : Str) : List UInt8 :=
  (ls.flatMap fun l => l.1 ++ if l.2 then [13, 10] else [10]) ++ last

/-- The lines contain no line ends and no NULs. -/
structure PlainText (ls : List (Str × Bool)) (last : Str) : Prop where
  lines : ∀ l ∈ ls, NoNul l.1 ∧ (13 : UInt8) ∉ l.1 ∧ (10 : UInt8) ∉ l.1
  last : NoNul last ∧ (13 : UInt8) ∉ last ∧ (10 : UInt8) ∉ last

/-- No pair of CR and LF is torn apart: the program reads 99 bytes at a time. -/
def Untorn (ls : List (Str × Bool)) : Prop := ∀ l ∈ ls, l.2 = true → l.1.length % 99 ≠ 98

/-- Lines as they are stored in a message. -/
def crEnded (ls : List Str) : Str := ls.flatMap (· ++ [13])

/-- An address argument: `n` is the address given, or `dflt` if none is given. -/
def AddrArg (dflt : Node4D) (o : Option Str) (n : Node4D) : Prop :=
  (o = none ∧ n = dflt) ∨ ∃ s, o = some s ∧ parse4D s = some n

/-- The addresses of the message and of the packet that a command line asks for. -/
structure AddrArgs (a : WriteArgs) (orig dest pOrig pDest : Node4D) : Prop where
  frm : AddrArg ⟨0, 0, 0, 0⟩ a.fromAddr orig
  to : AddrArg ⟨0, 0, 0, 0⟩ a.toAddr dest
  pktFrm : AddrArg orig a.pktFrom pOrig
  pktTo : AddrArg dest a.pktTo pDest

/-- The text that a command line asks for. -/
def TextArg (a : WriteArgs) (disk : Str → Option (List UInt8)) (ls : List (Str × Bool)) (last : Str) : Prop :=
  (a.text = none ∧ ls = [] ∧ last = []) ∨ ∃ f, a.text = some f ∧ disk f = some (textFile ls last)

/-- The arguments are C strings. -/
structure CArgs (a : WriteArgs) : Prop where
  fromName : ∀ s, a.fromName = some s → NoNul s
  toName : ∀ s, a.toName = some s → NoNul s
  subject : ∀ s, a.subject = some s → NoNul s
  origin : ∀ s, a.origin = some s → NoNul s
  password : ∀ s, a.password = some s → NoNul s

/-- A packet between these two systems with this password is accepted. -/
structure Welcome (cfg : PktCfg) (orig dest : Node4D) (pw : Str) : Prop where
  zones : orig.zone ≠ 0 ∧ dest.zone ≠ 0
  net : orig.point = 0 ∨ orig.net ≠ 0xffff
  toMe : cfg.checkDest = true → cfg.noSecurity = false → ∃ a ∈ cfg.akas, compare4D a.node dest = 0
  short : pw.length ≤ 8
  password : ∀ n, findNode cfg.nodes orig = some n → n.packetPW = [] ∨ pw.map lower = n.packetPW.map lower

/-- The control lines of a netmail between these two addresses. -/
def addressLines (orig dest : Node4D) : List Str :=
  (if orig.point = 0 then [] else [1 :: b!"FMPT " ++ dec orig.point.toNat]) ++
  (if dest.point = 0 then [] else [1 :: b!"TOPT " ++ dec dest.point.toNat]) ++
  [1 :: b!"INTL " ++ print4D { dest with point := 0 } ++ b!" " ++ print4D { orig with point := 0 }]

/-- The line that identifies the message in packet number `num`. -/
def idLines (a : WriteArgs) (orig : Node4D) (num : UInt32) : List Str :=
  if a.noMsgid then [] else [1 :: b!"MSGID: " ++ writeNode4D orig ++ b!" " ++ hexW 8 num.toNat]

/-- The lines at the end of an echomail. -/
def closingLines (a : WriteArgs) (orig : Node4D) : List Str :=
  [b!"--- CrashWrite II/Linux 1.5.1",
   b!" * Origin: " ++ (a.origin.getD b!"Another user of CrashMail II").take 79 ++ b!" (" ++ writeNode4D orig ++ b!")"]

end CM
