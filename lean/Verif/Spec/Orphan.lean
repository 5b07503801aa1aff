import Verif.Spec.Says
import Verif.Spec.Outbound
import Verif.Spec.Readdress
import Verif.Model.Pack
/-! # Orphan files: files for nodes that were busy when the mail was packed -/

namespace CM

/-- The flavours of mail. -/
inductive Flavour | normal | hold | direct | crash
  deriving DecidableEq

def Flavour.word : Flavour → Str
  | .normal => b!"Normal"
  | .hold => b!"Hold"
  | .direct => b!"Direct"
  | .crash => b!"Crash"

/-- The end of the name of the flow file. -/
def Flavour.ext : Flavour → Str
  | .normal => b!".flo"
  | .hold => b!".hlo"
  | .direct => b!".dlo"
  | .crash => b!".clo"

/-- The flavour of a packet type; echomail is sent as normal mail. -/
inductive TypeFlavour : UInt8 → Flavour → Prop
  | echo : TypeFlavour PKTS_ECHOMAIL .normal
  | normal : TypeFlavour PKTS_NORMAL .normal
  | hold : TypeFlavour PKTS_HOLD .hold
  | direct : TypeFlavour PKTS_DIRECT .direct
  | crash : TypeFlavour PKTS_CRASH .crash

/-- The word for what is to be done with the file after it was sent. -/
def afterWord : FlowMode → List Str
  | .none => []
  | .trunc => [b!"Truncate"]
  | .delete => [b!"Delete"]

/-- What is written before the name in a flow file. -/
def afterMark : FlowMode → Str
  | .none => []
  | .trunc => b!"#"
  | .delete => b!"^"

/-- The first line of an orphan file says: flavour, address, and what is to be done with the file. -/
def OrphanSays (c : Data) (fl : Flavour) (n : Node4D) (mode : FlowMode) : Prop :=
  ∃ l w a ws e r, c = l ++ e ++ r ∧ (e = b!"\n" ∨ e = b!"\r\n") ∧ l.getLast? ≠ some 13 ∧ NoNul l ∧ 10 ∉ l ∧ l.length ≤ 97 ∧
    WrittenLine (w :: a :: ws) l ∧ Ci w fl.word ∧ AddrSays a n ∧ ws.map (·.map lower) = (afterWord mode).map (·.map lower)

/-- The entry for a file in a flow file. -/
def flowEntryOf (crlf : Bool) (mode : FlowMode) (file : Str) : Str := afterMark mode ++ file ++ if crlf then [13] else []

end CM
