import Verif.Model.MemMessage
/-!
# Configuration records

The parts of `crashmail/config.h` the other modules use. Pointers between configuration records
(`TossNode.ConfigNode`, `Area.Aka`, …) are modelled by the position of the target in its list.
-/

namespace CM

/-- `struct ConfigNode` (`config.h` 155-195) without statistics, packer and list link. -/
structure ConfigNode where
  node : Node4D
  packetPW : Str := []
  areafixPW : Str := []
  groups : Str := []
  readOnlyGroups : Str := []
  addGroups : Str := []
  defaultGroup : UInt8 := 0
  flags : UInt32 := 0
  sysopName : Str := []
  echomailPri : UInt8 := 2
  pktFrom : Node4D := ⟨0, 0, 0, 0⟩
  remoteAFName : Str := []
  remoteAFPw : Str := []
  packer : Option Nat := none
  remoteAF : List Str := []
  changed : Bool := false
  deriving DecidableEq, Repr

/-- `cnode->Flags & mask`. -/
def ConfigNode.has (n : ConfigNode) (mask : UInt32) : Bool := n.flags &&& mask != 0

/-- `NODE_*` (`config.h` 137-148). -/
def NODE_AUTOADD : UInt32 := 1
def NODE_PASSIVE : UInt32 := 2
def NODE_TINYSEENBY : UInt32 := 4
def NODE_NOSEENBY : UInt32 := 8
def NODE_FORWARDREQ : UInt32 := 16
def NODE_NOTIFY : UInt32 := 32
def NODE_PACKNETMAIL : UInt32 := 64
def NODE_SENDAREAFIX : UInt32 := 128
def NODE_SENDTEXT : UInt32 := 256
def NODE_PKTFROM : UInt32 := 512
def NODE_AFNEEDSPLUS : UInt32 := 1024
def NODE_NONETMAILPASSWORD : UInt32 := 2048

/-- `struct Aka` (`config.h` 105-112): own address, ADDNODES and REMNODES. -/
structure Aka where
  node : Node4D
  domain : Str := []
  addList : List Node4D := []
  remList : List Pat2 := []
  deriving DecidableEq, Repr

/-- The first configured node `Compare4D` accepts (the search loops of `pkt.c` 249-250, 448-449,
915-916 and others). -/
def findNode (nodes : List ConfigNode) (a : Node4D) : Option ConfigNode :=
  nodes.find? fun n => compare4D n.node a == 0

/-- `PKTS_*` (`config.h` 232-236). -/
def PKTS_ECHOMAIL : UInt8 := 0
def PKTS_HOLD : UInt8 := 1
def PKTS_NORMAL : UInt8 := 2
def PKTS_DIRECT : UInt8 := 3
def PKTS_CRASH : UInt8 := 4

end CM
