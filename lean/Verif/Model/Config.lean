import Verif.Model.Types
import Verif.Model.Dupe
/-!
# The configuration in memory, and the state message handling works on

The records of `crashmail/config.h` used by message handling, the effects message handling can have,
and the monad its functions run in. Counters and statistics are not modelled, nor is the text of log
messages. `osAlloc` succeeds.
-/

namespace CM

/-! ## Constants -/

/-- `MMFLAG_*` (`memmessage.h` 23-29). -/
def MMFLAG_RESCANNED : UInt16 := 1
def MMFLAG_EXPORTED : UInt16 := 2
def MMFLAG_TOSSED : UInt16 := 4
def MMFLAG_NOSECURITY : UInt16 := 8
def MMFLAG_AUTOGEN : UInt16 := 16
def MMFLAG_TWIT : UInt16 := 32
def MMFLAG_KILL : UInt16 := 64

/-- `FLAG_*` (`shared/fidonet.h`). -/
def FLAG_PVT : UInt16 := 1
def FLAG_CRASH : UInt16 := 2
def FLAG_SENT : UInt16 := 8
def FLAG_FILEATTACH : UInt16 := 16
def FLAG_LOCAL : UInt16 := 256
def FLAG_HOLD : UInt16 := 512
def FLAG_RREQ : UInt16 := 4096
def FLAG_IRRR : UInt16 := 8192
def FLAG_AUDIT : UInt16 := 16384

/-- `mm->Flags & mask`. -/
def MemMsg.has (m : MemMsg) (mask : UInt16) : Bool := m.flags &&& mask != 0

/-- `mm->Attr & mask`. -/
def MemMsg.attrHas (m : MemMsg) (mask : UInt16) : Bool := m.attr &&& mask != 0

/-- `AREA_*` (`config.h` 56-61). -/
def AREA_UNCONFIRMED : UInt8 := 1
def AREA_MANDATORY : UInt8 := 2
def AREA_DEFREADONLY : UInt8 := 4
def AREA_IGNOREDUPES : UInt8 := 8
def AREA_IGNORESEENBY : UInt8 := 16

/-- `TOSSNODE_*` (`config.h` 114-116). -/
def TOSSNODE_READONLY : UInt16 := 1
def TOSSNODE_WRITEONLY : UInt16 := 2
def TOSSNODE_FEED : UInt16 := 4

/-- `CFG_*` (`config.h`), the bits used below. -/
def CFG_CHECKSEENBY : UInt32 := 1
def CFG_CHECKPKTDEST : UInt32 := 2
def CFG_STRIPRE : UInt32 := 4
def CFG_FORCEINTL : UInt32 := 8
def CFG_NOROUTE : UInt32 := 16
def CFG_PATH3D : UInt32 := 32
def CFG_IMPORTSEENBY : UInt32 := 64
def CFG_IMPORTEMPTYNETMAIL : UInt32 := 128
def CFG_BOUNCEPOINTS : UInt32 := 256
def CFG_ANSWERRECEIPT : UInt32 := 512
def CFG_ANSWERAUDIT : UInt32 := 1024
def CFG_NODIRECTATTACH : UInt32 := 2048
def CFG_IMPORTAREAFIX : UInt32 := 4096
def CFG_AREAFIXREMOVE : UInt32 := 8192
def CFG_WEEKDAYNAMING : UInt32 := 16384
def CFG_ADDTID : UInt32 := 65536
def CFG_ALLOWRESCAN : UInt32 := 262144
def CFG_FORWARDPASSTHRU : UInt32 := 524288
def CFG_BOUNCEHEADERONLY : UInt32 := 2097152
def CFG_REMOVEWHENFEED : UInt32 := 4194304
def CFG_INCLUDEFORWARD : UInt32 := 8388608
def CFG_NOMAXOUTBOUNDZONE : UInt32 := 16777216
def CFG_ALLOWKILLSENT : UInt32 := 33554432
def CFG_FLOWCRLF : UInt32 := 67108864
def CFG_NOEXPORTNETMAIL : UInt32 := 134217728

/-! ## Records -/

/-- `AREATYPE_*` (`config.h` 63-68). -/
inductive AreaType where
  | netmail | echomail | default | bad | «local» | deleted
  deriving DecidableEq, Repr

/-- `struct TossNode` (`config.h` 118-123); `node` is the position in the node list. -/
structure TossNode where
  node : Nat
  flags : UInt16 := 0
  deriving DecidableEq, Repr

/-- `tnode->Flags & mask`. -/
def TossNode.has (t : TossNode) (mask : UInt16) : Bool := t.flags &&& mask != 0

/-- `struct Area` (`config.h` 70-103) without statistics. `TossNodes` holds `ImportNode` records in
netmail areas: `importNodes`. `base` is the message base, `aka` the position in the list of own
addresses. -/
structure Area where
  tag : Str := []
  description : Str := []
  path : Str := []
  type : AreaType := .echomail
  aka : Option Nat := none
  flags : UInt8 := 0
  base : Option Nat := none
  group : UInt8 := 0
  tossNodes : List TossNode := []
  importNodes : List Node4D := []
  banned : List Nat := []
  keepNum : UInt32 := 0
  keepDays : UInt32 := 0
  changed : Bool := false
  deriving DecidableEq, Repr

/-- `area->Flags & mask`. -/
def Area.has (a : Area) (mask : UInt8) : Bool := a.flags &&& mask != 0

/-- `struct Command` (`config.h` 278-285). -/
inductive Command where
  | kill
  | twit
  | copy (tag : Str)
  | execute (cmd : Str)
  | writeLog (s : Str)
  | writeBad (s : Str)
  | bounce (headerOnly : Bool) (s : Str)
  | remap (name : Str) (dest : Pat4)
  | masquerade (name : Str) (dest : Pat4)
  deriving DecidableEq

/-- `struct Filter` (`config.h` 287-292). -/
structure Filter where
  text : Str
  commands : List Command

/-- `struct Packer` (`config.h` 197-204): its name, the commands that pack and unpack, and the pattern
`DetectPacker` uses. -/
structure Packer where
  name : Str
  cmd : Str
  unpacker : Str := []
  recog : Str := []
  deriving DecidableEq, Repr

/-- `struct Arealist` (`config.h` 258-265); `node` is the position in the node list. -/
structure Arealist where
  node : Nat
  file : Str
  flags : UInt16 := 0
  group : UInt8 := 0
  deriving DecidableEq, Repr

/-- `struct Config` (`config.h` 302-367): the parts message handling uses, together with the open
nodelist. -/
structure Config where
  akas : List Aka := []
  nodes : List ConfigNode := []
  areas : List Area := []
  routes : List Route := []
  changes : List Change := []
  filters : List Filter := []
  bounceList : List Pat4 := []
  fileAttachList : List Pat4 := []
  areafixNames : List Str := []
  packers : List Packer := []
  arealists : List Arealist := []
  areafixMaxLines : UInt32 := 0
  groupNames : Nat → Str := fun _ => []
  flags : UInt32 := 0
  dupeMode : Nat := 0
  loopMode : Nat := 0
  dupeSize : Nat := 0
  sysop : Str := []
  inbound : Str := []
  packetDir : Str := []
  nlConfigured : Bool := false
  nl : Nodelist
  nlCheck : Node4D → Bool
  changed : Bool := false

/-- `config.cfg_Flags & mask`. -/
def Config.has (c : Config) (mask : UInt32) : Bool := c.flags &&& mask != 0

/-- The first area with this tag (`stricmp`; `handle.c` 536-537, `filter.c` 546-547). -/
def Config.findArea (c : Config) (tag : Str) : Option Nat := c.areas.findIdx? fun a => eqi a.tag tag

/-- One of the system's own addresses (`handle.c` 1186-1187 and others). -/
def Config.isAka (c : Config) (n : Node4D) : Bool := c.akas.any fun a => compare4D n a.node == 0

/-- The first route whose pattern matches. -/
def Config.findRoute (c : Config) (n : Node4D) : Option Route :=
  c.routes.find? fun r => compare4DPat c.nl r.pattern n

/-! ## Effects -/

/-- What message handling does to the outside world. -/
inductive Effect where
  | importMsg (area : Nat) (m : MemMsg)          -- stored in the message base of an area
  | echo (node : Nat) (aka : Node4D) (m : MemMsg)   -- `WriteEchoMail`, given the message
  | netmail (dest aka : Node4D) (m : MemMsg)     -- `WriteNetMail`
  | execute (cmd : Str)
  | log (s : Str)                                -- only the WRITELOG command of filters
  | copyFile (src dst : Str)
  | moveFile (src dst : Str)
  | flow (file : Str) (dest : Node4D) (pri : UInt8) (delete : Bool)
  deriving DecidableEq, Repr

/-- State of message handling: the configuration (areas are added to it), the `IsInSeenBy` mark of
each node, the duplicate database and the effects so far. -/
structure HSt where
  cfg : Config
  seen : Nat → Bool
  dupe : DupeDB
  log : List Effect

/-- Results of the outside world; each may depend on everything that has happened so far. -/
structure Env where
  importOk : List Effect → Nat → MemMsg → Bool
  echoOk : List Effect → Nat → MemMsg → Bool
  netOk : List Effect → Node4D → MemMsg → Bool
  exec : List Effect → Str → Int
  tmpnam : List Effect → Nat → Str
  fidoDate : List Effect → Str
  viaTime : List Effect → Str
  serial : List Effect → Str
  fileExists : List Effect → Str → Bool
  copyOk : List Effect → Str → Str → Bool
  moveOk : List Effect → Str → Str → Bool
  /-- Is one of the flags `nomem`, `ioerror` and `ctrlc` set (`areafix.c` 701)? -/
  ioerr : List Effect → Bool := fun _ => false
  /-- The message structure after `HandleMessage`, which AreaFix uses again. -/
  reuse : List Effect → MemMsg → MemMsg := fun _ m => m
  /-- The messages a message base delivers for a rescan, and whether it succeeded. -/
  rescan : List Effect → Nat → UInt32 → List MemMsg × Bool := fun _ _ _ => ([], true)
  /-- Does the message base of an area support rescans? -/
  canRescan : Nat → Bool := fun _ => true
  /-- What `osFGets` delivers for a list of areas; there are no zero bytes in it. -/
  areaFile : List Effect → Str → Option (List Str) := fun _ _ => none
  /-- What `osFGets` delivers for the help file. -/
  helpFile : Option (List Str) := none
  /-- The printed result of `CalculateWeekKB`. -/
  weekKB : Area → Str := fun _ => [63]

/-- Outcome: undefined behaviour, a loop that never ends, `return(FALSE)` or an ordinary result. -/
inductive Out (α : Type) where
  | ub (u : UB)
  | stuck
  | fail (s : HSt)
  | ok (a : α) (s : HSt)

/-- Functions of message handling. -/
def M (α : Type) : Type := HSt → Out α

def M.bind {α β : Type} (x : M α) (f : α → M β) : M β := fun s =>
  match x s with
  | .ub u => .ub u
  | .stuck => .stuck
  | .fail s => .fail s
  | .ok a s => f a s

instance : Monad M where
  pure a := fun s => .ok a s
  bind := M.bind

namespace M

def get : M HSt := fun s => .ok s s
def set (s : HSt) : M Unit := fun _ => .ok () s
def ub {α : Type} (u : UB) : M α := fun _ => .ub u
def stuck {α : Type} : M α := fun _ => .stuck
/-- `return(FALSE)`. -/
def fail {α : Type} : M α := fun s => .fail s
def emit (e : Effect) : M Unit := fun s => .ok () { s with log := s.log ++ [e] }

/-- A result that may be undefined behaviour. -/
def lift {α : Type} : Except UB α → M α
  | .error u => ub u
  | .ok a => pure a

/-- A result that may be undefined behaviour or not end. -/
def liftO {α : Type} : Except UB (Option α) → M α
  | .error u => ub u
  | .ok none => stuck
  | .ok (some a) => pure a

end M

/-- `(*area->Messagebase->importfunc)(mm,area)`. A failed import stops the program. -/
def importMsg (env : Env) (area : Nat) (m : MemMsg) : M Unit := fun s =>
  if env.importOk s.log area m then .ok () { s with log := s.log ++ [.importMsg area m] } else .fail s

end CM
