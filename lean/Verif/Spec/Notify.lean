import Verif.Model.Notify
import Verif.Spec.AreaList
import Verif.Spec.Reply
/-! # Sending lists and removing areas: specification -/

namespace CM

/-- The line for a group with full access, and with read-only access. -/
def fullGroup (c : Config) (g : UInt8) : Str :=
  if c.groupNames (g.toNat - 65) = [] then [g] else g :: b!": " ++ c.groupNames (g.toNat - 65)

def readGroup (c : Config) (g : UInt8) : Str := g :: b!": " ++ c.groupNames (g.toNat - 65)

/-- What a node can be, and what it is told about it. -/
def nodeTraits : List (UInt32 × Str) :=
  [(NODE_PASSIVE, b!" * You are passive and will not receive any echomail messages"),
   (NODE_TINYSEENBY, b!" * You receive messages with tiny SEEN-BY lines"),
   (NODE_NOSEENBY, b!" * You receive messages without SEEN-BY lines"),
   (NODE_FORWARDREQ, b!" * You may do forward-requests"),
   (NODE_NOTIFY, b!" * You will receive notifications"),
   (NODE_PACKNETMAIL, b!" * Netmail to you will be packed"),
   (NODE_AUTOADD, b!" * New areas from you will be auto-added")]

/-- The description of what is configured for a node. -/
def infoText (c : Config) (n : ConfigNode) : List Str :=
  [b!"Configuration for " ++ addr4 n.node ++ b!":", [], b!"           Sysop: " ++ n.sysopName,
   b!"Packet  password: " ++ n.packetPW, b!"Areafix password: " ++ n.areafixPW,
   b!"          Packer: " ++ (match n.packer with
     | none => b!"No packer"
     | some k => ((c.packers[k]?).map (·.name)).getD []), []] ++
  (nodeTraits.filter fun x => n.flags &&& x.1 != 0).map (·.2) ++
  [[], b!"You have full access to these groups:", []] ++
  (b!"ABCDEFGHIJKLMNOPQRSTUVWXYZ".filter fun g => g ∈ n.groups ∧ g ∉ n.readOnlyGroups).map (fullGroup c) ++
  [[], b!"You have read-only access to these groups:", []] ++
  (b!"ABCDEFGHIJKLMNOPQRSTUVWXYZ".filter fun g => g ∈ n.readOnlyGroups).map (readGroup c)

/-- The lines are a list of areas of that type for the node. -/
def ListLines (env : Env) (c : Config) (type : ListType) (ci : Nat) (n : ConfigNode) (aka : Node4D) (ls : List Str) : Prop :=
  ∃ es table foot log, IsList env log c type ci n es ∧ Table c type none es table ∧
    (es.length < 32768 → foot = footer type es) ∧ ls = [listTitle type aka, []] ++ table ++ foot

/-- The lines are what has to be sent. -/
def SheetLines (env : Env) (c : Config) (ci : Nat) (n : ConfigNode) (aka : Node4D) (ls : List Str) : SendKind → Prop
  | .full => ListLines env c .full ci n aka ls
  | .query => ListLines env c .query ci n aka ls
  | .unlinked => ListLines env c .unlinked ci n aka ls
  | .info => ls = infoText c n
  | .help => ls = match env.helpFile with
    | none => [b!"*** Error *** : Couldn't open help file"]
    | some x => x.map List.dropLast

def sheetTitle : SendKind → Str
  | .info => b!"AreaFix configuration info"
  | .help => b!"AreaFix help"
  | _ => b!"AreaFix list of areas"

/-- It is sent to the operator of the node, as the messages `ms`. -/
def SheetMail (env : Env) (self : MemMsg → M Unit) (c : Config) (k : SendKind) (ci : Nat) (n : ConfigNode) (aka : Node4D) (s t : HSt) : Prop :=
  ∃ ls ms, SheetLines env c ci n aka ls k ∧ Sends self s ms t ∧ InParts (lineBound c.areafixMaxLines) (sheetTitle k) 1 ms ls ∧
    Addressed aka n.node c.sysop n.sysopName ls ms

/-- It is sent to the nodes of a list one after the other; nodes that no route leads to get nothing. -/
inductive Notified (env : Env) (self : MemMsg → M Unit) (c : Config) (k : SendKind) : List Nat → HSt → HSt → Prop where
  | nil (s : HSt) : Notified env self c k [] s s
  | noRoute {i : Nat} {is : List Nat} {n : ConfigNode} {s t : HSt} (hn : c.nodes[i]? = some n) (hr : c.findRoute n.node = none)
      (h : Notified env self c k is s t) : Notified env self c k (i :: is) s t
  | sent {i : Nat} {is : List Nat} {n : ConfigNode} {rt : Route} {s u t : HSt} (hn : c.nodes[i]? = some n)
      (hr : c.findRoute n.node = some rt) (hm : SheetMail env self c k i n rt.aka s u) (h : Notified env self c k is u t) :
      Notified env self c k (i :: is) s t

/-- The nodes that want to be notified. -/
def notifyNodes (c : Config) : List Nat :=
  (List.range c.nodes.length).filter fun i => (c.nodes[i]?).any fun n => n.flags &&& NODE_NOTIFY != 0

/-- The messages about the removal of an area to one link: to its AreaFix and to its operator, as it wants them. -/
def RemovalNotes (c : Config) (aka : Option Node4D) (tag : Str) (t : TossNode) (n : ConfigNode) (ms : List MemMsg) : Prop :=
  ∃ a b, ms = a ++ b ∧
    (if n.flags &&& NODE_SENDAREAFIX != 0 then
      ∃ m, a = [m] ∧ Tells c aka n n.remoteAFName n.remoteAFPw [45 :: tag, b!"---", b!"Generated by CrashMail 1.5.1"] m
     else a = []) ∧
    (if n.flags &&& NODE_SENDTEXT != 0 ∧ t.flags &&& TOSSNODE_FEED = 0 then
      ∃ m, b = [m] ∧ Tells c aka n n.sysopName b!"Area removed"
        ((b!"The area \"" ++ tag ++ b!"\" has been removed by the uplink.") ::
          if n.flags &&& NODE_SENDAREAFIX != 0 then [b!"A message has been sent to your AreaFix."] else []) m
     else b = [])

/-- The messages to all links. -/
inductive RemovalTold (c : Config) (aka : Option Node4D) (tag : Str) : List TossNode → List MemMsg → Prop where
  | nil : RemovalTold c aka tag [] []
  | cons {t : TossNode} {ts : List TossNode} {n : ConfigNode} {ms ns : List MemMsg} (hn : c.nodes[t.node]? = some n)
      (h : RemovalNotes c aka tag t n ms) (hr : RemovalTold c aka tag ts ns) : RemovalTold c aka tag (t :: ts) (ms ++ ns)

end CM
