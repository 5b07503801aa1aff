import Verif.Spec.AreaList
import Verif.Spec.NewArea
import Verif.Spec.Reply
/-!
# Requests to AreaFix: specification

What each line of a request asks for, what becomes of the configuration, and what the answer is.
`ci` is the position of the requesting node in the list of nodes, `cn` its settings.
-/

namespace CM

/-! ## The lines -/

/-- The lines of a text; CR and LF end a line. -/
def textRows : Str → List Str
  | [] => [[]]
  | c :: s =>
    if c = 13 ∨ c = 10 then [] :: textRows s
    else match textRows s with
      | [] => [[c]]
      | l :: ls => (c :: l) :: ls

/-- The lines up to the first one that begins with three hyphens, which is included. -/
def toTear : List Str → List Str
  | [] => []
  | l :: ls => if l.take 3 = b!"---" then [l] else l :: toTear ls

/-- Bytes that are cut off at the end of a line; a byte from 128 on is one of them. -/
def Blank (c : UInt8) : Prop := c < 33 ∨ 128 ≤ c

instance (c : UInt8) : Decidable (Blank c) := by unfold Blank; infer_instance

/-- The text without blanks at the end. -/
def cutEnd (s : Str) : Str := (s.reverse.dropWhile fun c => decide (Blank c)).reverse

/-- The lines of a request as they are answered: up to the tear line, without spaces before them and
blanks behind them; empty lines and lines that begin with 1 do not count. -/
def requestLines (chunks : List Str) : List Str :=
  ((toTear ((chunks.flatMap textRows).map cstr)).map fun l => cutEnd (l.dropWhile fun c => c == 32)).filter fun l =>
    l ≠ [] ∧ l.head? ≠ some 1

/-! ## Lines that name areas -/

/-- What a node wants of areas: to be linked, no longer to be linked, or old messages. -/
inductive Wish where
  | join | leave | again
  deriving DecidableEq, Repr

/-- The part of a line before the last comma, and the option behind it. -/
inductive OptPart : Str → Str → Str → Prop where
  | none {line : Str} (h : 44 ∉ line) : OptPart line line []
  | some {n o : Str} (h : 44 ∉ o) : OptPart (n ++ 44 :: o) n (cutEnd (o.dropWhile fun c => c == 32))

/-- The line asks for this, of the areas with this name or pattern. -/
def AsksFor (line : Str) (w : Wish) (pat opt : Str) : Prop :=
  ∃ n, OptPart line n opt ∧ match w with
    | .leave => cutEnd n = 45 :: pat
    | .again => cutEnd n = 61 :: pat
    | .join => cutEnd n = 43 :: pat ∨ (cutEnd n = pat ∧ pat.head? ≠ some 45 ∧ pat.head? ≠ some 61 ∧ pat.head? ≠ some 43)

/-- There is a wildcard in the name. -/
def Wild (pat : Str) : Prop := 63 ∈ pat ∨ 42 ∈ pat

instance (pat : Str) : Decidable (Wild pat) := by unfold Wild; infer_instance

/-- One character of a name: a question mark is any, upper and lower case are the same. -/
def charFits (x : UInt8 × UInt8) : Bool := x.1 == 63 || lower x.1 == lower x.2

/-- The tag fits the name; everything fits from an asterisk on. -/
def TagFits (pat tag : Str) : Prop :=
  if 42 ∈ pat then
    (pat.takeWhile (· != 42)).length ≤ tag.length ∧ ((pat.takeWhile (· != 42)).zip tag).all charFits = true
  else pat.length = tag.length ∧ (pat.zip tag).all charFits = true

instance (pat tag : Str) : Decidable (TagFits pat tag) := by unfold TagFits; infer_instance

/-- What becomes of the node's wish for one area. -/
inductive Verdict where
  /-- The area is not meant. -/
  | skip
  | already
  | banned
  | joins (readOnly : Bool)
  /-- The node has no access to the group. -/
  | refused
  | notLinked
  /-- The area is mandatory. -/
  | held
  | leaves
  /-- Like `leaves`, and the area is removed, for want of a feed or of users. -/
  | closes (noFeed : Bool)
  | linked
  deriving DecidableEq, Repr

/-- The first link of the node. -/
def firstLink (ci : Nat) (a : Area) : Option TossNode := a.tossNodes.find? fun t => t.node == ci

/-- The links without the node's. -/
def linksLeft (ci : Nat) (a : Area) : List TossNode := a.tossNodes.eraseP fun t => t.node == ci

/-- Nobody is left but the feed. -/
def nobodyLeft (ts : List TossNode) : Bool :=
  match ts with
  | [] => true
  | [t] => t.has TOSSNODE_FEED
  | _ => false

/-- The rules. -/
def verdict (c : Config) (ci : Nat) (cn : ConfigNode) (w : Wish) (pat : Str) (a : Area) : Verdict :=
  if ¬ (a.type = .echomail ∧ TagFits pat a.tag) then .skip
  else match w with
    | .join =>
      if IsLinked ci a then .already
      else if ¬ CanSee cn a.group then .refused
      else if ci ∈ a.banned then .banned
      else .joins (a.has AREA_DEFREADONLY || decide (a.group ∈ cn.readOnlyGroups))
    | .leave => match firstLink ci a with
      | none => .notLinked
      | some t =>
        if a.has AREA_MANDATORY = true ∧ t.has TOSSNODE_FEED = false then .held
        else if t.has TOSSNODE_FEED = true ∧ c.has CFG_REMOVEWHENFEED = true then .closes true
        else if c.has CFG_AREAFIXREMOVE = true ∧ a.base = none ∧ nobodyLeft (linksLeft ci a) = true then .closes false
        else .leaves
    | .again => if IsLinked ci a then .linked else .skip

/-- The area afterwards. -/
def Verdict.after (ci : Nat) (a : Area) : Verdict → Option Area
  | .joins ro => some { a with
      tossNodes := a.tossNodes ++ [⟨ci, if ro then TOSSNODE_READONLY else 0⟩]
      changed := true }
  | .leaves => some { a with
      tossNodes := linksLeft ci a
      changed := true }
  | .closes _ => none
  | _ => some a

/-- Does it change the area? -/
def Verdict.acts : Verdict → Bool
  | .joins _ | .leaves | .closes _ => true
  | _ => false

/-- What has to be said about an area found with a wildcard. -/
def Verdict.sayWild (tag : Str) : Verdict → List Str
  | .already => [b!"   You are already attached to " ++ tag]
  | .banned => [b!"   You have been banned from " ++ tag]
  | .joins true => [b!"   Attached to " ++ tag ++ b!" as read-only"]
  | .joins false => [b!"   Attached to " ++ tag]
  | .held => [b!"   You are not allowed to detach from " ++ tag]
  | .leaves | .closes _ => [b!"   Detached from " ++ tag]
  | .linked => [b!"   Nothing to do with " ++ tag]
  | _ => []

/-- What has to be said about an area named in full. -/
def Verdict.sayPlain : Verdict → Option Str
  | .skip => none
  | .already => some b!"You are already attached to that area"
  | .banned => some b!"You have been banned from that area"
  | .joins true => some b!"Attached as read-only"
  | .joins false => some b!"Attached"
  | .refused => some b!"You don't have access to that area"
  | .notLinked => some b!"You are not attached to that area"
  | .held => some b!"You are not allowed to detach from that area"
  | .leaves | .closes _ => some b!"Detached"
  | .linked => some b!"Will rescan area"

/-- The answer to a line: beside it, or below it if it is longer than 30 characters. -/
def answer (line text : Str) : List Str :=
  if line.length ≤ 30 then [line ++ List.replicate (30 - line.length) 32 ++ [32] ++ text]
  else [line, List.replicate 31 32 ++ text]

/-- The lines about one area. -/
def Verdict.say (line pat tag : Str) (v : Verdict) : List Str :=
  if Wild pat then v.sayWild tag else match v.sayPlain with
    | some t => answer line t
    | none => []

/-- Nothing more has to be said. -/
def Verdict.settles (pat : Str) : Verdict → Bool
  | .skip | .refused => false
  | .notLinked => decide (¬ Wild pat)
  | _ => true

/-- Commands for the AreaFix of other nodes are put behind those that wait already. -/
def enqueue (ns : List ConfigNode) (q : List (Nat × Str)) : List ConfigNode :=
  q.foldl (fun ns e => ns.modify e.1 fun n => { n with remoteAF := n.remoteAF ++ [e.2] }) ns

/-- The command for the feed of an area that nobody uses any more. -/
def Verdict.tells (ci : Nat) (a : Area) : Verdict → List (Nat × Str)
  | .closes false => match linksLeft ci a with
    | t :: _ => [(t.node, (b!"-" ++ a.tag.take 78).take 70)]
    | [] => []
  | _ => []

/-- The configuration after the wish has been fulfilled for each area. -/
def fulfilled (c : Config) (ci : Nat) (cn : ConfigNode) (w : Wish) (pat : Str) : Config :=
  { c with
    areas := c.areas.filterMap fun a => (verdict c ci cn w pat a).after ci a
    nodes := enqueue c.nodes (c.areas.flatMap fun a => (verdict c ci cn w pat a).tells ci a)
    changed := c.changed || c.areas.any fun a => (verdict c ci cn w pat a).acts }

/-- What is said about all areas. -/
def saidOf (c : Config) (ci : Nat) (cn : ConfigNode) (w : Wish) (line pat : Str) : List Str :=
  c.areas.flatMap fun a => (verdict c ci cn w pat a).say line pat a.tag

/-- Nothing more has to be said. -/
def settled (c : Config) (ci : Nat) (cn : ConfigNode) (w : Wish) (pat : Str) : Prop :=
  ∃ a ∈ c.areas, (verdict c ci cn w pat a).settles pat = true

instance (c : Config) (ci : Nat) (cn : ConfigNode) (w : Wish) (pat : Str) : Decidable (settled c ci cn w pat) := by
  unfold settled; infer_instance

/-! ### Rescans -/

/-- The area is to be rescanned if the line or an earlier one asks for it. -/
def Verdict.rescans : Verdict → Bool
  | .joins _ | .linked => true
  | _ => false

/-- The position of the area that can be rescanned: the last one that has been linked, or that is
linked and named with an equals sign. Not if there is a wildcard. -/
def RescanArea (c : Config) (ci : Nat) (cn : ConfigNode) (w : Wish) (pat : Str) : Option Nat → Prop
  | some i => ¬ Wild pat ∧ (∃ a, c.areas[i]? = some a ∧ (verdict c ci cn w pat a).rescans = true) ∧
    ∀ (j : Nat) (a : Area), i < j → c.areas[j]? = some a → (verdict c ci cn w pat a).rescans = false
  | none => Wild pat ∨ ∀ a ∈ c.areas, (verdict c ci cn w pat a).rescans = false

/-- An answer without a command. -/
def remark (text : Str) : Str := List.replicate 31 32 ++ text

/-- What is said about the rescan of area `i`. -/
inductive Rescanned (env : Env) (c : Config) (i : Nat) (num : UInt32) : List Str → Prop where
  | forbidden (h : c.has CFG_ALLOWRESCAN = false) : Rescanned env c i num [remark b!"No rescanning allowed"]
  | passThru {a : Area} (h : c.has CFG_ALLOWRESCAN = true) (ha : c.areas[i]? = some a) (hb : a.base = none) :
    Rescanned env c i num [remark b!"Can't rescan, area is pass-through"]
  | cannot {a : Area} {b : Nat} (h : c.has CFG_ALLOWRESCAN = true) (ha : c.areas[i]? = some a) (hb : a.base = some b)
      (hr : env.canRescan b = false) : Rescanned env c i num [remark b!"Can't rescan, messagebase does not support rescan"]
  | done {a : Area} {b : Nat} {log : List Effect} (h : c.has CFG_ALLOWRESCAN = true) (ha : c.areas[i]? = some a)
      (hb : a.base = some b) (hr : env.canRescan b = true) (hok : (env.rescan log i num).2 = true) :
    Rescanned env c i num [remark (b!"Rescanned " ++ dec (env.rescan log i num).1.length ++ b!" messages")]

/-- The option asks for a rescan: it begins with `r=`. -/
def RescanOpt (opt : Str) : Prop := eqin opt b!"r=" 2 = true

instance (opt : Str) : Decidable (RescanOpt opt) := by unfold RescanOpt; infer_instance

/-- What is said about the option and the rescan; `global` says that an earlier line asks for rescans. -/
inductive OptionSays (env : Env) (c : Config) (global : Bool) (opt : Str) : Option Nat → List Str → Prop where
  | nothing : OptionSays env c global opt none []
  | unknown {i : Nat} (h : ¬ RescanOpt opt) (hg : global = false) :
    OptionSays env c global opt (some i) (if opt = [] then [] else [remark (b!"Unknown option " ++ opt)])
  | unknownGlobal {i : Nat} {ls : List Str} (h : ¬ RescanOpt opt) (hg : global = true) (hr : Rescanned env c i 0 ls) :
    OptionSays env c global opt (some i) ((if opt = [] then [] else [remark (b!"Unknown option " ++ opt)]) ++ ls)
  | rescan {i : Nat} {ls : List Str} (h : RescanOpt opt) (hr : Rescanned env c i (UInt32.ofInt (atoi (opt.drop 2))) ls) :
    OptionSays env c global opt (some i) ls

/-! ### Forward requests -/

/-- The list of another node's areas that the tag is ordered from: the first one that can be used for
forward requests, has a group the node has full access to, and contains the tag. -/
def OrderedFrom (env : Env) (log : List Effect) (c : Config) (cn : ConfigNode) (tag : Str) : Option Arealist :=
  c.arealists.find? fun al => decide (al.flags &&& 2 ≠ 0) && decide (al.group ∈ cn.groups) &&
    match env.areaFile log al.file with
    | some lines => lines.any fun l => eqi (tagWord l) tag
    | none => false

/-- A new area for a tag that has been ordered from node `k`. -/
structure NewArea (env : Env) (log : List Effect) (me : Node4D) (c : Config) (ci : Nat) (cn : ConfigNode) (al : Arealist) (up : ConfigNode) (tag : Str) (a : Area) : Prop where
  name : a.tag = tag
  echo : a.type = .echomail
  group : a.group = al.group
  nobody : a.banned = []
  one : a.OneLink
  /-- The node is linked. -/
  link : IsLinked ci a
  /-- So is the first node with the address of the one it is ordered from. -/
  uplink : ∃ k n, c.nodes[k]? = some n ∧ (compare4D n.node up.node = 0) ∧ IsLinked k a
  base : c.has CFG_FORWARDPASSTHRU = true → a.base = none
  marked : a.changed = true
  /-- Apart from its group and the link of the node it is set up as any area that is created for the node it is ordered from. -/
  setUp : ∃ a0, SetUp env log c tag up.node me true (c.has CFG_FORWARDPASSTHRU) a0 ∧
    a = { a0 with
      group := al.group
      tossNodes := a0.tossNodes ++
        if IsLinked ci a0 then [] else [⟨ci, if al.group ∈ cn.readOnlyGroups then TOSSNODE_READONLY else 0⟩] }

/-- The command for the node it is ordered from. -/
def orderLine (up : ConfigNode) (tag : Str) : Str :=
  (if up.has NODE_AFNEEDSPLUS then b!"+" ++ tag.take 78 else tag.take 78).take 70

/-- The end of the answer to a wish to be linked, if no area has been found. -/
inductive Unfound (env : Env) (me : Node4D) (c : Config) (ci : Nat) (cn : ConfigNode) (line tag : Str) : Config → List Str → Prop where
  | unknown {log : List Effect} (h : cn.has NODE_FORWARDREQ = true → OrderedFrom env log c cn tag = none) :
    Unfound env me c ci cn line tag c (answer line b!"Unknown area")
  | ordered {log log1 : List Effect} {al : Arealist} {up : ConfigNode} {a : Area} (h : cn.has NODE_FORWARDREQ = true)
      (hal : OrderedFrom env log c cn tag = some al) (hup : c.nodes[al.node]? = some up) (hl : tag.length < 80)
      (hn : NewArea env log1 me c ci cn al up tag a) :
    Unfound env me c ci cn line tag
      { c with
        areas := c.areas ++ [a]
        nodes := enqueue c.nodes [(al.node, orderLine up tag)]
        changed := true }
      (answer line (b!"Request sent to " ++ addr4 up.node))

/-- The end of the answer, and the configuration then; `c` is the configuration before the line, `c1`
that after the wish has been fulfilled. -/
inductive Closing (env : Env) (me : Node4D) (c c1 : Config) (ci : Nat) (cn : ConfigNode) (global : Bool) (line pat opt : Str) :
    Wish → Option Nat → Config → List Str → Prop where
  | settled {w : Wish} {i : Option Nat} (h : settled c ci cn w pat) (hw : w ≠ .again) :
    Closing env me c c1 ci cn global line pat opt w i c1 []
  | again {i : Option Nat} (h : CM.settled c ci cn .again pat) :
    Closing env me c c1 ci cn global line pat opt .again i c1
      (if i.isSome = true ∧ global = false ∧ opt = [] then answer line b!"Nothing to do" else [])
  | wildJoin {i : Option Nat} (h : ¬ CM.settled c ci cn .join pat) (hw : Wild pat) :
    Closing env me c c1 ci cn global line pat opt .join i c1 [b!"   There were no matching areas to connect to"]
  | wildLeave {i : Option Nat} (h : ¬ CM.settled c ci cn .leave pat) (hw : Wild pat) :
    Closing env me c c1 ci cn global line pat opt .leave i c1 [b!"   There were no matching areas to detach from"]
  | wildAgain {i : Option Nat} (h : ¬ CM.settled c ci cn .again pat) (hw : Wild pat) :
    Closing env me c c1 ci cn global line pat opt .again i c1 [b!"   There were no matching areas"]
  | leave {i : Option Nat} (h : ¬ CM.settled c ci cn .leave pat) (hw : ¬ Wild pat) :
    Closing env me c c1 ci cn global line pat opt .leave i c1 (answer line b!"Unknown area")
  | notAgain {i : Option Nat} (h : ¬ CM.settled c ci cn .again pat) (hw : ¬ Wild pat) :
    Closing env me c c1 ci cn global line pat opt .again i c1 (answer line b!"You are not attached to this area")
  | found {i : Option Nat} (h : ¬ CM.settled c ci cn .join pat) (hw : ¬ Wild pat)
      (hf : ∃ a ∈ c.areas, a.type = .echomail ∧ TagFits pat a.tag) :
    Closing env me c c1 ci cn global line pat opt .join i c1 []
  | unfound {i : Option Nat} {c2 : Config} {ls : List Str} (h : ¬ CM.settled c ci cn .join pat) (hw : ¬ Wild pat)
      (hf : ∀ a ∈ c.areas, ¬ (a.type = .echomail ∧ TagFits pat a.tag)) (hu : Unfound env me c1 ci cn line pat c2 ls) :
    Closing env me c c1 ci cn global line pat opt .join i c2 ls

/-- A line that names areas has been answered. -/
inductive AreasAnswered (env : Env) (me : Node4D) (c : Config) (ci : Nat) (global : Bool) (line : Str) : Config → List Str → Prop where
  | intro {cn : ConfigNode} {w : Wish} {pat opt : Str} {i : Option Nat} {c2 : Config} {os cs : List Str}
      (hn : c.nodes[ci]? = some cn) (ha : AsksFor line w pat opt) (hi : RescanArea c ci cn w pat i)
      (ho : OptionSays env c global opt i os)
      (hc : Closing env me c (fulfilled c ci cn w pat) ci cn global line pat opt w i c2 cs) :
    AreasAnswered env me c ci global line c2
      ((if Wild pat then [line, []] else []) ++ saidOf c ci cn w line pat ++ os ++ cs ++ if Wild pat then [[]] else [])

/-! ## Lines that begin with a percent sign -/

/-- The first word of a line, with quotes and escapes as in the configuration file. -/
def firstWord (line : Str) : Str := (jbstrcpy 100 line).1

/-- The second word, of which 39 characters count. -/
def secondWord (line : Str) : Option Str :=
  if (jbstrcpy 40 (jbstrcpy 100 line).2.1).2.2 then some (jbstrcpy 40 (jbstrcpy 100 line).2.1).1 else none

/-- A word in upper or lower case. -/
def SaysWord (line word : Str) : Prop := (firstWord line).map lower = word.map lower

/-- The settings of the node changed. -/
def resetNode (c : Config) (ci : Nat) (f : ConfigNode → ConfigNode) : Config :=
  { c with
    nodes := c.nodes.modify ci fun n => { f n with changed := true }
    changed := true }

/-- The names that can be given with %COMPRESS. -/
def packerNames (c : Config) : List Str := (c.packers.filter fun p => p.cmd ≠ []).map (·.name) ++ [b!"NONE"]

/-- The first packer with the name. -/
def PackerNamed (c : Config) (name : Str) (k : Nat) : Prop :=
  (∃ p, c.packers[k]? = some p ∧ p.name.map lower = name.map lower ∧ p.cmd ≠ []) ∧
  ∀ (j : Nat) (p : Packer), j < k → c.packers[j]? = some p → ¬ (p.name.map lower = name.map lower ∧ p.cmd ≠ [])

/-- The lists and texts that can be asked for; they are sent afterwards. -/
inductive Sheet where
  | list | query | unlinked | help | info
  deriving DecidableEq, Repr

def Sheet.word : Sheet → Str
  | .list => b!"%LIST"
  | .query => b!"%QUERY"
  | .unlinked => b!"%UNLINKED"
  | .help => b!"%HELP"
  | .info => b!"%INFO"

def Sheet.text : Sheet → Str
  | .list => b!"Sending list of all areas"
  | .query => b!"Sending query"
  | .unlinked => b!"Sending list of all unlinkedareas"
  | .help => b!"Sending help file"
  | .info => b!"Sending configuration info"

/-- A line that begins with a percent sign has been answered: the configuration then, the answer,
whether rescans have been asked for, whether the line counts as something that has been done, and the
lists asked for. -/
inductive CommandAnswered (c : Config) (ci : Nat) (line : Str) : Config → List Str → Bool → Bool → List Sheet → Prop where
  | pause {cn : ConfigNode} (h : SaysWord line b!"%PAUSE") (hn : c.nodes[ci]? = some cn) (hp : cn.has NODE_PASSIVE = false) :
    CommandAnswered c ci line (resetNode c ci fun n => { n with flags := n.flags ||| NODE_PASSIVE })
      (answer line b!"Your system is marked as passive" ++ [remark b!"Send %%RESUME to get echomail again"]) false true []
  | paused {cn : ConfigNode} (h : SaysWord line b!"%PAUSE") (hn : c.nodes[ci]? = some cn) (hp : cn.has NODE_PASSIVE = true) :
    CommandAnswered c ci line c (answer line b!"Your system is already passive") false false []
  | resume {cn : ConfigNode} (h : SaysWord line b!"%RESUME") (hn : c.nodes[ci]? = some cn) (hp : cn.has NODE_PASSIVE = true) :
    CommandAnswered c ci line (resetNode c ci fun n => { n with flags := n.flags &&& ~~~NODE_PASSIVE })
      (answer line b!"Your system is active again") false true []
  | active {cn : ConfigNode} (h : SaysWord line b!"%RESUME") (hn : c.nodes[ci]? = some cn) (hp : cn.has NODE_PASSIVE = false) :
    CommandAnswered c ci line c (answer line b!"Your system is not paused") false false []
  | password {w : Str} (h : SaysWord line b!"%PWD") (hw : secondWord line = some w) :
    CommandAnswered c ci line (resetNode c ci fun n => { n with areafixPW := w })
      (answer line b!"AreaFix password changed") false true []
  | noPassword (h : SaysWord line b!"%PWD") (hw : secondWord line = none) :
    CommandAnswered c ci line c (answer line b!"No new password specified") false false []
  | rescan (h : SaysWord line b!"%RESCAN") (hr : c.has CFG_ALLOWRESCAN = true) :
    CommandAnswered c ci line c (answer line b!"Will rescan all areas added after this line") true false []
  | noRescan (h : SaysWord line b!"%RESCAN") (hr : c.has CFG_ALLOWRESCAN = false) :
    CommandAnswered c ci line c (answer line b!"No rescanning allowed") false false []
  | packers {w : Str} (h : SaysWord line b!"%COMPRESS") (hw : secondWord line = some w) (hq : w.head? = some 63) :
    CommandAnswered c ci line c
      (answer line b!"Sending list of packers:" ++ (packerNames c).map remark) false true []
  | noPacker {w : Str} (h : SaysWord line b!"%COMPRESS") (hw : secondWord line = some w) (hq : w.head? ≠ some 63)
      (hn : w.map lower = b!"none") :
    CommandAnswered c ci line (resetNode c ci fun n => { n with packer := none })
      (answer line b!"Packed changed") false true []
  | packer {w : Str} {k : Nat} (h : SaysWord line b!"%COMPRESS") (hw : secondWord line = some w) (hq : w.head? ≠ some 63)
      (hn : w.map lower ≠ b!"none") (hk : PackerNamed c w k) :
    CommandAnswered c ci line (resetNode c ci fun n => { n with packer := some k })
      (answer line b!"Packed changed") false true []
  | badPacker {w : Str} (h : SaysWord line b!"%COMPRESS") (hw : secondWord line = some w) (hq : w.head? ≠ some 63)
      (hn : w.map lower ≠ b!"none") (hk : ∀ k, ¬ PackerNamed c w k) :
    CommandAnswered c ci line c
      (answer line b!"Unknown packer. Choose from this list:" ++ (packerNames c).map remark) false true []
  | noMethod (h : SaysWord line b!"%COMPRESS") (hw : secondWord line = none) :
    CommandAnswered c ci line c (answer line b!"No new method specified") false false []
  | list (k : Sheet) (h : SaysWord line k.word) : CommandAnswered c ci line c (answer line k.text) false true [k]
  | unknown (h : ∀ w ∈ [b!"%PAUSE", b!"%RESUME", b!"%PWD", b!"%RESCAN", b!"%COMPRESS"], ¬ SaysWord line w)
      (hk : ∀ k : Sheet, ¬ SaysWord line k.word) :
    CommandAnswered c ci line c (answer line b!"Unknown command") false true []

/-! ## Requests -/

/-- Lines have been answered one after the other. -/
inductive Answered (env : Env) (me : Node4D) (ci : Nat) : Config → Bool → List Str → Config → List Str → Bool → List Sheet → Prop where
  | nil {c : Config} {global : Bool} : Answered env me ci c global [] c [] false []
  | command {c c1 c2 : Config} {global turnedOn did done : Bool} {line : Str} {lines as bs : List Str} {ks ls : List Sheet}
      (hl : line.head? = some 37) (h : CommandAnswered c ci line c1 as turnedOn did ks)
      (hr : Answered env me ci c1 (global || turnedOn) lines c2 bs done ls) :
    Answered env me ci c global (line :: lines) c2 (as ++ bs) (did || done) (ks ++ ls)
  | areas {c c1 c2 : Config} {global done : Bool} {line : Str} {lines as bs : List Str} {ls : List Sheet}
      (hl : line.head? ≠ some 37) (h : AreasAnswered env me c ci global line c1 as)
      (hr : Answered env me ci c1 global lines c2 bs done ls) :
    Answered env me ci c global (line :: lines) c2 (as ++ bs) true ls

/-- The commands waiting for other nodes have been sent. -/
def queuesSent (c : Config) : Config :=
  { c with nodes := c.nodes.map fun n => { n with remoteAF := [] } }

/-- The messages with the commands that wait for the nodes: one for each node for which there are any, to its AreaFix with the
password for it, from the address used for the node. -/
inductive OrdersMailed (c : Config) : List ConfigNode → List MemMsg → Prop where
  | nil : OrdersMailed c [] []
  | none {n : ConfigNode} {ns : List ConfigNode} {ms : List MemMsg} (h : n.remoteAF = []) (hr : OrdersMailed c ns ms) :
    OrdersMailed c (n :: ns) ms
  | mail {n : ConfigNode} {ns : List ConfigNode} {rt : Route} {m : MemMsg} {ms : List MemMsg} (h : n.remoteAF ≠ [])
      (hrt : c.findRoute n.node = some rt)
      (hm : (∀ l ∈ n.remoteAF, l.length < 80 ∧ l.head? ≠ some 1) →
        Tells c (some rt.aka) n n.remoteAFName n.remoteAFPw (n.remoteAF ++ [b!"---", b!"Generated by CrashMail 1.5.1"]) m)
      (hr : OrdersMailed c ns ms) : OrdersMailed c (n :: ns) (m :: ms)

/-- Messages handed to the handler one after the other; other things can be done before, between and
after them. -/
inductive HandsOver (self : MemMsg → M Unit) : HSt → List MemMsg → HSt → Prop where
  | nil {s t : HSt} (h : s.log <+: t.log) : HandsOver self s [] t
  | cons {s u v t : HSt} {m : MemMsg} {ms : List MemMsg} (h : s.log <+: u.log) (hm : self m u = .ok () v ∨ self m u = .fail v)
      (hr : HandsOver self v ms t) : HandsOver self s (m :: ms) t

/-- The word behind the password in the subject asks for the list of all areas. -/
def subjectList (subject : Str) : Option Str :=
  let w := jbstrcpy 100 (jbstrcpy 100 subject).2.1
  if w.2.2 = true ∧ (w.1.map lower = b!"-q" ∨ w.1.map lower = b!"-l") then some w.1 else none

end CM
