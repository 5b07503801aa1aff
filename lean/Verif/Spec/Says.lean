import Verif.Spec.Pattern
import Verif.Spec.Strings
import Verif.Model.ReadConfig
/-!
# What a configuration file says

The meaning of the lines of a configuration file, as `doc/example.prefs`, `doc/filter.txt` and `doc/ReadMe.txt` of the
program explain them.
-/

namespace CM

/-! ## Words -/

/-- The same word, in upper or lower case. -/
def Ci (w kw : Str) : Prop := w.map lower = kw.map lower

/-- BlankStr. -/
def BlankStr (b : Str) : Prop := ∀ c ∈ b, c = 32 ∨ c = 9

/-- A word as it is written: as it stands if it has no special characters, or in quotes. -/
inductive Written : Str → Str → Prop
  | bare (w : Str) : w ≠ [] → w.head? ≠ some 34 → (∀ c ∈ w, c ≠ 32 ∧ c ≠ 9 ∧ c ≠ 10 ∧ c ≠ 92) → Written w w
  | quoted (w : Str) : 10 ∉ w → Written w (Quoted w)

/-- A line with these words. -/
inductive WrittenLine : List Str → Str → Prop
  | nil (b : Str) : BlankStr b → WrittenLine [] b
  | last (b w t : Str) : BlankStr b → Written w t → WrittenLine [w] (b ++ t)
  | cons (b w t : Str) (c : UInt8) (ws : List Str) (r : Str) : BlankStr b → Written w t → c = 32 ∨ c = 9 → WrittenLine ws r →
      WrittenLine (w :: ws) (b ++ t ++ c :: r)

/-! ## Values -/

/-- An address; what is missing is 0. -/
def AddrSays (w : Str) (n : Node4D) : Prop := ∃ t : AddrText, t.Digits ∧ w = t.text ∧ n = t.meaning ⟨0, 0, 0, 0⟩

/-- A pattern for addresses without a kind. -/
inductive StarSays : Str → Pat4 → Prop
  | star : StarSays b!"*" ⟨.pattern, b!"*", b!"*", b!"*", b!"*"⟩
  | parts (t : AddrText) : t.PatChars → t.text ≠ b!"*" → StarSays t.text (t.patMeaning .pattern)

/-- Part of a pattern. -/
def PartOk (c : Str) : Prop := c ≠ [] ∧ c.length ≤ 9 ∧ ∀ x ∈ c, isPatChar x = true

/-- A pattern for addresses, possibly by zone, region, net, hub or node of the nodelist. -/
inductive PatSays : Str → Pat4 → Prop
  | parts (w : Str) (p : Pat4) : StarSays w p → PatSays w p
  | zone (z : Str) : PartOk z → PatSays (b!"ZONE " ++ z) ⟨.zone, z, [], [], []⟩
  | region (z n : Str) : PartOk z → PartOk n → PatSays (b!"REGION " ++ z ++ b!":" ++ n) ⟨.region, z, n, [], []⟩
  | net (z n : Str) : PartOk z → PartOk n → PatSays (b!"NET " ++ z ++ b!":" ++ n) ⟨.net, z, n, [], []⟩
  | hub (z n f : Str) : PartOk z → PartOk n → PartOk f → PatSays (b!"HUB " ++ z ++ b!":" ++ n ++ b!"/" ++ f) ⟨.hub, z, n, f, []⟩
  | node (z n f : Str) : PartOk z → PartOk n → PartOk f → PatSays (b!"NODE " ++ z ++ b!":" ++ n ++ b!"/" ++ f) ⟨.node, z, n, f, []⟩

/-- Where mail is routed to. -/
inductive DestSays : Str → Pat4 → Prop
  | parts (w : Str) (p : Pat4) : StarSays w p → DestSays w p
  | zone (w : Str) : Ci w b!"ZONE" → DestSays w ⟨.zone, [], [], [], []⟩
  | region (w : Str) : Ci w b!"REGION" → DestSays w ⟨.region, [], [], [], []⟩
  | net (w : Str) : Ci w b!"NET" → DestSays w ⟨.net, [], [], [], []⟩
  | hub (w : Str) : Ci w b!"HUB" → DestSays w ⟨.hub, [], [], [], []⟩
  | node (w : Str) : Ci w b!"NODE" → DestSays w ⟨.node, [], [], [], []⟩

/-- A pattern for net and node. -/
inductive Pat2Says : Str → Pat2 → Prop
  | star : Pat2Says b!"*" ⟨b!"*", b!"*"⟩
  | parts (n f : Str) : PartOk n → PartOk f → Pat2Says (n ++ b!"/" ++ f) ⟨n, f⟩

/-- A group: a letter, which is a capital one in the program. -/
inductive GroupSays : Str → UInt8 → Prop
  | letter (c : UInt8) : 65 ≤ upper c → upper c ≤ 90 → GroupSays [c] (upper c)

/-- A flavour of mail. -/
inductive FlavourSays : Str → Pri → Prop
  | normal (w : Str) : Ci w b!"NORMAL" → FlavourSays w .normal
  | crash (w : Str) : Ci w b!"CRASH" → FlavourSays w .crash
  | hold (w : Str) : Ci w b!"HOLD" → FlavourSays w .hold
  | direct (w : Str) : Ci w b!"DIRECT" → FlavourSays w .direct

/-- Flavours with commas between them. -/
inductive FlavoursSay : Str → List Pri → Prop
  | one (w : Str) (p : Pri) : FlavourSays w p → FlavoursSay w [p]
  | more (w : Str) (p : Pri) (r : Str) (ps : List Pri) : FlavourSays w p → FlavoursSay r ps → FlavoursSay (w ++ 44 :: r) (p :: ps)

/-- Which flavours are changed. -/
def ChangedFrom (w : Str) (c : Change) : Prop :=
  (w = b!"*" ∧ c.normal = true ∧ c.crash = true ∧ c.hold = true ∧ c.direct = true) ∨
  ∃ ps, FlavoursSay w ps ∧ (c.normal = true ↔ .normal ∈ ps) ∧ (c.crash = true ↔ .crash ∈ ps) ∧ (c.hold = true ↔ .hold ∈ ps) ∧
    (c.direct = true ↔ .direct ∈ ps)

/-- The switches at the end of an AREALIST line, in any order: whether the list is for forward requests, whether
descriptions are taken from it, and the group. -/
inductive ListSays : List Str → Bool → Bool → Option UInt8 → Prop
  | nil : ListSays [] false false none
  | forward (w : Str) (ws : List Str) (f d : Bool) (g : Option UInt8) : Ci w b!"FORWARD" → ListSays ws f d g → ListSays (w :: ws) true d g
  | desc (w : Str) (ws : List Str) (f d : Bool) (g : Option UInt8) : Ci w b!"DESC" → ListSays ws f d g → ListSays (w :: ws) f true g
  | group (w x : Str) (ws : List Str) (f d : Bool) (g : Option UInt8) (c : UInt8) : Ci w b!"GROUP" → GroupSays x c → x.length < 200 → ListSays ws f d g →
      ListSays (w :: x :: ws) f d (some (g.getD c))

/-- The marks of a list. -/
def listFlags (f d : Bool) : UInt16 := (if f then AREALIST_FORWARD else 0) ||| (if d then AREALIST_DESC else 0)

/-- The switches. -/
inductive SwitchSays : Str → UInt32 → Prop
  | stripre : SwitchSays b!"STRIPRE" CFG_STRIPRE
  | forceintl : SwitchSays b!"FORCEINTL" CFG_FORCEINTL
  | noroute : SwitchSays b!"NOROUTE" CFG_NOROUTE
  | answerreceipt : SwitchSays b!"ANSWERRECEIPT" CFG_ANSWERRECEIPT
  | answeraudit : SwitchSays b!"ANSWERAUDIT" CFG_ANSWERAUDIT
  | checkseenby : SwitchSays b!"CHECKSEENBY" CFG_CHECKSEENBY
  | checkpktdest : SwitchSays b!"CHECKPKTDEST" CFG_CHECKPKTDEST
  | path3d : SwitchSays b!"PATH3D" CFG_PATH3D
  | importempty : SwitchSays b!"IMPORTEMPTYNETMAIL" CFG_IMPORTEMPTYNETMAIL
  | importareafix : SwitchSays b!"IMPORTAREAFIX" CFG_IMPORTAREAFIX
  | nodirect : SwitchSays b!"NODIRECTATTACH" CFG_NODIRECTATTACH
  | bouncepoints : SwitchSays b!"BOUNCEPOINTS" CFG_BOUNCEPOINTS
  | importseenby : SwitchSays b!"IMPORTSEENBY" CFG_IMPORTSEENBY
  | areafixremove : SwitchSays b!"AREAFIXREMOVE" CFG_AREAFIXREMOVE
  | weekday : SwitchSays b!"WEEKDAYNAMING" CFG_WEEKDAYNAMING
  | addtid : SwitchSays b!"ADDTID" CFG_ADDTID
  | allowrescan : SwitchSays b!"ALLOWRESCAN" CFG_ALLOWRESCAN
  | forwardpass : SwitchSays b!"FORWARDPASSTHRU" CFG_FORWARDPASSTHRU
  | headeronly : SwitchSays b!"BOUNCEHEADERONLY" CFG_BOUNCEHEADERONLY
  | removefeed : SwitchSays b!"REMOVEWHENFEED" CFG_REMOVEWHENFEED
  | includeforward : SwitchSays b!"INCLUDEFORWARD" CFG_INCLUDEFORWARD
  | nomaxzone : SwitchSays b!"NOMAXOUTBOUNDZONE" CFG_NOMAXOUTBOUNDZONE
  | allowkill : SwitchSays b!"ALLOWKILLSENT" CFG_ALLOWKILLSENT
  | flowcrlf : SwitchSays b!"FLOWCRLF" CFG_FLOWCRLF
  | noexport : SwitchSays b!"NOEXPORTNETMAIL" CFG_NOEXPORTNETMAIL

/-- The switches of the message bases. -/
inductive BaseSwitch : Str → (Settings → Settings) → Prop
  | msgHigh : BaseSwitch b!"MSG_HIGHWATER" fun s => { s with msgFlags := s.msgFlags ||| 2 }
  | msgBack : BaseSwitch b!"MSG_WRITEBACK" fun s => { s with msgFlags := s.msgFlags ||| 4 }
  | jamHigh : BaseSwitch b!"JAM_HIGHWATER" fun s => { s with jamFlags := s.jamFlags ||| 1 }
  | jamLink : BaseSwitch b!"JAM_LINK" fun s => { s with jamFlags := s.jamFlags ||| 2 }
  | jamQuick : BaseSwitch b!"JAM_QUICKLINK" fun s => { s with jamFlags := s.jamFlags ||| 4 }

/-- Names of files, directories and commands: the longest possible one and what is set. -/
inductive NameSays : Str → Nat → (RdSt → Str → RdSt) → Prop
  | sysop : NameSays b!"SYSOP" 34 fun s v => { s with cfg := { s.cfg with sysop := v } }
  | logfile : NameSays b!"LOGFILE" 99 fun s v => { s with set := { s.set with logFile := v } }
  | inbound : NameSays b!"INBOUND" 99 fun s v => { s with cfg := { s.cfg with inbound := v } }
  | outbound : NameSays b!"OUTBOUND" 99 fun s v => { s with set := { s.set with outbound := v } }
  | tempdir : NameSays b!"TEMPDIR" 99 fun s v => { s with set := { s.set with tempDir := v } }
  | pktdir : NameSays b!"CREATEPKTDIR" 99 fun s v => { s with set := { s.set with packetCreate := v } }
  | packetdir : NameSays b!"PACKETDIR" 99 fun s v => { s with cfg := { s.cfg with packetDir := v } }
  | statsfile : NameSays b!"STATSFILE" 99 fun s v => { s with set := { s.set with statsFile := v } }
  | beforetoss : NameSays b!"BEFORETOSS" 78 fun s v => { s with set := { s.set with beforeToss := v } }
  | beforepack : NameSays b!"BEFOREPACK" 78 fun s v => { s with set := { s.set with beforePack := v } }
  | help : NameSays b!"AREAFIXHELP" 99 fun s v => { s with set := { s.set with areafixHelp := v } }

/-- The commands of filters. -/
inductive CommandSays : List Str → Command → Prop
  | kill (k : Str) : Ci k b!"KILL" → CommandSays [k] .kill
  | twit (k : Str) : Ci k b!"TWIT" → CommandSays [k] .twit
  | copy (k x : Str) : Ci k b!"COPY" → x.length < 200 → CommandSays [k, x] (.copy x)
  | execute (k x : Str) : Ci k b!"EXECUTE" → x.length < 200 → CommandSays [k, x] (.execute x)
  | writeLog (k x : Str) : Ci k b!"WRITELOG" → x.length < 200 → CommandSays [k, x] (.writeLog x)
  | writeBad (k x : Str) : Ci k b!"WRITEBAD" → x.length < 200 → CommandSays [k, x] (.writeBad x)
  | bounce (k x : Str) : Ci k b!"BOUNCEMSG" → x.length < 200 → CommandSays [k, x] (.bounce false x)
  | bounceHead (k x : Str) : Ci k b!"BOUNCEHEADER" → x.length < 200 → CommandSays [k, x] (.bounce true x)
  | remap (k x d : Str) (p : Pat4) : Ci k b!"REMAPMSG" → x.length < 200 → d.length < 200 → DestSays d p → CommandSays [k, x, d] (.remap x p)
  | masquerade (k x d : Str) (p : Pat4) : Ci k b!"MASQUERADE" → x.length < 200 → d.length < 200 → DestSays d p →
      CommandSays [k, x, d] (.masquerade x p)

/-- What is said about an own address. -/
inductive AkaSays : List Str → Aka → Aka → Prop
  | domain (k d : Str) (a : Aka) : Ci k b!"DOMAIN" → d.length < 20 → AkaSays [k, d] a { a with domain := d }
  | add (k : Str) (ws : List (Str × Node4D)) (a : Aka) : Ci k b!"ADDNODE" → (∀ x ∈ ws, AddrSays x.1 x.2 ∧ x.1.length < 100) →
      AkaSays (k :: ws.map (·.1)) a { a with addList := a.addList ++ ws.map (·.2) }
  | rem (k : Str) (ws : List (Str × Pat2)) (a : Aka) : Ci k b!"REMNODE" → (∀ x ∈ ws, Pat2Says x.1 x.2 ∧ x.1.length < 100) →
      AkaSays (k :: ws.map (·.1)) a { a with remList := a.remList ++ ws.map (·.2) }

/-- The addresses of an EXPORT line: what is missing is taken from the address before, without its point. `!` is for
read-only, `@` for write-only and `%` for the feed. -/
inductive LinksSay (nodes : List ConfigNode) : Node4D → List Str → List TossNode → Prop
  | nil (tpl : Node4D) : LinksSay nodes tpl [] []
  | cons (tpl : Node4D) (m : Str) (f : UInt16) (t : AddrText) (i : Nat) (ws : List Str) (r : List TossNode) :
      m = [] ∧ f = 0 ∨ m = b!"!" ∧ f = TOSSNODE_READONLY ∨ m = b!"@" ∧ f = TOSSNODE_WRITEONLY ∨ m = b!"%" ∧ f = TOSSNODE_FEED →
      t.Digits → m.length + t.text.length < 100 →
      (nodes.findIdx? fun c => compare4D (t.meaning tpl) c.node == 0) = some i →
      LinksSay nodes { t.meaning tpl with point := 0 } ws r → LinksSay nodes tpl ((m ++ t.text) :: ws) (⟨i, f⟩ :: r)

/-- What is said about an area. -/
inductive AreaSays (nodes : List ConfigNode) : List Str → Area → Area → Prop
  | unconfirmed (k : Str) (a : Area) : Ci k b!"UNCONFIRMED" → AreaSays nodes [k] a { a with flags := a.flags ||| AREA_UNCONFIRMED }
  | mandatory (k : Str) (a : Area) : Ci k b!"MANDATORY" → AreaSays nodes [k] a { a with flags := a.flags ||| AREA_MANDATORY }
  | defreadonly (k : Str) (a : Area) : Ci k b!"DEFREADONLY" → AreaSays nodes [k] a { a with flags := a.flags ||| AREA_DEFREADONLY }
  | ignoredupes (k : Str) (a : Area) : Ci k b!"IGNOREDUPES" → AreaSays nodes [k] a { a with flags := a.flags ||| AREA_IGNOREDUPES }
  | ignoreseenby (k : Str) (a : Area) : Ci k b!"IGNORESEENBY" → AreaSays nodes [k] a { a with flags := a.flags ||| AREA_IGNORESEENBY }
  | exports (k : Str) (ws : List Str) (ls : List TossNode) (a : Area) : Ci k b!"EXPORT" → a.type = .echomail ∨ a.type = .default →
      LinksSay nodes ⟨0, 0, 0, 0⟩ ws ls → AreaSays nodes (k :: ws) a { a with tossNodes := a.tossNodes ++ ls }
  | imports (k : Str) (ws : List (Str × Node4D)) (a : Area) : Ci k b!"IMPORT" → a.type = .netmail →
      (∀ x ∈ ws, AddrSays x.1 x.2 ∧ x.1.length < 100) → AreaSays nodes (k :: ws.map (·.1)) a { a with importNodes := a.importNodes ++ ws.map (·.2) }
  | banned (k : Str) (ws : List (Str × Node4D × Nat)) (a : Area) : Ci k b!"BANNED" →
      (∀ x ∈ ws, AddrSays x.1 x.2.1 ∧ x.1.length < 100 ∧ (nodes.findIdx? fun c => compare4D x.2.1 c.node == 0) = some x.2.2) →
      AreaSays nodes (k :: ws.map (·.1)) a { a with banned := a.banned ++ ws.map (·.2.2) }
  | description (k d : Str) (a : Area) : Ci k b!"DESCRIPTION" → d.length < 80 → AreaSays nodes [k, d] a { a with description := d }
  | group (k g : Str) (c : UInt8) (a : Area) : Ci k b!"GROUP" → GroupSays g c → AreaSays nodes [k, g] a { a with group := c }
  | keepNum (k : Str) (v : UInt32) (a : Area) : Ci k b!"KEEPNUM" → AreaSays nodes [k, dec v.toNat] a { a with keepNum := v }
  | keepDays (k : Str) (v : UInt32) (a : Area) : Ci k b!"KEEPDAYS" → AreaSays nodes [k, dec v.toNat] a { a with keepDays := v }

/-- The switches of a node: some set a mark, some the flavour of its echomail. -/
inductive NodeSwitch : Str → (ConfigNode → ConfigNode) → Prop
  | notify : NodeSwitch b!"NOTIFY" fun n => { n with flags := n.flags ||| NODE_NOTIFY }
  | passive : NodeSwitch b!"PASSIVE" fun n => { n with flags := n.flags ||| NODE_PASSIVE }
  | noseenby : NodeSwitch b!"NOSEENBY" fun n => { n with flags := n.flags ||| NODE_NOSEENBY }
  | tinyseenby : NodeSwitch b!"TINYSEENBY" fun n => { n with flags := n.flags ||| NODE_TINYSEENBY }
  | forwardreq : NodeSwitch b!"FORWARDREQ" fun n => { n with flags := n.flags ||| NODE_FORWARDREQ }
  | packnetmail : NodeSwitch b!"PACKNETMAIL" fun n => { n with flags := n.flags ||| NODE_PACKNETMAIL }
  | sendareafix : NodeSwitch b!"SENDAREAFIX" fun n => { n with flags := n.flags ||| NODE_SENDAREAFIX }
  | sendtext : NodeSwitch b!"SENDTEXT" fun n => { n with flags := n.flags ||| NODE_SENDTEXT }
  | autoadd : NodeSwitch b!"AUTOADD" fun n => { n with flags := n.flags ||| NODE_AUTOADD }
  | nopassword : NodeSwitch b!"NONETMAILPASSWORD" fun n => { n with flags := n.flags ||| NODE_NONETMAILPASSWORD }
  | crash : NodeSwitch b!"CRASH" fun n => { n with echomailPri := PKTS_CRASH }
  | direct : NodeSwitch b!"DIRECT" fun n => { n with echomailPri := PKTS_DIRECT }
  | hold : NodeSwitch b!"HOLD" fun n => { n with echomailPri := PKTS_HOLD }

/-- Switches one after the other. -/
inductive SwitchesSay : List Str → ConfigNode → ConfigNode → Prop
  | nil (n : ConfigNode) : SwitchesSay [] n n
  | cons (k kw : Str) (f : ConfigNode → ConfigNode) (ws : List Str) (n m : ConfigNode) : Ci k kw → NodeSwitch kw f → SwitchesSay ws (f n) m →
      SwitchesSay (k :: ws) n m

/-- Groups of a node: letters. -/
def GroupsSay (w g : Str) : Prop := w.length < 30 ∧ (∀ c ∈ w, 65 ≤ upper c ∧ upper c ≤ 90) ∧ g = w.map upper

/-- What is said about a node. -/
inductive NodeSays : List Str → ConfigNode → ConfigNode → Prop
  | pktfrom (k w : Str) (a : Node4D) (n : ConfigNode) : Ci k b!"PKTFROM" → AddrSays w a → w.length < 200 →
      NodeSays [k, w] n { n with flags := n.flags ||| NODE_PKTFROM, pktFrom := a }
  | areafix (k pw g r d g' r' d' : Str) (n : ConfigNode) : Ci k b!"AREAFIXINFO" → pw.length < 40 → GroupsSay g g' → GroupsSay r r' → GroupsSay d d' →
      NodeSays [k, pw, g, r, d] n { n with areafixPW := pw, groups := g', readOnlyGroups := r', addGroups := d' }
  | group (k g : Str) (c : UInt8) (n : ConfigNode) : Ci k b!"DEFAULTGROUP" → GroupSays g c → NodeSays [k, g] n { n with defaultGroup := c }
  | remoteAf (k x pw : Str) (n : ConfigNode) : Ci k b!"REMOTEAF" → x.length < 36 → pw.length < 72 →
      NodeSays [k, x, pw] n { n with remoteAFName := x, remoteAFPw := pw }
  | remotePlus (k x pw q : Str) (n : ConfigNode) : Ci k b!"REMOTEAF" → x.length < 36 → pw.length < 72 → Ci q b!"NEEDSPLUS" →
      NodeSays [k, x, pw, q] n { n with remoteAFName := x, remoteAFPw := pw, flags := n.flags ||| NODE_AFNEEDSPLUS }
  | sysop (k x : Str) (n : ConfigNode) : Ci k b!"REMOTESYSOP" → x.length < 36 → NodeSays [k, x] n { n with sysopName := x }

/-- The kind of an area. -/
inductive KindSays : Str → Str → AreaType → Prop
  | netmail (k tag : Str) : Ci k b!"NETMAIL" → KindSays k tag .netmail
  | local (k tag : Str) : Ci k b!"LOCALAREA" → KindSays k tag .local
  | bad (k tag : Str) : Ci k b!"AREA" → Ci tag b!"BAD" → KindSays k tag .bad
  | default (k tag : Str) : Ci k b!"AREA" → Ci tag b!"DEFAULT" → KindSays k tag .default
  | defaultGroup (k p g : Str) : Ci k b!"AREA" → Ci p b!"DEFAULT_" → KindSays k (p ++ g) .default
  | echomail (k tag : Str) : Ci k b!"AREA" → ¬ Ci tag b!"BAD" → ¬ Ci tag b!"DEFAULT" → ¬ (∃ p g, tag = p ++ g ∧ Ci p b!"DEFAULT_") →
      KindSays k tag .echomail

/-- The message bases. -/
inductive BaseSays : Str → Nat → Prop
  | msg (w : Str) : Ci w b!"MSG" → BaseSays w 0
  | jam (w : Str) : Ci w b!"JAM" → BaseSays w 1

/-! ## Lines -/

/-- What a line with these words changes. -/
inductive Says (s : RdSt) : List Str → RdSt → Prop
  | name (k kw x : Str) (n : Nat) (f : RdSt → Str → RdSt) : Ci k kw → NameSays kw n f → x.length ≤ n → Says s [k, x] (f s x)
  | switch (k kw : Str) (v : UInt32) : Ci k kw → SwitchSays kw v → Says s [k] { s with cfg := { s.cfg with flags := s.cfg.flags ||| v } }
  | base (k kw : Str) (f : Settings → Settings) : Ci k kw → BaseSwitch kw f → Says s [k] { s with set := f s.set }
  | loglevel (k : Str) (v : Nat) : Ci k b!"LOGLEVEL" → 1 ≤ v → v ≤ 6 → Says s [k, dec v] { s with set := { s.set with logLevel := UInt32.ofNat v } }
  | dupefile (k x : Str) (v : Nat) : Ci k b!"DUPEFILE" → x.length < 100 → v < 2 ^ 31 →
      Says s [k, x, dec v] { s with cfg := { s.cfg with dupeSize := v }, set := { s.set with dupeFile := x } }
  | dupemode (k m : Str) (v : Nat) : Ci k b!"DUPEMODE" → Ci m b!"IGNORE" ∧ v = 0 ∨ Ci m b!"BAD" ∧ v = 1 ∨ Ci m b!"KILL" ∧ v = 2 →
      Says s [k, m] { s with cfg := { s.cfg with dupeMode := v } }
  | loopmode (k m : Str) (v : Nat) : Ci k b!"LOOPMODE" → Ci m b!"IGNORE" ∧ v = 0 ∨ Ci m b!"LOG" ∧ v = 1 ∨ Ci m b!"LOG+BAD" ∧ v = 2 →
      Says s [k, m] { s with cfg := { s.cfg with loopMode := v } }
  | maxpkt (k : Str) (v : Nat) : Ci k b!"MAXPKTSIZE" → v < 2 ^ 21 → Says s [k, dec v] { s with set := { s.set with maxPktSize := UInt32.ofNat (v * 1024) } }
  | maxbundle (k : Str) (v : Nat) : Ci k b!"MAXBUNDLESIZE" → v < 2 ^ 21 →
      Says s [k, dec v] { s with set := { s.set with maxBundleSize := UInt32.ofNat (v * 1024) } }
  | defaultzone (k : Str) (v : Nat) : Ci k b!"DEFAULTZONE" → v < 2 ^ 31 → Says s [k, dec v] { s with set := { s.set with defaultZone := UInt32.ofNat v } }
  | maxlines (k : Str) (v : Nat) : Ci k b!"AREAFIXMAXLINES" → v < 2 ^ 31 →
      Says s [k, dec v] { s with cfg := { s.cfg with areafixMaxLines := UInt32.ofNat v } }
  | maxopen (k : Str) (v : Nat) : Ci k b!"JAM_MAXOPEN" → v < 2 ^ 31 → Says s [k, dec v] { s with set := { s.set with jamMaxOpen := UInt32.ofNat v } }
  | nodelist (k p ty : Str) (i : Nat) : Ci k b!"NODELIST" → p.length < 100 → Ci ty b!"CMNL" ∧ i = 0 ∨ Ci ty b!"V7+" ∧ i = 1 →
      Says s [k, p, ty] { s with cfg := { s.cfg with nlConfigured := true }, set := { s.set with nodelist := p, nodelistType := some i } }
  | groupname (k g d : Str) (c : UInt8) : Ci k b!"GROUPNAME" → GroupSays g c → d.length < 80 →
      Says s [k, g, d] { s with cfg := { s.cfg with groupNames := fun i => if i = c.toNat - 65 then d else s.cfg.groupNames i } }
  | bounce (k : Str) (ws : List (Str × Pat4)) : Ci k b!"BOUNCE" → (∀ x ∈ ws, PatSays x.1 x.2 ∧ x.1.length < 100) →
      Says s (k :: ws.map (·.1)) { s with cfg := { s.cfg with bounceList := s.cfg.bounceList ++ ws.map (·.2) } }
  | fileattach (k : Str) (ws : List (Str × Pat4)) : Ci k b!"FILEATTACH" → (∀ x ∈ ws, PatSays x.1 x.2 ∧ x.1.length < 100) →
      Says s (k :: ws.map (·.1)) { s with cfg := { s.cfg with fileAttachList := s.cfg.fileAttachList ++ ws.map (·.2) } }
  | change (k w p f : Str) (c : Change) : Ci k b!"CHANGE" → w.length < 200 → ChangedFrom w c → p.length < 200 → PatSays p c.pattern →
      FlavourSays f c.destPri → Says s [k, w, p, f] { s with cfg := { s.cfg with changes := s.cfg.changes ++ [c] } }
  | packer (k n p u r : Str) : Ci k b!"PACKER" → n.length < 10 → p.length < 80 → u.length < 80 → r.length < 80 →
      Says s [k, n, p, u, r] { s with cfg := { s.cfg with packers := s.cfg.packers ++ [⟨n, p, u, r⟩] } }
  | aka (k w : Str) (n : Node4D) : Ci k b!"AKA" → AddrSays w n → w.length < 200 →
      Says s [k, w] { s with cfg := { s.cfg with akas := s.cfg.akas ++ [{ node := n }] } }
  | ofAka (ws : List Str) (l : List Aka) (a b : Aka) : s.cfg.akas = l ++ [a] → AkaSays ws a b → Says s ws { s with cfg := { s.cfg with akas := l ++ [b] } }
  | areafixname (k x : Str) : Ci k b!"AREAFIXNAME" → x.length < 36 →
      Says s [k, x] { s with cfg := { s.cfg with areafixNames := s.cfg.areafixNames ++ [x] } }
  | arealist (k w x : Str) (ws : List Str) (n : Node4D) (i : Nat) (f d : Bool) (g : Option UInt8) : Ci k b!"AREALIST" → AddrSays w n → w.length < 200 →
      (s.cfg.nodes.findIdx? fun c => compare4D n c.node == 0) = some i → x.length < 80 → ListSays ws f d g →
      Says s (k :: w :: x :: ws) { s with cfg := { s.cfg with arealists := s.cfg.arealists ++ [⟨i, x, listFlags f d, g.getD 0⟩] } }
  | route (k p d w : Str) (pat dest : Pat4) (n : Node4D) (a : Aka) : Ci k b!"ROUTE" → p.length < 200 → PatSays p pat → d.length < 200 →
      DestSays d dest → w.length < 200 → AddrSays w n → (s.cfg.akas.find? fun a => compare4D n a.node == 0) = some a →
      Says s [k, p, d, w] { s with cfg := { s.cfg with routes := s.cfg.routes ++ [⟨pat, dest, a.node⟩] } }
  | command (ws : List Str) (l : List Filter) (f : Filter) (c : Command) : s.cfg.filters = l ++ [f] → CommandSays ws c →
      Says s ws { s with cfg := { s.cfg with filters := l ++ [{ f with commands := f.commands ++ [c] }] } }
  | node (k w pk pw : Str) (ws : List Str) (n : Node4D) (p : Option Nat) (m : ConfigNode) : Ci k b!"NODE" → AddrSays w n → w.length < 200 →
      pk.length < 10 → pw.length < 9 →
      (pk = [] ∧ p = none ∨ pk ≠ [] ∧ ∃ i, (s.cfg.packers.findIdx? fun q => eqi pk q.name) = some i ∧ p = some i) →
      SwitchesSay ws { node := n, packer := p, packetPW := pw } m →
      Says s (k :: w :: pk :: pw :: ws) { s with cfg := { s.cfg with nodes := s.cfg.nodes ++ [m] } }
  | ofNode (ws : List Str) (l : List ConfigNode) (a b : ConfigNode) : s.cfg.nodes = l ++ [a] → NodeSays ws a b →
      Says s ws { s with cfg := { s.cfg with nodes := l ++ [b] } }
  | passthru (k tag w : Str) (n : Node4D) (i : Nat) (ty : AreaType) : KindSays k tag ty → ty = .echomail ∨ ty = .default → tag.length < 80 → AddrSays w n →
      w.length < 200 → (s.cfg.akas.findIdx? fun a => compare4D n a.node == 0) = some i →
      Says s [k, tag, w] { s with cfg := { s.cfg with areas := s.cfg.areas ++ [{ tag := tag, aka := some i, type := ty }] } }
  | area (k tag w bs p : Str) (n : Node4D) (i j : Nat) (ty : AreaType) : KindSays k tag ty → tag.length < 80 → AddrSays w n →
      w.length < 200 → (s.cfg.akas.findIdx? fun a => compare4D n a.node == 0) = some i → BaseSays bs j → p.length < 80 → (ty = .bad → p ≠ []) →
      Says s [k, tag, w, bs, p] { s with cfg := { s.cfg with areas := s.cfg.areas ++ [{ tag := tag, aka := some i, base := some j, path := p, type := ty }] } }
  | ofArea (ws : List Str) (l : List Area) (a b : Area) : s.cfg.areas = l ++ [a] → AreaSays s.cfg.nodes ws a b →
      Says s ws { s with cfg := { s.cfg with areas := l ++ [b] } }
  | empty : Says s [] s

/-- What a line changes. -/
inductive LineSays (s : RdSt) : Str → RdSt → Prop
  | words (ws : List Str) (l : Str) (t : RdSt) : WrittenLine ws l → Says s ws t → LineSays s l t
  | filter (b k c x : Str) : BlankStr b → Ci k b!"FILTER" → BlankStr c → c ≠ [] → x ≠ [] → x.head? ≠ some 32 → x.head? ≠ some 9 → 10 ∉ x →
      x.length < 400 → LineSays s (b ++ k ++ c ++ x) { s with cfg := { s.cfg with filters := s.cfg.filters ++ [⟨x, []⟩] } }
  | comment (b r : Str) : BlankStr b → 10 ∉ r → LineSays s (b ++ 59 :: r) s

/-- The words a line may begin with. -/
def keywords : List Str :=
  [b!"SYSOP", b!"LOGFILE", b!"LOGLEVEL", b!"DUPEFILE", b!"DUPEMODE", b!"LOOPMODE", b!"MAXPKTSIZE", b!"MAXBUNDLESIZE", b!"DEFAULTZONE", b!"NODELIST",
    b!"INBOUND", b!"OUTBOUND", b!"TEMPDIR", b!"CREATEPKTDIR", b!"PACKETDIR", b!"STATSFILE", b!"BEFORETOSS", b!"BEFOREPACK",
    b!"STRIPRE", b!"FORCEINTL", b!"NOROUTE", b!"ANSWERRECEIPT", b!"ANSWERAUDIT", b!"CHECKSEENBY", b!"CHECKPKTDEST", b!"PATH3D",
    b!"IMPORTEMPTYNETMAIL", b!"IMPORTAREAFIX", b!"NODIRECTATTACH", b!"BOUNCEPOINTS", b!"IMPORTSEENBY", b!"AREAFIXREMOVE", b!"WEEKDAYNAMING",
    b!"ADDTID", b!"ALLOWRESCAN", b!"FORWARDPASSTHRU", b!"BOUNCEHEADERONLY", b!"REMOVEWHENFEED", b!"INCLUDEFORWARD", b!"NOMAXOUTBOUNDZONE",
    b!"ALLOWKILLSENT", b!"FLOWCRLF", b!"NOEXPORTNETMAIL", b!"GROUPNAME", b!"BOUNCE", b!"FILEATTACH", b!"CHANGE", b!"PACKER",
    b!"AKA", b!"DOMAIN", b!"ADDNODE", b!"REMNODE", b!"NODE", b!"PKTFROM", b!"AREAFIXINFO", b!"DEFAULTGROUP", b!"REMOTEAF", b!"REMOTESYSOP",
    b!"AREAFIXHELP", b!"AREAFIXMAXLINES", b!"AREAFIXNAME", b!"AREALIST", b!"ROUTE", b!"MSG_HIGHWATER", b!"MSG_WRITEBACK",
    b!"JAM_HIGHWATER", b!"JAM_LINK", b!"JAM_QUICKLINK", b!"JAM_MAXOPEN", b!"NETMAIL", b!"AREA", b!"LOCALAREA", b!"IMPORT", b!"EXPORT", b!"BANNED",
    b!"DESCRIPTION", b!"GROUP", b!"KEEPNUM", b!"KEEPDAYS", b!"UNCONFIRMED", b!"MANDATORY", b!"DEFREADONLY", b!"IGNOREDUPES", b!"IGNORESEENBY",
    b!"FILTER", b!"KILL", b!"TWIT", b!"COPY", b!"EXECUTE", b!"WRITELOG", b!"WRITEBAD", b!"BOUNCEMSG", b!"BOUNCEHEADER", b!"REMAPMSG", b!"MASQUERADE"]

/-- What a whole file says: its lines, which end with LF or with CR and LF, are read one after the other. The last one may
come without. -/
inductive FileSays : RdSt → Str → RdSt → Prop
  | nil (s : RdSt) : FileSays s [] s
  | last (s u : RdSt) (t : Str) : LineSays s t u → NoNul t → 10 ∉ t → t ≠ [] → t.length < 4000 → FileSays s t u
  | line (s u v : RdSt) (t e r : Str) : LineSays s t u → NoNul t → 10 ∉ t → t.getLast? ≠ some 13 → t.length < 3998 →
      e = [10] ∨ e = [13, 10] → FileSays u r v → FileSays s (t ++ e ++ r) v

end CM
