import Verif.Model.Config
import Verif.Model.File
import Verif.Model.Node4D
import Verif.Model.Strings
/-! # Rewriting the configuration file (`crashmail/config.c` 1978-2374) -/

namespace CM

/-- What a loop `while(osFGets(fh,buf,max))` sees; `n` is at least the length of the file. -/
def fileLines (max : Nat) : Nat → List UInt8 → List Str
  | 0, _ => []
  | n + 1, f =>
    match osFGets max f with
    | none => []
    | some (s, r) => if s = [] then [] else s :: fileLines max n r

/-- Words of a list, ten per line, each line beginning with `kw` (`config.c` 2151-2163 and others). -/
def tenLoop (kw : Str) : Nat → List Str → Str
  | c, [] => if c ≠ 0 then [10] else []
  | c, w :: r =>
    (if c % 10 = 0 then (if c ≠ 0 then [10] else []) ++ kw else []) ++ [32] ++ w ++ tenLoop kw (c + 1) r

/-- The names of the message bases (`mb.c` 11-42). -/
def baseName : Nat → Str
  | 0 => b!"MSG"
  | _ => b!"JAM"

/-- `tmptnode->ConfigNode->Node`. A position outside the list would be a dangling pointer. -/
def nodeAddr (cfg : Config) (i : Nat) : Except UB Node4D :=
  match cfg.nodes[i]? with
  | some n => .ok n.node
  | none => .error .nullDeref

/-- `WriteNode4D` (`config.c` 1998-2001). -/
def writeNode4D (n : Node4D) : Str :=
  dec n.zone.toNat ++ b!":" ++ dec n.net.toNat ++ b!"/" ++ dec n.node.toNat ++ b!"." ++ dec n.point.toNat

/-- A word of an EXPORT line (`config.c` 2180-2189). -/
def exportWord (cfg : Config) (t : TossNode) : Except UB Str := do
  let n ← nodeAddr cfg t.node
  return (if t.has TOSSNODE_READONLY then [33] else []) ++ (if t.has TOSSNODE_WRITEONLY then [64] else []) ++
    (if t.has TOSSNODE_FEED then [37] else []) ++ writeNode4D n

/-- The first word or words of an area (`config.c` 2123-2130). -/
def areaKeyword (a : Area) : Str :=
  (if a.type = .netmail then b!"NETMAIL " else []) ++ if a.type = .local then b!"LOCALAREA " else b!"AREA "

/-- The lines with the linked nodes (`config.c` 2147-2193). -/
def areaLinks (cfg : Config) (a : Area) : Except UB Str :=
  if a.type = .netmail then .ok (tenLoop b!"IMPORT" 0 (a.importNodes.map writeNode4D))
  else if a.type = .echomail || a.type = .default then do
    return tenLoop b!"EXPORT" 0 (← a.tossNodes.mapM (exportWord cfg))
  else .ok []

/-- The other lines (`config.c` 2210-2239). -/
def areaRest (a : Area) : Except UB Str := do
  let d ← if a.description = [] then pure [] else do pure (b!"DESCRIPTION " ++ (← writeSafely a.description) ++ [10])
  return d ++ (if a.group = 0 then [] else b!"GROUP " ++ [a.group, 10]) ++
    (if a.keepNum = 0 then [] else b!"KEEPNUM " ++ dec a.keepNum.toNat ++ [10]) ++
    (if a.keepDays = 0 then [] else b!"KEEPDAYS " ++ dec a.keepDays.toNat ++ [10]) ++
    (if a.has AREA_UNCONFIRMED then b!"UNCONFIRMED\n" else []) ++
    (if a.has AREA_MANDATORY then b!"MANDATORY\n" else []) ++
    (if a.has AREA_DEFREADONLY then b!"DEFREADONLY\n" else []) ++
    (if a.has AREA_IGNOREDUPES then b!"IGNOREDUPES\n" else []) ++
    (if a.has AREA_IGNORESEENBY then b!"IGNORESEENBY\n" else [])

/-- The first line of an area (`config.c` 2132-2145). -/
def areaHead (cfg : Config) (a : Area) : Except UB Str := do
  let aka ← match a.aka.bind (cfg.akas[·]?) with
    | some k => pure k.node
    | none => .error .nullDeref
  let tag ← writeSafely a.tag
  let base ← match a.base with
    | some b => do pure ([32] ++ baseName b ++ [32] ++ (← writeSafely a.path))
    | none => pure []
  return areaKeyword a ++ tag ++ [32] ++ writeNode4D aka ++ base ++ [10]

/-- `WriteArea` (`config.c` 2116-2239). -/
def areaText (cfg : Config) (a : Area) : Except UB Str := do
  let h ← areaHead cfg a
  let l ← areaLinks cfg a
  let b ← a.banned.mapM (nodeAddr cfg)
  let r ← areaRest a
  return h ++ l ++ tenLoop b!"BANNED" 0 (b.map writeNode4D) ++ r

/-- The switches of a node (`config.c` 2026-2067). -/
def nodeSwitches (n : ConfigNode) : Str :=
  (if n.has NODE_PASSIVE then b!" PASSIVE" else []) ++
  (if n.has NODE_NOTIFY then b!" NOTIFY" else []) ++
  (if n.has NODE_NOSEENBY then b!" NOSEENBY" else []) ++
  (if n.has NODE_TINYSEENBY then b!" TINYSEENBY" else []) ++
  (if n.has NODE_FORWARDREQ then b!" FORWARDREQ" else []) ++
  (if n.has NODE_PACKNETMAIL then b!" PACKNETMAIL" else []) ++
  (if n.has NODE_NONETMAILPASSWORD then b!" NONETMAILPASSWORD" else []) ++
  (if n.has NODE_SENDAREAFIX then b!" SENDAREAFIX" else []) ++
  (if n.has NODE_SENDTEXT then b!" SENDTEXT" else []) ++
  (if n.has NODE_AUTOADD then b!" AUTOADD" else []) ++
  (if n.echomailPri = 4 then b!" CRASH" else []) ++
  (if n.echomailPri = 3 then b!" DIRECT" else []) ++
  (if n.echomailPri = 1 then b!" HOLD" else [])

/-- `WriteNode` (`config.c` 2011-2103). -/
def nodeText (cfg : Config) (n : ConfigNode) : Except UB Str := do
  let packer ← writeSafely ((n.packer.bind (cfg.packers[·]?)).elim [] (·.name))
  let pw ← writeSafely n.packetPW
  let head := b!"NODE " ++ writeNode4D n.node ++ [32] ++ packer ++ [32] ++ pw ++ nodeSwitches n ++ [10]
  let from_ := if n.has NODE_PKTFROM then b!"PKTFROM " ++ writeNode4D n.pktFrom ++ [10] else []
  let info ←
    if n.areafixPW ≠ [] || n.groups ≠ [] || n.readOnlyGroups ≠ [] || n.addGroups ≠ [] then do
      pure (b!"AREAFIXINFO " ++ (← writeSafely n.areafixPW) ++ [32] ++ (← writeSafely n.groups) ++ [32] ++
        (← writeSafely n.readOnlyGroups) ++ [32] ++ (← writeSafely n.addGroups) ++ [32, 10])
    else pure []
  let raf ←
    if n.remoteAFName ≠ [] then do
      pure (b!"REMOTEAF " ++ (← writeSafely n.remoteAFName) ++ [32] ++ (← writeSafely n.remoteAFPw) ++
        (if n.has NODE_AFNEEDSPLUS then b!" NEEDSPLUS" else []) ++ [10])
    else pure []
  let sysop ← if n.sysopName ≠ [] then do pure (b!"REMOTESYSOP " ++ (← writeSafely n.sysopName) ++ [10]) else pure []
  let dg := if n.defaultGroup ≠ 0 then b!"DEFAULTGROUP " ++ [n.defaultGroup, 10] else []
  return head ++ from_ ++ info ++ raf ++ sysop ++ dg

/-- `nodekeywords` (`config.c` 2003-2004). -/
def nodeKeywords : List Str :=
  [b!"DEFAULTGROUP", b!"REMOTESYSOP", b!"REMOTEAF", b!"AREAFIXINFO", b!"NODE", b!"PKTFROM"]

/-- `areakeywords` (`config.c` 2006-2009). -/
def areaKeywords : List Str :=
  [b!"IGNORESEENBY", b!"IGNOREDUPES", b!"DEFREADONLY", b!"MANDATORY", b!"UNCONFIRMED", b!"KEEPNUM", b!"KEEPDAYS",
    b!"GROUP", b!"DESCRIPTION", b!"BANNED", b!"EXPORT", b!"IMPORT", b!"AREA", b!"NETMAIL"]

/-- Does the line begin an area (`config.c` 2282)? -/
def isAreaWord (w : Str) : Bool := eqi w b!"AREA" || eqi w b!"NETMAIL" || eqi w b!"LOCALAREA"

/-- State of the loop of `UpdateConfig`: the configuration (the marks `changed` are removed), `skiparea`,
`skipnode` and what has been written. -/
structure Upd where
  cfg : Config
  skipArea : Bool := false
  skipNode : Bool := false
  out : Str := []

/-- The lines that begin an area (`config.c` 2282-2308). `rest` is the line after the first word. -/
def updArea (u : Upd) (rest : Str) : Except UB Upd :=
  let t := jbstrcpy 100 rest
  if t.2.2 then
    match u.cfg.areas.findIdx? fun a => eqi t.1 a.tag with
    | none => .ok { u with skipArea := true }
    | some i =>
      match u.cfg.areas[i]? with
      | none => .error .nullDeref
      | some a =>
        if a.changed then do
          let txt ← areaText u.cfg a
          return { u with
            cfg := { u.cfg with areas := u.cfg.areas.modify i fun a => { a with changed := false } }
            skipArea := true
            out := u.out ++ txt ++ [10] }
        else .ok { u with skipArea := false }
  else .ok { u with skipArea := false }

/-- The lines that begin a node (`config.c` 2310-2330). -/
def updNode (u : Upd) (rest : Str) : Except UB Upd :=
  let t := jbstrcpy 100 rest
  let no := { u with skipNode := false }
  if t.2.2 then
    match parse4D t.1 with
    | none => .ok no
    | some n4d =>
      match u.cfg.nodes.findIdx? fun n => compare4D n4d n.node == 0 with
      | none => .ok no
      | some i =>
        match u.cfg.nodes[i]? with
        | none => .error .nullDeref
        | some n =>
          if n.changed then do
            let txt ← nodeText u.cfg n
            return { u with
              cfg := { u.cfg with nodes := u.cfg.nodes.modify i fun n => { n with changed := false } }
              skipNode := true
              out := u.out ++ txt ++ [10] }
          else .ok no
  else .ok no

/-- Is the line left out (`config.c` 2332-2350)? `copyres` tells that it is not empty. -/
def dontWrite (skipArea skipNode copyres : Bool) (w : Str) : Bool :=
  (skipArea && (areaKeywords.any (eqi w) || !copyres)) || (skipNode && (nodeKeywords.any (eqi w) || !copyres))

/-- The checks for the beginning of an area or a node (`config.c` 2282-2330); no word is both. -/
def updHead (u : Upd) (w rest : Str) : Except UB Upd :=
  if isAreaWord w then updArea u rest else if eqi w b!"NODE" then updNode u rest else .ok u

/-- The copy of the line (`config.c` 2352-2353). -/
def updCopy (u : Upd) (copyres : Bool) (w line : Str) : Upd :=
  if dontWrite u.skipArea u.skipNode copyres w then u else { u with out := u.out ++ line }

/-- One line (`config.c` 2276-2354). -/
def updLine (u : Upd) (line : Str) : Except UB Upd := do
  let w := jbstrcpy 30 line
  let u ← updHead u w.1 w.2.1
  return updCopy u w.2.2 w.1 line

/-- The areas not yet written (`config.c` 2356-2362). -/
def updNew (cfg : Config) : List Area → Except UB Str
  | [] => .ok []
  | a :: r => do
    let txt ← if a.changed then do pure ([10] ++ (← areaText cfg a)) else pure []
    return txt ++ (← updNew cfg r)

/-- The new contents of the file (`UpdateConfig`, `config.c` 2276-2362). -/
def updateText (cfg : Config) (file : List UInt8) : Except UB Str := do
  let u ← (fileLines 4000 file.length file).foldlM updLine { cfg := cfg }
  return u.out ++ (← updNew u.cfg u.cfg.areas)

end CM
