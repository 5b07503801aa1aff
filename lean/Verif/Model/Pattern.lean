import Verif.Model.Node4D
/-! # `crashmail/node4dpat.c`: node patterns; `ChangeType` of `crashmail/misc.c` -/

namespace CM

/-- `PAT_*` (`crashmail/node4dpat.h` 4-9). -/
inductive PatType where
  | pattern | zone | region | net | hub | node
  deriving DecidableEq, Repr

/-- `struct Node4DPat` (`crashmail/node4dpat.h` 11-18); every component is a `char[10]`. -/
structure Pat4 where
  type : PatType
  zone : Str
  net : Str
  node : Str
  point : Str
  deriving DecidableEq, Repr

/-- Local variables of `rawParse4DPat` (`crashmail/node4dpat.c` 5-7). `temp = none` means the
array `temp[10]` is still uninitialised; `temp = some s` that it holds the string `s`, which is NOT
cleared when `tempc` is reset. -/
structure RP where
  pat : Pat4
  temp : Option Str := none
  tempc : Nat := 0
  gotZone : Bool := false
  gotNet : Bool := false
  gotNode : Bool := false

/-- Characters allowed in a pattern component (`crashmail/node4dpat.c` 41). -/
def isPatChar (c : UInt8) : Bool := isDigit c || c == 42 || c == 63

/-- `strcpy(field,temp)`: undefined when `temp` was never written. -/
def useTemp (s : RP) : Except UB Str :=
  match s.temp with
  | none => .error .uninit
  | some t => .ok t

/-- One iteration of the loop of `rawParse4DPat` (`crashmail/node4dpat.c` 17-50). `ok none` is
`return(FALSE)`. -/
def rpStep (s : RP) (c : UInt8) : Except UB (Option RP) :=
  if c = 58 then
    if s.gotZone || s.gotNet || s.gotNode then .ok none
    else do let t ← useTemp s
            .ok (some { s with pat := { s.pat with zone := t }, gotZone := true, tempc := 0 })
  else if c = 47 then
    if s.gotNet || s.gotNode then .ok none
    else do let t ← useTemp s
            .ok (some { s with pat := { s.pat with net := t }, gotNet := true, tempc := 0 })
  else if c = 46 then
    if s.gotNode then .ok none
    else do let t ← useTemp s
            .ok (some { s with pat := { s.pat with node := t, point := [] }, gotNode := true, tempc := 0 })
  else if isPatChar c then
    if s.tempc < 9 then
      .ok (some { s with temp := some ((s.temp.getD []).take s.tempc ++ [c]), tempc := s.tempc + 1 })
    else .ok (some s)
  else .ok none

/-- The loop of `rawParse4DPat`. -/
def rpLoop (s : RP) : Str → Except UB (Option RP)
  | [] => .ok (some s)
  | c :: cs =>
    match rpStep s c with
    | .error e => .error e
    | .ok none => .ok none
    | .ok (some s') => rpLoop s' cs

/-- End of `rawParse4DPat` (`crashmail/node4dpat.c` 52-66). -/
def rpFin (s : RP) : Except UB Pat4 :=
  if s.gotZone && !s.gotNet then do let t ← useTemp s; .ok { s.pat with net := t }
  else if s.gotNode then do let t ← useTemp s; .ok { s.pat with point := t }
  else do let t ← useTemp s; .ok { s.pat with node := t, point := b!"0" }

/-- `rawParse4DPat` (`crashmail/node4dpat.c` 3-67), for a given `Type`. `ok none` is
`return(FALSE)`; the partially filled structure of that case is not modelled. -/
def rawParse4DPat (ty : PatType) (buf : Str) : Except UB (Option Pat4) :=
  let star : Pat4 := ⟨ty, b!"*", b!"*", b!"*", b!"*"⟩
  if buf = b!"*" then .ok (some star)
  else
    match rpLoop { pat := star } buf with
    | .error e => .error e
    | .ok none => .ok none
    | .ok (some s) => (rpFin s).map some

/-- `Parse4DPat` (`crashmail/node4dpat.c` 69-120). -/
def parse4DPat (buf : Str) : Except UB (Option Pat4) :=
  if eqin buf b!"ZONE " 5 then
    (rawParse4DPat .zone (buf.drop 5)).map (Option.map fun p =>
      { p with zone := p.node, net := [], node := [], point := [] })
  else if eqin buf b!"REGION " 7 then
    (rawParse4DPat .region (buf.drop 7)).map (Option.map fun p => { p with node := [], point := [] })
  else if eqin buf b!"NET " 4 then
    (rawParse4DPat .net (buf.drop 4)).map (Option.map fun p => { p with node := [], point := [] })
  else if eqin buf b!"HUB " 4 then
    (rawParse4DPat .hub (buf.drop 4)).map (Option.map fun p => { p with point := [] })
  else if eqin buf b!"NODE " 5 then
    (rawParse4DPat .node (buf.drop 5)).map (Option.map fun p => { p with point := [] })
  else rawParse4DPat .pattern buf

/-- `Parse4DDestPat` (`crashmail/node4dpat.c` 122-160). -/
def parse4DDestPat (buf : Str) : Except UB (Option Pat4) :=
  if eqi buf b!"ZONE" then .ok (some ⟨.zone, [], [], [], []⟩)
  else if eqi buf b!"REGION" then .ok (some ⟨.region, [], [], [], []⟩)
  else if eqi buf b!"NET" then .ok (some ⟨.net, [], [], [], []⟩)
  else if eqi buf b!"HUB" then .ok (some ⟨.hub, [], [], [], []⟩)
  else if eqi buf b!"NODE" then .ok (some ⟨.node, [], [], [], []⟩)
  else rawParse4DPat .pattern buf

/-- Loop and final test of `NodeCompare` (`crashmail/node4dpat.c` 170-180) on the rest of the
pattern and of the decimal text; `true` is `return(0)`. The byte after the text is its NUL. -/
def nodeCompareLoop : Str → Str → Bool
  | [], b => b.isEmpty
  | p :: ps, b =>
    if p = 42 then true
    else if p ≠ b.headD 0 ∧ p ≠ 63 then false
    else if b.isEmpty then false
    else nodeCompareLoop ps b.tail

/-- `NodeCompare` (`crashmail/node4dpat.c` 162-181); `true` is `return(0)` (match). -/
def nodeCompare (pat : Str) (num : UInt16) : Bool :=
  if pat = [] then true else nodeCompareLoop pat (dec num.toNat)

/-- The nodelist driver as used by the pattern code: `nlGetRegion`/`nlGetHub` return -1 when the
node is not found. External, hence a parameter. -/
structure Nodelist where
  isOpen : Bool
  region : Node4D → Int
  hub : Node4D → Int

/-- Conversion of an `int`/`long` to `uint16_t`. -/
def toU16 (i : Int) : UInt16 := UInt16.ofNat (i % 65536).toNat

/-- `Compare4DPat` (`crashmail/node4dpat.c` 183-255); `true` is `return(0)` (match). -/
def compare4DPat (nl : Nodelist) (p : Pat4) (n : Node4D) : Bool :=
  let zoneOk : Bool := n.zone == 0 || nodeCompare p.zone n.zone
  match p.type with
  | .pattern => zoneOk && nodeCompare p.net n.net && nodeCompare p.node n.node &&
      nodeCompare p.point n.point
  | .zone => nodeCompare p.zone n.zone
  | .region =>
    if !nl.isOpen then false
    else
      let num := nl.region { n with point := 0 }
      if num = -1 then false else zoneOk && nodeCompare p.net (toU16 num)
  | .net => zoneOk && nodeCompare p.net n.net
  | .hub =>
    if !nl.isOpen then false
    else
      let num := nl.hub { n with point := 0 }
      if num = -1 then false
      else zoneOk && nodeCompare p.net n.net && nodeCompare p.node (toU16 num)
  | .node => zoneOk && nodeCompare p.net n.net && nodeCompare p.node n.node

/-- `Print4DPat` (`crashmail/node4dpat.c` 257-280). -/
def print4DPat (p : Pat4) : Str :=
  match p.type with
  | .pattern => p.zone ++ b!":" ++ p.net ++ b!"/" ++ p.node ++ b!"." ++ p.point
  | .zone => b!"ZONE " ++ p.zone
  | .region => b!"REGION " ++ p.zone ++ b!":" ++ p.net
  | .net => b!"NET " ++ p.zone ++ b!":" ++ p.net
  | .hub => b!"HUB " ++ p.zone ++ b!":" ++ p.net ++ b!"/" ++ p.node
  | .node => b!"NODE " ++ p.zone ++ b!":" ++ p.net ++ b!"/" ++ p.node

/-- `iswildcard` (`crashmail/node4dpat.c` 360-368). -/
def isWildcard (s : Str) : Bool := s.any (fun c => c == 42 || c == 63)

/-- `atoi(...)` assigned to a `uint16_t`. -/
def atoi16 (s : Str) : UInt16 := toU16 (atoi s)

/-- `ExpandNodePat` (`crashmail/node4dpat.c` 370-436): the node to send to. -/
def expandNodePat (nl : Nodelist) (p : Pat4) (d : Node4D) : Node4D :=
  let d0 : Node4D := { d with point := 0 }
  let region0 : Int := if nl.isOpen ∧ p.type = .region then nl.region d0 else 0
  let hub0 : Int := if nl.isOpen ∧ p.type = .hub then nl.hub d0 else 0
  let region1 := if region0 = -1 then 0 else region0
  let hub : Int := if hub0 = -1 then 0 else hub0
  let region : Int := if region1 = 0 then (d.net.toNat : Int) else region1
  match p.type with
  | .pattern =>
    ⟨if isWildcard p.zone then d.zone else atoi16 p.zone,
     if isWildcard p.net then d.net else atoi16 p.net,
     if isWildcard p.node then d.node else atoi16 p.node,
     if isWildcard p.point then d.point else atoi16 p.point⟩
  | .zone => ⟨d.zone, d.zone, 0, 0⟩
  | .region => ⟨d.zone, toU16 region, 0, 0⟩
  | .net => ⟨d.zone, d.net, 0, 0⟩
  | .hub => ⟨d.zone, d.net, toU16 hub, 0⟩
  | .node => ⟨d.zone, d.net, d.node, 0⟩

/-- `PKTS_*` (`crashmail/config.h` 232-236). -/
inductive Pri where
  | echomail | hold | normal | direct | crash
  deriving DecidableEq, Repr

/-- `struct Change` (`crashmail/config.h` 238-247). -/
structure Change where
  pattern : Pat4
  normal : Bool
  crash : Bool
  direct : Bool
  hold : Bool
  destPri : Pri

/-- Does the CHANGE line apply to this flavour (`crashmail/misc.c` 430-435, the `ispattern` tests). -/
def Change.applies (c : Change) (pri : Pri) : Bool :=
  match pri with
  | .echomail => c.normal
  | .normal => c.normal
  | .crash => c.crash
  | .direct => c.direct
  | .hold => c.hold

/-- Loop body of `ChangeType` (`crashmail/misc.c` 424-445). -/
def changeStep (nl : Nodelist) (dest : Node4D) (pri newpri : Pri) (c : Change) : Pri :=
  if compare4DPat nl c.pattern dest then
    if c.applies pri then
      if pri = .echomail ∧ c.destPri = .normal then pri else c.destPri
    else newpri
  else newpri

/-- `ChangeType` (`crashmail/misc.c` 416-448). -/
def changeType (nl : Nodelist) (cs : List Change) (dest : Node4D) (pri : Pri) : Pri :=
  cs.foldl (changeStep nl dest pri) pri

/-- `struct Route` (`crashmail/config.h` 218-224); the AKA is represented by its address. -/
structure Route where
  pattern : Pat4
  destPat : Pat4
  aka : Node4D

/-- The part of `HandleNetmail` that decides where a routed netmail goes
(`crashmail/handle.c` 1332-1392): route lookup, `ExpandNodePat` (only for normal mail), `ChangeType`
and the point rule. `none`: no route, the message goes to the bad area. -/
def routeNetmail (nl : Nodelist) (routes : List Route) (changes : List Change) (dest : Node4D)
    (pri : Pri) : Option (Node4D × Pri × Node4D) :=
  match routes.find? (fun r => compare4DPat nl r.pattern dest) with
  | none => none
  | some r =>
    let d := if pri = .normal then expandNodePat nl r.destPat dest else dest
    let pri' := changeType nl changes d pri
    let d' := if d.point ≠ 0 ∧ (pri' = .direct ∨ pri' = .crash) then { d with point := 0 } else d
    some (d', pri', r.aka)

end CM
