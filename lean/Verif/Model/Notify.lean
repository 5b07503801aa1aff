import Verif.Model.Areafix
import Verif.Model.ConfigFile
/-! # Commands that send lists and texts of AreaFix or remove an area (`crashmail/crashmail.c`, `crashmail/areafix.c`)

`BeforeScanToss` and `AfterScanToss` are left out, as in `Model/Scan.lean`; so are lines of the log. -/

namespace CM

/-- `SENDLIST_*` (`areafix.h`). -/
inductive SendKind where
  | full | query | unlinked | help | info
  deriving DecidableEq, Repr

/-- `DoSendAFList` (`areafix.c` 1655-1695) for the node at `ci`. -/
def doSendAF (env : Env) (self : MemMsg → M Unit) (k : SendKind) (ci : Nat) : M Unit := do
  let s ← M.get
  match s.cfg.nodes[ci]? with
  | none => M.ub .nullDeref
  | some cn =>
    match s.cfg.findRoute cn.node with
    | none => pure ()
    | some rt =>
      match k with
      | .full => sendList env self .full rt.aka cn.sysopName ci
      | .query => sendList env self .query rt.aka cn.sysopName ci
      | .unlinked => sendList env self .unlinked rt.aka cn.sysopName ci
      | .info => sendInfo env self rt.aka cn.sysopName ci
      | .help => sendHelp env self rt.aka cn.sysopName ci

/-- The loop over the nodes (`crashmail.c` 411-412). -/
def sendEach (env : Env) (self : MemMsg → M Unit) (k : SendKind) : List Nat → M Unit
  | [] => pure ()
  | i :: is => do
    let s ← M.get
    match s.cfg.nodes[i]? with
    | none => pure ()
    | some cn => do
      (if cn.has NODE_NOTIFY then doSendAF env self k i else pure () : M Unit)
      sendEach env self k is

/-- `SendAFList` (`crashmail.c` 401-442). The value is FALSE where the function ends with an error before anything is sent; the
last test (of `nomem` and `ioerror`) is left out. -/
def sendAFList (env : Env) (self : MemMsg → M Unit) (k : SendKind) (node : Str) : M Bool := do
  let s ← M.get
  if eqi node b!"ALL" then do
    sendEach env self k (List.range s.cfg.nodes.length)
    pure true
  else
    match parse4D node with
    | none => pure false
    | some d =>
      match s.cfg.nodes.findIdx? fun n => compare4D n.node d == 0 with
      | none => pure false
      | some i => do
        doSendAF env self k i
        pure true

/-- `RemoveArea` (`crashmail.c` 444-470). -/
def removeAreaCmd (env : Env) (self : MemMsg → M Unit) (name : Str) : M Bool := do
  let s ← M.get
  match s.cfg.areas.findIdx? fun a => a.type == .echomail && eqi name a.tag with
  | none => pure true
  | some i =>
    match s.cfg.areas[i]? with
    | none => M.ub .nullDeref
    | some a => do
      sendRemove env self a.tag ((a.aka.bind (s.cfg.akas[·]?)).map (·.node)) a.tossNodes
      let s ← M.get
      M.set { s with cfg := { s.cfg with areas := s.cfg.areas.modify i fun a => { a with type := .deleted } } }
      removeDeleted
      pure true

/-- The lines of the help file that `rawSendHelp` sees (`areafix.c` 1321, `helpbuf[100]`). -/
def helpRead (f : List UInt8) : List Str := fileLines 100 f.length f

end CM
