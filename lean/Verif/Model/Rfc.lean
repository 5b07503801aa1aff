import Verif.Model.Filter
import Verif.Model.MsgBase
/-! # Messages as files for external commands

`WriteRFC` and `WriteMSG` (`misc.c` 626-937) and `Filter_Execute` (`filter.c` 616-688), with the files it writes.
The contents of a file are computed before it is opened (the code writes them piece by piece). -/

namespace CM

/-- `%u` of a part of an address, as in `p%u.f%u.n%u.z%u.`. -/
def rfcPart (c : UInt8) (n : UInt16) : Str := c :: dec n.toNat ++ b!"."

/-- `MakeRFCAddr` (`misc.c` 628-668), with the buffers `domain[50]`, `name[50]` and the caller's `char[100]`. -/
def makeRFCAddr (nam : Str) (n : Node4D) (dom : Str) : Except UB Str :=
  if dom.length < 50 && nam.length < 50 then
    let d := dom.map lower
    let d := if eqi d b!"fidonet" then b!"fidonet.org" else d
    let a := nam.map (fun c => if c = 32 then 95 else c) ++ b!"@" ++
      ((if n.point ≠ 0 then rfcPart 112 n.point else []) ++ rfcPart 102 n.node ++ rfcPart 110 n.net ++ rfcPart 122 n.zone) ++ d
    if a.length < 100 then .ok a else .error .oobWrite
  else .error .oobWrite

/-- The address in the header (`misc.c` 687-706). -/
def rfcAddr (rfcaddr : Bool) (nam : Str) (n : Node4D) (dom : Str) : Except UB Str :=
  if rfcaddr then makeRFCAddr nam n dom
  else if (addr4 n ++ b!"@" ++ dom).length < 100 then .ok (addr4 n ++ b!"@" ++ dom) else .error .oobWrite

/-- The domain: that of the first AKA with the address of the receiver (`misc.c` 679-685). -/
def rfcDomain (akas : List Aka) (m : MemMsg) : Str :=
  match akas.find? fun k => compare4D m.dest k.node == 0 with
  | some k => if k.domain ≠ [] then k.domain else b!"FidoNet"
  | none => b!"FidoNet"

/-- The header lines (`misc.c` 687-741). -/
def rfcHead (akas : List Aka) (m : MemMsg) (rfcaddr : Bool) : Except UB Str := do
  let a ← rfcAddr rfcaddr m.frm m.orig (rfcDomain akas m)
  let b ← rfcAddr rfcaddr m.to m.dest (rfcDomain akas m)
  return b!"From: " ++ a ++ b!" (" ++ m.frm ++ b!")" ++ [10] ++ (b!"To: " ++ b ++ b!" (" ++ m.to ++ b!")" ++ [10]) ++
    (b!"Subject: " ++ m.subject ++ [10]) ++ (b!"Date: " ++ m.date ++ [10]) ++
    (if m.msgid ≠ [] then b!"Message-ID: <" ++ m.msgid ++ b!">" ++ [10] else []) ++
    (if m.reply ≠ [] then b!"References: <" ++ m.reply ++ b!">" ++ [10] else [])

/-- What is written for a line (`misc.c` 754-764): a control line that is not empty. -/
def rfcKludge : Str → Str
  | 1 :: c :: r => b!"X-Fido-" ++ (c :: r) ++ [10]
  | _ => []

/-- The control lines of a chunk (`misc.c` 745-768), `cur` being the line read so far. A line is ended by CR or LF; at the end of the
chunk, the byte behind it is read (`u`). -/
def rfcKludges (u : UB) : Str → Str → Except UB Str
  | cur, [] => if cur = [] then .ok [] else .error u
  | cur, c :: r =>
    if c = 13 ∨ c = 10 then (rfcKludges u [] r).map (rfcKludge cur ++ ·)
    else rfcKludges u (cur ++ [c]) r

/-- How far a line goes, at most `n` bytes, and where the last space is (`misc.c` 784-791). -/
def rfcScan : Nat → Nat → Nat → Str → Nat × Nat
  | 0, c, l, _ => (c, l)
  | _ + 1, c, l, [] => (c, l)
  | n + 1, c, l, x :: r => if x = 13 then (c, l) else rfcScan n (c + 1) (if x = 32 then c else l) r

/-- A line that is written unless it is a control line (`misc.c` 807-814). -/
def rfcPut (b : Str) : Str := if b.head? = some 1 then [] else b ++ [10]

/-- The text of a chunk (`misc.c` 774-815). Where the code reads the byte behind the chunk, the outcome is `u`. -/
def rfcBody (u : UB) : Nat → Str → Except UB (Option Str)
  | _, [] => .ok (some [])
  | 0, _ :: _ => .ok none
  | f + 1, c0 :: r0 =>
    let r := (c0 :: r0).dropWhile (· = 10)
    if r = [] then .error u
    else
      let s := rfcScan 78 0 0 r
      if s.1 = 78 ∧ s.2 ≠ 0 then
        (rfcBody u f (r.drop (s.2 + 1))).map fun o => o.map (rfcPut (cstr (r.take s.2)) ++ ·)
      else match r.drop s.1 with
        | [] => .error u
        | x :: t => (rfcBody u f (if x = 13 then t else x :: t)).map fun o => o.map (rfcPut (cstr (r.take s.1)) ++ ·)

/-- The byte behind the bytes of a chunk: not initialised, or not in the chunk. -/
def behind (c : Str) : UB := if c.length < chunkLen then .uninit else .oobRead

/-- The texts of all chunks. -/
def rfcBodies : List Str → Except UB (Option Str)
  | [] => .ok (some [])
  | c :: cs => do
    match ← rfcBody (behind c) c.length c with
    | none => return none
    | some b => (rfcBodies cs).map fun o => o.map (b ++ ·)

/-- The contents of the file (`WriteRFC`, `misc.c` 670-823). -/
def rfcData (akas : List Aka) (m : MemMsg) (rfcaddr : Bool) : Except UB (Option Data) := do
  let h ← rfcHead akas m rfcaddr
  let k ← m.text.mapM fun c => rfcKludges (behind c) [] c
  match ← rfcBodies m.text with
  | none => return none
  | some b => return some (h ++ k.flatten ++ [10] ++ b)

/-- `WriteRFC` (`misc.c` 670-823). Its result is not used. -/
def writeRFC (akas : List Aka) (m : MemMsg) (file : Str) (rfcaddr : Bool) : Prog Unit := do
  match ← liftUB (rfcData akas m rfcaddr) with
  | none => .stuck
  | some d => let _ ← writeFile file .new d; return ()

/-- The contents of the file (`WriteMSG`, `misc.c` 825-935): those of a message in a *.msg area, with the attribute Sent. -/
def sentData (o : MsgOpt) (junk : Nat → UInt8) (m : MemMsg) : Except UB Data := msgData o junk { m with attr := m.attr ||| FLAG_SENT }

/-- `WriteMSG` (`misc.c` 825-937). Its result is not used. -/
def writeMSG (o : MsgOpt) (junk : Nat → UInt8) (m : MemMsg) (file : Str) : Prog Unit := do
  let d ← liftUB (sentData o junk m)
  let _ ← writeFile file .new d
  return ()

/-- The names that `tmpnam` gives (`filter.c` 636-638). -/
structure TmpNames where
  rfc1 : Str
  rfc2 : Str
  msg : Str

/-- The command line (`filter.c` 625-658). -/
def executeLine (m : MemMsg) (cmd : Str) (t : TmpNames) : Except UB Str :=
  expandFilter cmd (m.xargs (if hasPct 114 cmd then t.rfc1 else []) (if hasPct 82 cmd then t.rfc2 else []) (if hasPct 109 cmd then t.msg else []))

/-- `if(b) p`. -/
def onlyIf (b : Bool) (p : Prog Unit) : Prog Unit := if b then p else .ret ()

/-- The files are written before the command is run (`filter.c` 660-662). -/
def executeWrite (akas : List Aka) (o : MsgOpt) (junk : Nat → UInt8) (m : MemMsg) (cmd : Str) (t : TmpNames) : Prog Unit := do
  onlyIf (hasPct 114 cmd) (writeRFC akas m t.rfc1 false)
  onlyIf (hasPct 82 cmd) (writeRFC akas m t.rfc2 true)
  onlyIf (hasPct 109 cmd) (writeMSG o junk m t.msg)

/-- And deleted when it has been run (`filter.c` 668-670). -/
def executeClean (cmd : Str) (t : TmpNames) : Prog Unit := do
  onlyIf (hasPct 114 cmd) (do let _ ← osDelete t.rfc1)
  onlyIf (hasPct 82 cmd) (do let _ ← osDelete t.rfc2)
  onlyIf (hasPct 109 cmd) (do let _ ← osDelete t.msg)

/-- `Filter_Execute` (`filter.c` 616-688) with the disk; `none` if the program is to be ended. The log is left out. -/
def executeProg (akas : List Aka) (o : MsgOpt) (junk : Nat → UInt8) (m : MemMsg) (cmd : Str) (t : TmpNames) : Prog (Option MemMsg) := do
  let line ← liftUB (executeLine m cmd t)
  executeWrite akas o junk m cmd t
  let rc ← osExecute line
  executeClean cmd t
  if rc = 0 then return some { m with flags := m.flags ||| MMFLAG_KILL }
  else if 20 ≤ rc then return none
  else return some m

end CM
