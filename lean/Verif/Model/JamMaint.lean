import Verif.Model.Jam
import Verif.Model.Disk
/-! # CrashMaint for JAM message bases

`ProcessAreaJAM` (`src/tools/crashmaint.c` 440-850) on an open, locked base: deleting by number, deleting by age and packing. I/O errors
of the library are those of `Model/Jam.lean`; a break (Ctrl-C) is not modelled. -/

namespace CM

/-- `JAM_ReadMsgHeader` without subfields (`message.c` 68-108, 163-172). -/
def jamHead (b : JamBase) (n : UInt32) : Except JamErr JamHdr :=
  match jamReadIdx b n with
  | .error r => .error r
  | .ok i =>
    if i.gone then .error .noMessage
    else match freadAt b.hdr i.hdrOffset.toNat 76 with
      | .error r => .error r
      | .ok d => .ok (JamHdr.ofBytes d)

/-- Marking a message as deleted (`crashmaint.c` 525-530, 572-577): `JAM_ChangeMsgHeader` counts it, then the
header of the base is written again from memory. Results are ignored. -/
def jamMark (e : JamEnv) (b : JamBase) (H : JamBaseHdr) (n : UInt32) (h : JamHdr) : JamBase × JamBaseHdr :=
  let b := (jamChange e b n { h with attr := h.attr ||| 0x80000000 }).toOption.getD b
  let H := { H with active := H.active - 1 }
  match jamWriteBase e b H with
  | .ok b => (b, { H with sig := jamSig, modCounter := H.modCounter + 1 })
  | .error _ => (b, H)

/-- Deleting by number (`crashmaint.c` 499-548), with `k` messages left to look at from `n` on. `active` is
decremented together with the counter in `H`. -/
def jamKeepNum (e : JamEnv) (keep : UInt32) : Nat → UInt32 → JamBase → JamBaseHdr → UInt32 → JamBase × JamBaseHdr
  | 0, _, b, H, _ => (b, H)
  | k + 1, n, b, H, active =>
    if keep < active then
      match jamHead b n with
      | .error _ => jamKeepNum e keep k (n + 1) b H active
      | .ok h =>
        if jamDeleted h.attr then jamKeepNum e keep k (n + 1) b H active
        else jamKeepNum e keep k (n + 1) (jamMark e b H n h).1 (jamMark e b H n h).2 (active - 1)
    else (b, H)

/-- The day of a message (`crashmaint.c` 562-568). -/
def jamDay (h : JamHdr) : UInt32 :=
  if h.dateReceived / 86400 ≠ 0 then h.dateReceived / 86400
  else if h.dateProcessed / 86400 ≠ 0 then h.dateProcessed / 86400
  else h.dateWritten / 86400

/-- Deleting by age (`crashmaint.c` 550-598). -/
def jamKeepDays (e : JamEnv) (today keep : UInt32) : Nat → UInt32 → JamBase → JamBaseHdr → JamBase × JamBaseHdr
  | 0, _, b, H => (b, H)
  | k + 1, n, b, H =>
    match jamHead b n with
    | .error _ => jamKeepDays e today keep k (n + 1) b H
    | .ok h =>
      if keep < today - jamDay h ∧ jamDeleted h.attr = false then
        jamKeepDays e today keep k (n + 1) (jamMark e b H n h).1 (jamMark e b H n h).2
      else jamKeepDays e today keep k (n + 1) b H

/-- A message that is not copied (`crashmaint.c` 640-652, 672-682). -/
def jamSkip (e : JamEnv) (new : JamBase) (H : JamBaseHdr) (first : Bool) : JamBase × JamBaseHdr :=
  if first then ((jamAddEmpty e new).toOption.getD new, H) else (new, { H with baseNum := H.baseNum + 1 })

/-- Writing the header of the new base before the first message (`crashmaint.c` 686-704). -/
def jamFirst (e : JamEnv) (new : JamBase) (H : JamBaseHdr) (first : Bool) : Except JamErr (JamBase × JamBaseHdr) :=
  if first then .ok (new, H)
  else match jamWriteBase e new H with
    | .ok new => .ok (new, { H with sig := jamSig, modCounter := H.modCounter + 1 })
    | .error r => .error r

/-- Copying the messages (`crashmaint.c` 630-782), with `k` messages left from `n` on. -/
def jamCopy (e : JamEnv) (b : JamBase) : Nat → UInt32 → JamBase → JamBaseHdr → Bool → Except UB (Except JamErr (JamBase × JamBaseHdr))
  | 0, _, new, H, _ => .ok (.ok (new, H))
  | k + 1, n, new, H, first =>
    match jamHead b n with
    | .error .noMessage => jamCopy e b k (n + 1) (jamSkip e new H first).1 (jamSkip e new H first).2 first
    | .error r => .ok (.error r)
    | .ok h =>
      if jamDeleted h.attr then jamCopy e b k (n + 1) (jamSkip e new H first).1 (jamSkip e new H first).2 first
      else match jamFirst e new H first with
        | .error r => .ok (.error r)
        | .ok (new, H) =>
          match jamReadHdr b n with
          | .error u => .error u
          | .ok (.error r) => .ok (.error r)
          | .ok (.ok (h, subs)) =>
            match jamReadText b h.txtOffset h.txtLen with
            | .error r => .ok (.error r)
            | .ok text =>
              match jamAdd e new h subs text with
              | .error u => .error u
              | .ok (.error r) => .ok (.error r)
              | .ok (.ok (new, _)) => jamCopy e b k (n + 1) new { H with active := H.active + 1 } true

/-- Packing (`crashmaint.c` 602-800) up to the replacement of the files: the new base, or an error and the base is
left alone. -/
def jamPack (e : JamEnv) (now : UInt32) (b : JamBase) (H : JamBaseHdr) (total : UInt32) : Except UB (Except JamErr JamBase) :=
  match jamCreate e now 1 with
  | .error r => .ok (.error r)
  | .ok new =>
    match jamCopy e b total.toNat 0 { new with locked := true } { H with active := 0 } false with
    | .error u => .error u
    | .ok (.error r) => .ok (.error r)
    | .ok (.ok (new, H)) => .ok (jamWriteBase e new { H with modCounter := H.modCounter + 1 })

/-- What `ProcessAreaJAM` is asked to do (0: no limit). -/
structure JamMaintOpt where
  maint : Bool
  pack : Bool
  keepNum : UInt32
  keepDays : UInt32

/-- `ProcessAreaJAM` (`crashmaint.c` 470-800) once the base is open and locked: the base after deleting, and the new one if it
was packed. `today` is the number of the present day. -/
def jamMaint (e : JamEnv) (o : JamMaintOpt) (now today : UInt32) (b : JamBase) : Except UB (JamBase × Option JamBase) :=
  match jamReadBase b with
  | .error _ => .ok (b, none)
  | .ok H =>
    if jamSize b = 0 then .ok (b, none)
    else
      let r := if o.maint && o.keepNum != 0 then jamKeepNum e o.keepNum (jamSize b).toNat 0 b H H.active else (b, H)
      let r' := if o.maint && o.keepDays != 0 then jamKeepDays e today o.keepDays (jamSize b).toNat 0 r.1 r.2 else r
      if o.pack then
        match jamPack e now r'.1 r'.2 (jamSize b) with
        | .error u => .error u
        | .ok (.error _) => .ok (r'.1, none)
        | .ok (.ok new) => .ok (r'.1, some new)
      else .ok (r'.1, none)

/-- Replacing a file (`crashmaint.c` 803-822): both results. -/
def jamReplace (old tmp : Str) : Prog (Bool × Bool) := do
  let r1 ← osDelete old
  let r2 ← osRename tmp old
  return (r1, r2)

/-- Replacing the files of a base by those of the packed one (`crashmaint.c` 800-845; extensions from `jam.h`). -/
def jamSwap (path : Str) : Prog Bool := do
  let r ← jamReplace (path ++ b!".jhr") (path ++ b!".cmtemp" ++ b!".jhr")
  if r.1 && r.2 then
    let r ← jamReplace (path ++ b!".jdt") (path ++ b!".cmtemp" ++ b!".jdt")
    if r.1 && r.2 then
      let r ← jamReplace (path ++ b!".jdx") (path ++ b!".cmtemp" ++ b!".jdx")
      if r.1 && r.2 then osDelete (path ++ b!".cmtemp" ++ b!".jlr") else return false
    else return false
  else return false

end CM
