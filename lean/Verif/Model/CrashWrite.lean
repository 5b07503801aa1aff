import Verif.Model.Pkt
import Verif.Model.Date
import Verif.Model.Search
import Verif.Model.Outbound
import Verif.Model.ConfigFile
import Verif.Model.Filter
/-!
# Writing a message from the command line (`tools/crashwrite.c`)

Not modelled: what is printed, and errors while the packet is written (`osWrite` and `osFPrintf` are not
checked by the program).
-/

namespace CM

/-- The `args` table (`crashwrite.c` 47-62). -/
def cwTable : List Arg :=
  [⟨.string, some b!"FROMNAME", false, false, .none⟩, ⟨.string, some b!"FROMADDR", false, false, .none⟩,
   ⟨.string, some b!"TONAME", false, false, .none⟩, ⟨.string, some b!"TOADDR", false, false, .none⟩,
   ⟨.string, some b!"SUBJECT", false, false, .none⟩, ⟨.string, some b!"AREA", false, false, .none⟩,
   ⟨.string, some b!"ORIGIN", false, false, .none⟩, ⟨.string, some b!"DIR", false, true, .none⟩,
   ⟨.string, some b!"TEXT", false, false, .none⟩, ⟨.bool, some b!"NOMSGID", false, false, .none⟩,
   ⟨.bool, some b!"FILEATTACH", false, false, .none⟩, ⟨.string, some b!"PKTFROMADDR", false, false, .none⟩,
   ⟨.string, some b!"PKTTOADDR", false, false, .none⟩, ⟨.string, some b!"PASSWORD", false, false, .none⟩]

/-- The arguments. -/
structure WriteArgs where
  fromName : Option Str := none
  fromAddr : Option Str := none
  toName : Option Str := none
  toAddr : Option Str := none
  subject : Option Str := none
  area : Option Str := none
  origin : Option Str := none
  dir : Str := []
  text : Option Str := none
  noMsgid : Bool := false
  fileAttach : Bool := false
  pktFrom : Option Str := none
  pktTo : Option Str := none
  password : Option Str := none
  deriving DecidableEq, Repr

/-- A string argument, `args[i].data`. -/
def argStr (args : List Arg) (i : Nat) : Option Str :=
  match args[i]? with
  | some ⟨_, _, _, _, .str s⟩ => some s
  | _ => none

/-- A switch. -/
def argSet (args : List Arg) (i : Nat) : Bool :=
  match args[i]? with
  | some a => a.data != .none
  | none => false

/-- The parsed arguments (`crashwrite.c` 30-43). -/
def writeArgs (args : List Arg) : WriteArgs where
  fromName := argStr args 0
  fromAddr := argStr args 1
  toName := argStr args 2
  toAddr := argStr args 3
  subject := argStr args 4
  area := argStr args 5
  origin := argStr args 6
  dir := (argStr args 7).getD []
  text := argStr args 8
  noMsgid := argSet args 9
  fileAttach := argSet args 10
  pktFrom := argStr args 11
  pktTo := argStr args 12
  password := argStr args 13

/-- An address argument (`crashwrite.c` 147-188); `none`: the program ends with an error. -/
def cwAddr (dflt : Node4D) : Option Str → Option Node4D
  | none => some dflt
  | some s => parse4D s

/-- A string argument copied into a buffer (`crashwrite.c` 249-257). -/
def cwName (dflt : Str) (o : Option Str) (len : Nat) : Str := mystrncpy (o.getD dflt) len

/-- The packet header (`crashwrite.c` 193-229) in the global buffer `PktHeader`, which is zero at first.
`Tm` is the result of `localtime`. It has the same layout as that of `CreatePkt`. -/
def cwHeader (orig dest : Node4D) (pw : Str) (t : Tm) : List UInt8 :=
  le16 orig.node ++ le16 dest.node ++ le16 (UInt16.ofInt (t.year + 1900)) ++ le16 (UInt16.ofInt t.mon) ++ le16 (UInt16.ofInt t.mday) ++
    le16 (UInt16.ofInt t.hour) ++ le16 (UInt16.ofInt t.min) ++ le16 (UInt16.ofInt t.sec) ++ le16 0 ++ le16 2 ++ le16 orig.net ++
    le16 dest.net ++ [0xfe, 1] ++ (pw ++ List.replicate 8 0).take 8 ++ le16 orig.zone ++ le16 dest.zone ++ le16 0 ++ le16 0x0100 ++
    [0, 5] ++ le16 1 ++ le16 orig.zone ++ le16 dest.zone ++ le16 orig.point ++ le16 dest.point ++ [0, 0, 0, 0]

/-- The message header (`crashwrite.c` 231-247). -/
def cwMsgHeader (orig dest : Node4D) (attr : UInt16) : List UInt8 :=
  le16 2 ++ le16 orig.node ++ le16 dest.node ++ le16 orig.net ++ le16 dest.net ++ le16 attr ++ le16 0

/-- The attributes (`crashwrite.c` 233-239). -/
def cwAttr (a : WriteArgs) : UInt16 := (if a.area.isNone then 1 else 0) ||| (if a.fileAttach then 16 else 0)

/-- The lines before the text (`crashwrite.c` 297-317). -/
def cwHead (a : WriteArgs) (orig dest : Node4D) (num : UInt32) : Str :=
  (match a.area with
    | some tag => b!"AREA:" ++ tag ++ [13]
    | none =>
      (if orig.point ≠ 0 then 1 :: b!"FMPT " ++ dec orig.point.toNat ++ [13] else []) ++
      (if dest.point ≠ 0 then 1 :: b!"TOPT " ++ dec dest.point.toNat ++ [13] else []) ++
      (1 :: b!"INTL " ++ dec dest.zone.toNat ++ b!":" ++ dec dest.net.toNat ++ b!"/" ++ dec dest.node.toNat ++ b!" " ++
        dec orig.zone.toNat ++ b!":" ++ dec orig.net.toNat ++ b!"/" ++ dec orig.node.toNat ++ [13])) ++
  if a.noMsgid then [] else 1 :: b!"MSGID: " ++ addr4 orig ++ b!" " ++ hexW 8 num.toNat ++ [13]

/-- The text (`crashwrite.c` 333-339), with the lines that `osFGets` reads into a buffer of 100 bytes. -/
def cwText (file : List UInt8) : Str :=
  (fileLines 100 (file.length + 1) file).flatMap fun l => l.map fun c => if c = 10 then 13 else c

/-- The text that the file holds (`crashwrite.c` 319-342); `none`: there is no such file. -/
def cwBody (a : WriteArgs) (disk : Str → Option (List UInt8)) : Option Str :=
  match a.text with
  | none => some []
  | some f => (disk f).map cwText

/-- The lines after the text (`crashwrite.c` 344-348). -/
def cwTail (a : WriteArgs) (orig : Node4D) : Str :=
  if a.area.isSome then
    b!"--- CrashWrite II/Linux 1.5.1\r" ++ b!" * Origin: " ++ cwName b!"Another user of CrashMail II" a.origin 80 ++ b!" (" ++
      addr4 orig ++ b!")\r"
  else []

/-- The contents of the packet written by `main` (`crashwrite.c` 147-358); `none`: the program ends with an
error and there is no packet. `num` is the number in the name of the packet, `disk` the files there are. -/
def cwPacket (a : WriteArgs) (t : Tm) (num : UInt32) (disk : Str → Option (List UInt8)) : Option (List UInt8) := do
  let orig ← cwAddr ⟨0, 0, 0, 0⟩ a.fromAddr
  let dest ← cwAddr ⟨0, 0, 0, 0⟩ a.toAddr
  let pOrig ← cwAddr orig a.pktFrom
  let pDest ← cwAddr dest a.pktTo
  let text ← cwBody a disk
  some (cwHeader pOrig pDest (a.password.getD []) t ++ (cwMsgHeader orig dest (cwAttr a) ++ makeFidoDate t ++ [0] ++
    cwName b!"All" a.toName 36 ++ [0] ++ cwName b!"CrashWrite" a.fromName 36 ++ [0] ++ cwName b!"Information" a.subject 72 ++ [0] ++
    cwHead a orig dest num ++ text ++ cwTail a orig ++ [0, 0, 0]))

/-- The name of the packet (`crashwrite.c` 263-272): `time n` is the time read in round `n`. The inner
`none`: the loop is still running after so many rounds. -/
def cwFile (dir : Str) (exists? : Str → Bool) (time : Nat → UInt32) : Nat → Nat → Option (UInt32 × Str)
  | 0, _ => none
  | fuel + 1, n =>
    let num := (time n <<< 8) + UInt32.ofNat n
    let name := makeFullPath dir (hexW 8 num.toNat ++ b!".pkt") 200
    if exists? name then cwFile dir exists? time fuel (n + 1) else some (num, name)

/-- What a run of the program leaves behind. -/
inductive CwEnd where
  /-- An error message. -/
  | refused
  /-- No name for a packet has been found yet. -/
  | stuck
  | packet (name : Str) (contents : List UInt8)
  deriving DecidableEq, Repr

/-- `main` (`crashwrite.c` 103-359) on `argv[1..]` without the help texts. -/
def crashWrite (argv : List Str) (t : Tm) (disk : Str → Option (List UInt8)) (time : Nat → UInt32) (fuel : Nat) : CwEnd :=
  match parseArgs cwTable argv with
  | none => .refused
  | some args =>
    let a := writeArgs args
    match cwFile a.dir (fun f => (disk f).isSome) time fuel 0 with
    | none => .stuck
    | some (num, name) =>
      match cwPacket a t num disk with
      | none => .refused
      | some c => .packet name c

end CM
