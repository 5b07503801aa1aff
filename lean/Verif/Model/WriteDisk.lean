import Verif.Model.CrashWrite
import Verif.Model.Disk

/-! # CrashWrite on the disk (`tools/crashwrite.c` 103-359) -/

namespace CM

/-- The name of a packet (`crashwrite.c` 270-271). -/
def cwPath (dir : Str) (num : UInt32) : Str := makeFullPath dir (hexW 8 num.toNat ++ b!".pkt") 200

/-- The loop for the name (`crashwrite.c` 263-272), for so many rounds. -/
def cwPick (dir : Str) : Nat → Nat → Prog UInt32
  | 0, _ => .stuck
  | fuel + 1, n => .time fun t =>
    let num := (t <<< 8) + UInt32.ofNat n
    .exist (cwPath dir num) fun b => if b then cwPick dir fuel (n + 1) else .ret num

/-- What is written before the text file is opened (`crashwrite.c` 289-317). -/
def cwStart (a : WriteArgs) (t : Tm) (orig dest pOrig pDest : Node4D) (num : UInt32) : Data :=
  cwHeader pOrig pDest (a.password.getD []) t ++ (cwMsgHeader orig dest (cwAttr a) ++ makeFidoDate t ++ [0] ++
    cwName b!"All" a.toName 36 ++ [0] ++ cwName b!"CrashWrite" a.fromName 36 ++ [0] ++ cwName b!"Information" a.subject 72 ++ [0] ++
    cwHead a orig dest num)

/-- The packet is open and its beginning `start` has been written, with success or not; the rest is written and the file closed
(`crashwrite.c` 333-352). No result of a write is looked at, so writing goes on after an error: at the end of what is there then. -/
def cwRest (name : Str) (start : Data) (ok : Bool) (rest : Data) : Prog Nat :=
  if ok then .writing name start start.length [] rest fun _ => .ret 0
  else .write name (.fromEnd 0) rest fun _ => .ret 0

/-- The packet is written (`crashwrite.c` 274-358). The result is the exit code (`OS_EXIT_OK` 0, `OS_EXIT_ERROR` 10). What is written
is in the file at once; the buffers of stdio delay it. -/
def cwWrite (a : WriteArgs) (t : Tm) (orig dest pOrig pDest : Node4D) (num : UInt32) : Prog Nat :=
  .write (cwPath a.dir num) .new (cwStart a t orig dest pOrig pDest num) fun r =>
    match r with
    | none => .ret 10
    | some ok =>
      match a.text with
      | none => cwRest (cwPath a.dir num) (cwStart a t orig dest pOrig pDest num) ok (cwTail a orig ++ [0, 0, 0])
      | some f => .read f fun d =>
        match d with
        | none => .delete (cwPath a.dir num) fun _ => .ret 10
        | some d => cwRest (cwPath a.dir num) (cwStart a t orig dest pOrig pDest num) ok (cwText d ++ cwTail a orig ++ [0, 0, 0])

/-- The addresses (`crashwrite.c` 147-188). -/
def cwAddrs (a : WriteArgs) : Option (Node4D × Node4D × Node4D × Node4D) := do
  let orig ← cwAddr ⟨0, 0, 0, 0⟩ a.fromAddr
  let dest ← cwAddr ⟨0, 0, 0, 0⟩ a.toAddr
  let pOrig ← cwAddr orig a.pktFrom
  let pDest ← cwAddr dest a.pktTo
  return (orig, dest, pOrig, pDest)

/-- `main` (`crashwrite.c` 103-359) on `argv[1..]` without the help texts; `t` is the time as `localtime` gives it. -/
def cwMain (argv : List Str) (t : Tm) (fuel : Nat) : Prog Nat :=
  match parseArgs cwTable argv with
  | none => .ret 10
  | some args =>
    let a := writeArgs args
    match cwAddrs a with
    | none => .ret 10
    | some (orig, dest, pOrig, pDest) => (cwPick a.dir fuel 0).bind fun num => cwWrite a t orig dest pOrig pDest num

end CM
