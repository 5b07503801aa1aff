import Verif.Spec.Jam
import Verif.Model.JamMaint
/-! # Maintenance of JAM message bases, from outside -/

namespace CM

/-- There is a message, and it is not marked as deleted. -/
def slotLive (o : Option JamMsg) : Bool := o.any (fun m => !m.dead)

/-- A slot after the message was marked as deleted: everything else is as it was. -/
def slotMark (o : Option JamMsg) : Option JamMsg := o.map (fun m => { m with hdr := { m.hdr with attr := m.hdr.attr ||| 0x80000000 } })

/-- The base limited to `keep` messages: a message is deleted if `keep` or more newer messages are there. -/
def limitTo (keep : Nat) : List (Option JamMsg) → List (Option JamMsg)
  | [] => []
  | o :: t => (if slotLive o ∧ keep ≤ jamActive t then slotMark o else o) :: limitTo keep t

/-- The day of a message: that of its arrival, or else of its processing, or else of its writing. -/
def JamMsg.day (m : JamMsg) : Nat :=
  if 86400 ≤ m.hdr.dateReceived.toNat then m.hdr.dateReceived.toNat / 86400
  else if 86400 ≤ m.hdr.dateProcessed.toNat then m.hdr.dateProcessed.toNat / 86400
  else m.hdr.dateWritten.toNat / 86400

/-- Messages of a day for which `old` is true are deleted. -/
def expire (old : Nat → Bool) (ms : List (Option JamMsg)) : List (Option JamMsg) :=
  ms.map (fun o => if slotLive o ∧ o.any (fun m => old m.day) then slotMark o else o)

/-- `ms'` (from number `start'` on) is `ms` (from number `start` on) packed: leading numbers without a live message are dropped, and each
live message has the number it had, its header, its subfields and its text; all other numbers are without a
message. -/
structure JamPacked (start : UInt32) (ms : List (Option JamMsg)) (start' : UInt32) (ms' : List (Option JamMsg)) : Prop where
  cut : ∃ k, k + ms'.length = ms.length ∧ start' = start + UInt32.ofNat k ∧ (∀ o ∈ ms.take k, slotLive o = false) ∧
    (∀ i, ms'[i]? = some none ↔ ∃ o, ms[k + i]? = some o ∧ slotLive o = false) ∧
    ∀ i m, ms[k + i]? = some (some m) → m.dead = false → ∃ m', ms'[i]? = some (some m') ∧ AddedMsg start' i m.hdr m.subs m.text m'
  head : ms'[0]? ≠ some none

/-- The messages that are to be copied can be: recipients fit the index, and everything stays below 4 GB. -/
structure CanPack (e : JamEnv) (ms : List (Option JamMsg)) : Prop where
  index : ∀ m, some m ∈ ms → m.dead = false → CanIndex e m.subs
  hdr : 1024 + (ms.map (fun o => (o.map JamMsg.size).getD 0)).sum < 2 ^ 32
  txt : (ms.map (fun o => (o.map (·.text.length)).getD 0)).sum < 2 ^ 32

end CM
