import Verif.Spec.Jam
import Verif.Model.MbJam
/-! # Export from a JAM area, from outside -/

namespace CM

/-- The message at position `k` is to be exported: it is there and not deleted, is marked as local (bit 0) and not as sent (bit 4), and its
number is above the high water mark. -/
def JamWaits (hw start : UInt32) (ms : List (Option JamMsg)) (k : Nat) : Bool :=
  match ms[k]? with
  | some (some m) => !m.dead && m.hdr.attr &&& 1 != 0 && m.hdr.attr &&& 0x10 == 0 && decide (hw.toNat < start.toNat + k)
  | _ => false

/-- A message after it was exported: it is marked as sent; it is marked as deleted too if it is a netmail message with the
attribute `Kill/Sent` (bit 5) and this attribute is respected. Nothing else has changed, apart from the time of processing. -/
def JamSent (kill : Bool) (m m' : JamMsg) : Prop :=
  ∃ d, m' = { m with hdr := { m.hdr with
    attr := (if kill = true ∧ m.hdr.attr &&& 0x20 ≠ 0 then m.hdr.attr ||| 0x80000000 else m.hdr.attr) ||| 0x10, dateProcessed := d } }

/-- An export that looked at the messages before position `p`: those that were waiting have been handed over one after the other, each once, and are marked
as sent; all others are as they were. New messages may have been added at the end. -/
structure JamScanned (kill : Bool) (load : UInt32 → JamMsg → MemMsg → Prop) (hw start : UInt32) (p : Nat) (ms : List (Option JamMsg)) (sent : List (UInt32 × MemMsg))
    (ms' : List (Option JamMsg)) : Prop where
  nums : sent.map (·.1) = ((List.range p).filter (JamWaits hw start ms)).map fun k => start + UInt32.ofNat k
  what : ∀ x ∈ sent, ∃ k m, k < p ∧ ms[k]? = some (some m) ∧ x.1 = start + UInt32.ofNat k ∧ load x.1 m x.2
  marked : ∀ k m, k < p → JamWaits hw start ms k = true → ms[k]? = some (some m) → ∃ m', ms'[k]? = some (some m') ∧ JamSent kill m m'
  others : ∀ k, k < ms.length → (p ≤ k ∨ JamWaits hw start ms k = false) → ms'[k]? = ms[k]?
  grown : ms.length ≤ ms'.length

/-- There is room for `k` times `c` more bytes in the files, and messages. -/
def JamSpace (c k : Nat) (b : JamBase) (ms : List (Option JamMsg)) : Prop :=
  b.hdr.length + k * c < 2 ^ 32 ∧ b.txt.length + k * c < 2 ^ 32 ∧ ms.length + k * c < 2 ^ 32

/-- Area `i` is in use: its base holds `ms`, and what is known about it is as in `x`. -/
def JamAt (i : Nat) (start : UInt32) (x : JamRec) (c k : Nat) (ms : List (Option JamMsg)) (w : JamW) : Prop :=
  ∃ b y, w.base i = some b ∧ JamHolds b start ms ∧ JamSpace c k b ms ∧ w.recs i = some y ∧ y.baseNum = x.baseNum ∧ y.oldNum = x.oldNum ∧ y.hw = x.hw ∧ y.oldHW = x.oldHW

/-- Handling a message may add messages to the area, of at most `c` bytes, and may do anything to other areas. `Inv k` is whatever must be
true of the other areas for handling `k` messages, `Fit` of the message. -/
def JamKeeps (Inv : Nat → JamW → Prop) (Fit : MemMsg → Prop) (i : Nat) (start : UInt32) (c : Nat) (handle : JamHandler) : Prop :=
  ∀ m w x ms k, Fit m → Inv (k + 1) w → JamAt i start x c (k + 1) ms w →
    ∃ ok w' new, handle m w = .ok (ok, w') ∧ Inv k w' ∧ JamAt i start x c k (ms ++ new) w' ∧ w'.hwFile i = w.hwFile i

/-- `Inv` does not depend on area `i`, and allows for less messages too. -/
def JamElse (Inv : Nat → JamW → Prop) (i : Nat) : Prop :=
  (∀ k w w', Inv k w → (∀ j, j ≠ i → w'.base j = w.base j ∧ w'.recs j = w.recs j) → (∀ j, j ≠ i → w'.hwFile j = w.hwFile j) → Inv k w') ∧
  ∀ k w, Inv (k + 1) w → Inv k w

end CM
