import Verif.Spec.Jam
/-! # What it means that the replies in a JAM base are linked -/

namespace CM

/-- Message `y` is a reply to `x`: the checksums agree and, unless `quick`, the message identification (subfield 4) of `x` is the one that `y`
(in subfield 5) says it is a reply to. -/
def Answers (quick : Bool) (x y : JamMsg) : Prop :=
  x.hdr.msgIdCrc = y.hdr.replyCrc ∧
  (quick = true ∨ ∃ f g, y.subs.find? (·.loId == 5) = some f ∧ x.subs.find? (·.loId == 4) = some g ∧
    f.data.length = g.data.length ∧ cstr f.data = cstr g.data)

/-- Message `k` of a base is a reply to message `p`. -/
def AnswersAt (quick : Bool) (ms : List (Option JamMsg)) (p k : Nat) : Prop :=
  ∃ x y, ms[p]? = some (some x) ∧ ms[k]? = some (some y) ∧ Answers quick x y

/-- Following the links from one reply to the next, one comes to the messages `ks`. -/
def ReplyChain (start : UInt32) (ms : List (Option JamMsg)) : UInt32 → List Nat → Prop
  | link, [] => link = 0
  | link, k :: ks => link = start + UInt32.ofNat k ∧ ∃ y, ms[k]? = some (some y) ∧ ReplyChain start ms y.hdr.replyNext ks

/-- Message `k` says that it is a reply to message `p`. -/
def RepliesTo (start : UInt32) (ms : List (Option JamMsg)) (p k : Nat) : Prop :=
  ∃ y, ms[k]? = some (some y) ∧ y.hdr.replyTo = start + UInt32.ofNat p

/-- A reader who follows the links from a message comes to all its replies, to each of them once, and to nothing else. -/
structure Threaded (start : UInt32) (ms : List (Option JamMsg)) : Prop where
  thread : ∀ p x, ms[p]? = some (some x) → ∃ ks : List Nat, ks.Nodup ∧ ReplyChain start ms x.hdr.reply1st ks ∧ ∀ k, k ∈ ks ↔ RepliesTo start ms p k
  free : ∀ (k : Nat) (y : JamMsg), ms[k]? = some (some y) → y.hdr.replyTo = 0 → y.hdr.replyNext = 0

/-- Only links between messages differ: no message was added or removed, and of the messages only the three links may have changed. -/
structure OnlyLinks (ms ms' : List (Option JamMsg)) : Prop where
  len : ms'.length = ms.length
  gone : ∀ k : Nat, ms[k]? = some none → ms'[k]? = some none
  same : ∀ (k : Nat) (x : JamMsg), ms[k]? = some (some x) → ∃ x', ms'[k]? = some (some x') ∧
    x' = { x with hdr := { x.hdr with replyTo := x'.hdr.replyTo, reply1st := x'.hdr.reply1st, replyNext := x'.hdr.replyNext } }

/-- What linking the messages from number `new` (counted from 0) on to all others does to a base. -/
structure LinksDone (quick : Bool) (start : UInt32) (new : Nat) (ms ms' : List (Option JamMsg)) : Prop where
  only : OnlyLinks ms ms'
  /-- A message that was a reply to some message stays so; the others become replies only to messages they are replies to. -/
  to : ∀ (k : Nat) (x x' : JamMsg), ms[k]? = some (some x) → ms'[k]? = some (some x') →
    x'.hdr.replyTo = x.hdr.replyTo ∨ (x.hdr.replyTo = 0 ∧ ∃ p, AnswersAt quick ms p k ∧ x'.hdr.replyTo = start + UInt32.ofNat p)
  /-- The first reply is changed only if there was none; it becomes a message that has just become a reply to this one. -/
  first : ∀ (p : Nat) (x x' : JamMsg), ms[p]? = some (some x) → ms'[p]? = some (some x') →
    x'.hdr.reply1st = x.hdr.reply1st ∨ (x.hdr.reply1st = 0 ∧ ∃ k, AnswersAt quick ms p k ∧ ¬RepliesTo start ms p k ∧ RepliesTo start ms' p k ∧
      x'.hdr.reply1st = start + UInt32.ofNat k)
  /-- So is the next reply to the same message. -/
  next : ∀ (j : Nat) (x x' : JamMsg), ms[j]? = some (some x) → ms'[j]? = some (some x') →
    x'.hdr.replyNext = x.hdr.replyNext ∨ (x.hdr.replyNext = 0 ∧ ∃ p k, AnswersAt quick ms p k ∧ ¬RepliesTo start ms p k ∧ RepliesTo start ms' p k ∧
      x'.hdr.replyNext = start + UInt32.ofNat k)
  /-- No reply that concerns a new message is overlooked. -/
  all : ∀ p k, AnswersAt quick ms p k → new ≤ p ∨ new ≤ k → ∃ y, ms'[k]? = some (some y) ∧ y.hdr.replyTo ≠ 0
  /-- The threads stay in order. -/
  threads : Threaded start ms → (∀ p (ks : List Nat), ks.Nodup → (∀ k ∈ ks, RepliesTo start ms' p k) → ks.length ≤ 1001) → Threaded start ms'

end CM
