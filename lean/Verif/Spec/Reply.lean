import Verif.Spec.Netmail
/-!
# Replies: specification

A reply is a list of lines; it goes out as one or more messages.
-/

namespace CM

/-- The messages handed to a handler one after the other, whatever it makes of them. -/
inductive Sends (self : MemMsg → M Unit) : HSt → List MemMsg → HSt → Prop where
  | nil (s : HSt) : Sends self s [] s
  | cons {s u t : HSt} {m : MemMsg} {ms : List MemMsg} (h : self m s = .ok () u ∨ self m s = .fail u)
      (hs : Sends self u ms t) : Sends self s (m :: ms) t

/-- The first lines of part `n`. -/
def contFrom (n : Nat) : List Str := if n = 1 then [] else [b!"(Continued from previous message)", []]

/-- The last lines of a part. -/
def contIn (last : Bool) : List Str := if last then [] else [[], b!"(Continued in next message)"]

/-- The subject of part `n`. -/
def partTitle (subject : Str) (n : Nat) : Str :=
  if n = 1 then subject else subject ++ b!" (part " ++ dec n ++ b!")"

/-- Control lines. -/
def ControlLines (k : Str) : Prop := ∃ ls : List Str, k = ls.flatten ∧ ∀ l ∈ ls, l.head? = some 1 ∧ l.getLast? = some 13

/-- Below the control lines the message consists of the lines given. -/
def Shows (m : MemMsg) (ls : List Str) : Prop := ∃ k, ControlLines k ∧ m.text.flatten = k ++ chunkOf ls

/-- The messages show the lines, in order, in parts numbered from `n` on, of at most `bound` lines if
there is a bound. -/
inductive InParts (bound : Option Nat) (subject : Str) : Nat → List MemMsg → List Str → Prop where
  | last {n : Nat} {m : MemMsg} {ls : List Str} (ht : m.subject = partTitle subject n)
      (h : Shows m (contFrom n ++ ls ++ contIn true))
      (hb : ∀ k, bound = some k → (contFrom n ++ ls ++ contIn true).length ≤ k) : InParts bound subject n [m] ls
  | more {n : Nat} {m : MemMsg} {ms : List MemMsg} {ls rest : List Str} (ht : m.subject = partTitle subject n)
      (h : Shows m (contFrom n ++ ls ++ contIn false))
      (hb : ∀ k, bound = some k → (contFrom n ++ ls ++ contIn false).length ≤ k)
      (hr : InParts bound subject (n + 1) ms rest) : InParts bound subject n (m :: ms) (ls ++ rest)

/-- The first of the messages is a private one from `frm` at `orig` to `to` at `dest`; for the addresses, no line of
the reply may be a control line itself. -/
def Addressed (orig dest : Node4D) (frm to : Str) (ls : List Str) (ms : List MemMsg) : Prop :=
  ∃ m, ms.head? = some m ∧ m.frm = frm ∧ m.to = to ∧ m.attr = FLAG_PVT ∧
    ((∀ l ∈ ls, l.head? ≠ some 1) → m.orig = orig ∧ m.dest = dest)

/-- A message to somebody at a node that consists of some lines. -/
structure Tells (c : Config) (aka : Option Node4D) (n : ConfigNode) (to subject : Str) (ls : List Str) (m : MemMsg) : Prop where
  orig : aka = some m.orig
  dest : m.dest = n.node
  to : m.to = to
  frm : m.frm = c.sysop
  subject : m.subject = subject
  attr : m.attr = FLAG_PVT
  shows : Shows m ls

/-- The limit that is kept: none if there is none, or if it is less than 5. -/
def lineBound (max : UInt32) : Option Nat := if 5 ≤ max.toNat then some max.toNat else none

end CM
