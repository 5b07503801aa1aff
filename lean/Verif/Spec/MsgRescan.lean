import Verif.Spec.MsgBase
/-! # Sending messages of a *.msg area again, from outside -/

namespace CM

/-- Message `n` is there and is complete: it has at least a header. -/
def MsgThere (fs : FS) (dir : Str) (n : Nat) : Prop := ∃ d, fs (msgFile dir n) = some d ∧ 190 ≤ d.length

/-- `H` is the highest number of a message; 1 if there is none. -/
structure HighMsg (fs : FS) (dir : Str) (H : Nat) : Prop where
  pos : 1 ≤ H
  all : ∀ n, 2 ≤ n → fs (msgFile dir n) ≠ none → n ≤ H
  there : 2 ≤ H → fs (msgFile dir H) ≠ none

/-- The messages with numbers from `first` up to, but not including, `stop` have been handed over, each once and in the order of their numbers. -/
structure MsgResent (load : UInt32 → Data → MemMsg → Prop) (fs : FS) (dir : Str) (first stop : Nat) (sent : List (UInt32 × MemMsg)) : Prop where
  order : (sent.map (·.1.toNat)).Pairwise (· < ·)
  which : ∀ n, n ∈ sent.map (·.1.toNat) ↔ 2 ≤ n ∧ first ≤ n ∧ n < stop ∧ MsgThere fs dir n
  what : ∀ p ∈ sent, ∃ d, fs (msgFile dir p.1.toNat) = some d ∧ load p.1 d p.2

/-- Whatever happens and wherever the program is stopped, `I` holds of the disk; the program does nothing undefined and comes to an end; and then `Q` holds of its result and the disk. -/
def Sure (w : World) {α : Type} (I : FS → Prop) (Q : α → FS → Prop) (p : Prog α) (fs : FS) : Prop :=
  ∀ p' fs', Reach w p fs p' fs' → I fs' ∧ (∀ a, p' = .ret a → Q a fs') ∧ (∀ u, p' ≠ .ub u) ∧ p' ≠ .stuck

/-- Handling a message leaves the messages of the area, and what is known about them, as they are. -/
def KeepsArea (w : World) (handle : MsgHandler) (i : Nat) (dir : Str) : Prop :=
  ∀ mm st fs, Sure w (fun fs' => ∀ n, fs' (msgFile dir n) = fs (msgFile dir n)) (fun x _ => x.2.2 i = st i) (handle mm st) fs

end CM
