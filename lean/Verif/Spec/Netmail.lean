import Verif.Spec.Echo
/-!
# Netmail: specification

Which Via lines show that a message has been here before.
-/

namespace CM

/-- The characters addresses are made of. -/
def AddrChar (c : UInt8) : Prop := c = 58 ∨ c = 47 ∨ c = 46 ∨ (48 ≤ c ∧ c ≤ 57)

/-- `w` is a word of `l` made of address characters that cannot be made longer. -/
def AddrWord (l w : Str) : Prop :=
  ∃ pre post, l = pre ++ w ++ post ∧ w ≠ [] ∧ (∀ c ∈ w, AddrChar c) ∧
    (∀ c, pre.getLast? = some c → ¬ AddrChar c) ∧ ∀ c, post.head? = some c → ¬ AddrChar c

/-- The word names one of the system's own addresses. At most 19 characters of it are read. -/
def NamesOwn (cfg : Config) (w : Str) : Prop :=
  58 ∈ w.take 19 ∧ 47 ∈ w.take 19 ∧ ∃ n, parse4D (w.take 19) = some n ∧ n.zone ≠ 0 ∧ n.net ≠ 0 ∧
    ∃ a ∈ cfg.akas, SameSystem a.node n

/-- A Via line written by CrashMail with one of the system's own addresses. -/
def OwnVia (cfg : Config) (l : Str) : Prop :=
  (∃ r, l = [1, 86, 105, 97] ++ r) ∧ (∃ a b, l.take 150 = a ++ b!"CrashMail" ++ b) ∧
    ∃ w, AddrWord (l.take 150) w ∧ NamesOwn cfg w

/-- A chunk of text made of complete lines. -/
def chunkOf (ls : List Str) : Str := (ls.map (· ++ [13])).flatten

end CM
