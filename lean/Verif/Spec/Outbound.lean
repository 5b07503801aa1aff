import Verif.Model.Config
/-! # What the outbound is expected to look like -/

namespace CM

/-- The domain of one of the system's own addresses. -/
def OwnDomain (cfg : Config) (a : Node4D) (d : Str) : Prop :=
  (∃ k ∈ cfg.akas, k.node = a ∧ k.domain = d) ∨ ((∀ k ∈ cfg.akas, k.node ≠ a) ∧ d = [])

/-- Mail to this address is sent in domain `d`, which is not that of the system's first address: the
route for it uses an address in another domain. -/
def Abroad (cfg : Config) (n : Node4D) (d : Str) : Prop :=
  ∃ r first, cfg.findRoute n = some r ∧ cfg.akas.head? = some first ∧ OwnDomain cfg r.aka d ∧
    d ≠ [] ∧ first.domain ≠ [] ∧ d.map lower ≠ first.domain.map lower

/-- Mail to this address is sent in the domain of the system's first address. -/
def AtHome (cfg : Config) (n : Node4D) : Prop := ∀ d, ¬ Abroad cfg n d

/-- A bundle name: eight hexadecimal digits, the day of the week and a digit. -/
def BundleName (base day digit : Nat) (name : Str) : Prop :=
  ∃ hex d : Str, name = hex ++ [46] ++ d ++ [UInt8.ofNat (48 + digit)] ∧ digit < 10 ∧
    [b!"su", b!"mo", b!"tu", b!"we", b!"th", b!"fr", b!"sa"][day]? = some d ∧
    hex.length = 8 ∧ (∀ c ∈ hex, (48 ≤ c.toNat ∧ c.toNat ≤ 57) ∨ (97 ≤ c.toNat ∧ c.toNat ≤ 102)) ∧
    base = hex.foldl (fun n c => 16 * n + if c.toNat ≤ 57 then c.toNat - 48 else c.toNat - 87) 0

/-- A line of a flow file names a file: after at most one of each of the marks `#`, `~`, `^` and `-`,
in this order; the case of letters and what follows (blanks, control characters, characters outside
ASCII) do not matter. -/
def Lists (line file : Str) : Prop :=
  ∃ marks name tail, line = marks ++ name ++ tail ∧ marks.Sublist b!"#~^-" ∧ name.map lower = file.map lower ∧
    ∀ c ∈ tail, c.toNat < 33 ∨ 128 ≤ c.toNat

/-- A text of complete lines. -/
def unlines (ls : List Str) : Str := ls.flatMap fun l => l ++ [10]

end CM
