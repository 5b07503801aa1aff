import Verif.Model.Node4D
/-! # Specification of the address syntax: `[zone:][net/][node.]last` -/

namespace CM

/-- An optional component followed by its separator. -/
def sec (o : Option Str) (sep : UInt8) : Str :=
  match o with
  | none => []
  | some d => d ++ [sep]

/-- The digits of an optional component. -/
def odig (o : Option Str) : Str := o.getD []

/-- The value a component gets: its decimal value modulo 2^16, or the default if it is empty. -/
def compVal (ds : Str) (dflt : UInt16) : UInt16 :=
  if ds = [] then dflt else UInt16.ofNat (decVal ds)

/-- `[z:][n/][f.]l`: a missing part is `none`; each part is a possibly empty run of digits. -/
structure AddrText where
  z : Option Str
  n : Option Str
  f : Option Str
  l : Str

/-- All parts consist of decimal digits. -/
def AddrText.Digits (t : AddrText) : Prop :=
  (∀ c ∈ odig t.z, isDigit c = true) ∧ (∀ c ∈ odig t.n, isDigit c = true) ∧
  (∀ c ∈ odig t.f, isDigit c = true) ∧ (∀ c ∈ t.l, isDigit c = true)

/-- The text of an address. -/
def AddrText.text (t : AddrText) : Str := sec t.z 58 ++ sec t.n 47 ++ sec t.f 46 ++ t.l

/-- The meaning of an address text, with defaults from a template: empty or missing parts keep
the default; the last part is the net after a lone zone, the point after a node, otherwise the
node. -/
def AddrText.meaning (t : AddrText) (tpl : Node4D) : Node4D :=
  let base : Node4D := ⟨compVal (odig t.z) tpl.zone, compVal (odig t.n) tpl.net,
    compVal (odig t.f) tpl.node, tpl.point⟩
  if t.z.isSome && t.n.isNone then { base with net := compVal t.l base.net }
  else if t.f.isSome then { base with point := compVal t.l base.point }
  else { base with node := compVal t.l base.node }

end CM
