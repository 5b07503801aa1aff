import Verif.Base
/-! # `shared/node4d.c`: FidoNet addresses -/

namespace CM

/-- `shared/node4d.h` 6-9: `struct Node4D { uint16_t Zone,Net,Node,Point; }`. -/
structure Node4D where
  zone : UInt16
  net : UInt16
  node : UInt16
  point : UInt16
  deriving DecidableEq, Repr

/-- Local variables of `Parse4DTemplate` (`shared/node4d.c` 10-19). `val` is a `uint32_t`. -/
structure P4 where
  nd : Node4D
  gotZone : Bool := false
  gotNet : Bool := false
  gotNode : Bool := false
  gotVal : Bool := false
  val : UInt32 := 0

/-- One iteration of the loop of `Parse4DTemplate` (`shared/node4d.c` 21-59); `none` is
`return(FALSE)`. Assigning `val` to a `uint16_t` field truncates. -/
def p4step (s : P4) (c : UInt8) : Option P4 :=
  if c = 58 then                       -- ':'
    if s.gotZone || s.gotNet || s.gotNode then none
    else some { s with nd := if s.gotVal then { s.nd with zone := s.val.toUInt16 } else s.nd,
                       gotZone := true, gotVal := false }
  else if c = 47 then                  -- '/'
    if s.gotNet || s.gotNode then none
    else some { s with nd := if s.gotVal then { s.nd with net := s.val.toUInt16 } else s.nd,
                       gotNet := true, gotVal := false }
  else if c = 46 then                  -- '.'
    if s.gotNode then none
    else some { s with nd := if s.gotVal then { s.nd with node := s.val.toUInt16 } else s.nd,
                       gotNode := true, gotVal := false }
  else if 48 ≤ c ∧ c ≤ 57 then
    let v : UInt32 := if s.gotVal then s.val else 0
    some { s with val := v * 10 + (c - 48).toUInt32, gotVal := true }
  else none

/-- End of `Parse4DTemplate` (`shared/node4d.c` 61-68). -/
def p4fin (s : P4) : Node4D :=
  if s.gotVal then
    if s.gotZone && !s.gotNet then { s.nd with net := s.val.toUInt16 }
    else if s.gotNode then { s.nd with point := s.val.toUInt16 }
    else { s.nd with node := s.val.toUInt16 }
  else s.nd

/-- `Parse4DTemplate` (`shared/node4d.c` 8-69). `none` models `return(FALSE)`; the partially
assigned `*node` of the failing case is not modelled. -/
def parse4DTemplate (buf : Str) (tpl : Node4D) : Option Node4D :=
  (buf.foldlM p4step { nd := tpl }).map p4fin

/-- `Parse4D` (`shared/node4d.c` 71-76). -/
def parse4D (buf : Str) : Option Node4D := parse4DTemplate buf ⟨0, 0, 0, 0⟩

/-- `Compare4D` (`shared/node4d.c` 86-104). -/
def compare4D (a b : Node4D) : Int :=
  if a.zone ≠ 0 ∧ b.zone ≠ 0 ∧ a.zone > b.zone then 1
  else if a.zone ≠ 0 ∧ b.zone ≠ 0 ∧ a.zone < b.zone then -1
  else if a.net > b.net then 1
  else if a.net < b.net then -1
  else if a.node > b.node then 1
  else if a.node < b.node then -1
  else if a.point > b.point then 1
  else if a.point < b.point then -1
  else 0

/-- `Print4D` (`shared/node4d.c` 106-118): the destination buffer is assumed large enough (the
result has at most 23 bytes, see `print4D_length`). -/
def print4D (n : Node4D) : Str :=
  if n.point ≠ 0 then
    dec n.zone.toNat ++ b!":" ++ dec n.net.toNat ++ b!"/" ++ dec n.node.toNat ++ b!"." ++ dec n.point.toNat
  else
    dec n.zone.toNat ++ b!":" ++ dec n.net.toNat ++ b!"/" ++ dec n.node.toNat

end CM
