import Verif.Model.Node4D
/-! # What a nodelist says

A nodelist is a list of lines. Some of them are entries: `Zone,2,...`, `Region,20,...`,
`Host,201,...`, `Hub,300,...`, `Pvt,5,...`, `Hold,6,...`, `,7,...` and `Point,1,...`. Each component of
the address of an entry is what the latest line that determines this component says. -/

namespace CM

inductive EntryKind where
  | zone | region | host | hub | node | point
  deriving DecidableEq, Repr

/-- The keywords. -/
def entryWords : List (Str × EntryKind) := [(b!"zone", .zone), (b!"region", .region), (b!"host", .host),
  (b!"hub", .hub), (b!"pvt", .node), (b!"hold", .node), (b!"", .node), (b!"point", .point)]

/-- An entry starts with a keyword in upper or lower case, a comma and a number. -/
def IsEntry (line : Str) (k : EntryKind) (v : UInt16) : Prop :=
  ∃ (w w' r : Str), (w, k) ∈ entryWords ∧ w'.map lower = w ∧ line = w' ++ 44 :: r ∧ v = UInt16.ofInt (atoi r)

/-- The value the last line of `ls` to say something gives; `d` if there is none. -/
inductive Latest (says : EntryKind → UInt16 → Option UInt16) (d : UInt16) : List Str → UInt16 → Prop where
  | none : Latest says d [] d
  | says {ls l k v x} : IsEntry l k v → says k v = some x → Latest says d (ls ++ [l]) x
  | silent {ls l k v x} : IsEntry l k v → says k v = none → Latest says d ls x → Latest says d (ls ++ [l]) x
  | other {ls l x} : (¬ ∃ k v, IsEntry l k v) → Latest says d ls x → Latest says d (ls ++ [l]) x

def saysZone (k : EntryKind) (v : UInt16) : Option UInt16 :=
  match k with
  | .zone => some v
  | _ => none

/-- The coordinators of zones and regions have the number of the zone or region as net. -/
def saysNet (k : EntryKind) (v : UInt16) : Option UInt16 :=
  match k with
  | .zone | .region | .host => some v
  | _ => none

def saysNode (k : EntryKind) (v : UInt16) : Option UInt16 :=
  match k with
  | .zone | .region | .host => some 0
  | .hub | .node => some v
  | .point => none

def saysPoint (k : EntryKind) (v : UInt16) : Option UInt16 :=
  match k with
  | .point => some v
  | _ => some 0

def saysRegion (k : EntryKind) (v : UInt16) : Option UInt16 :=
  match k with
  | .zone => some 0
  | .region => some v
  | _ => none

def saysHub (k : EntryKind) (v : UInt16) : Option UInt16 :=
  match k with
  | .zone | .region | .host => some 0
  | .hub => some v
  | _ => none

/-- An entry of a nodelist: address, region, hub and the position of the line in the file. -/
structure NlEntry where
  addr : Node4D
  region : UInt16
  hub : UInt16
  pos : Nat
  deriving DecidableEq

/-- `e` is the entry of line number `k`; the zone is `zone` before the first zone line. Lines end with
one byte. -/
def EntryAt (zone : UInt16) (ls : List Str) (k : Nat) (e : NlEntry) : Prop :=
  (∃ l k' v, ls[k]? = some l ∧ IsEntry l k' v) ∧
  Latest saysZone zone (ls.take (k + 1)) e.addr.zone ∧
  Latest saysNet 0 (ls.take (k + 1)) e.addr.net ∧
  Latest saysNode 0 (ls.take (k + 1)) e.addr.node ∧
  Latest saysPoint 0 (ls.take (k + 1)) e.addr.point ∧
  Latest saysRegion 0 (ls.take (k + 1)) e.region ∧
  Latest saysHub 0 (ls.take (k + 1)) e.hub ∧
  e.pos = ((ls.take k).map (fun l => l.length + 1)).sum

end CM
