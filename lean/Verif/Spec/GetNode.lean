import Verif.Spec.Nodelist
/-! # What a line of a nodelist says about a node

An entry of a nodelist consists of fields separated by commas: a keyword (nothing for an ordinary
node), the number, the name, the location, the name of the sysop, the phone number, the speed and any
number of flags. -/

namespace CM

/-- Fields separated by commas. -/
def commaJoin : List Str → Str
  | [] => []
  | [f] => f
  | f :: g :: r => f ++ 44 :: commaJoin (g :: r)

/-- The names of the fields after keyword and number. -/
def fieldNames : List Str := [b!"Name", b!"Location", b!"Sysop", b!"Phone", b!"Baud"]

/-- The report about the entry `e` whose line has the fields `fs`: one line for each of the fields there
are, and one for the flags if there are any. -/
def nodeReport (e : NlEntry) (fs : List Str) : List Str :=
  [b!"Node " ++ dec e.addr.zone.toNat ++ b!":" ++ dec e.addr.net.toNat ++ b!"/" ++ dec e.addr.node.toNat ++ b!"." ++
      dec e.addr.point.toNat,
    b!"Region " ++ dec e.region.toNat ++ b!", Hub " ++ dec e.hub.toNat,
    b!"Node is listed as a " ++ (if fs.headD [] = [] then b!"Node" else fs.headD [])] ++
  List.zipWith (fun n f => n ++ b!": " ++ f) fieldNames (fs.drop 2) ++
  (if commaJoin (fs.drop 7) = [] then [] else [b!"Flags: " ++ commaJoin (fs.drop 7)])

/-- `line` has the fields `fs`: there are at least a keyword and a number, no field contains a comma; the
text ends with a printable ASCII character, and only blanks and control characters follow it. -/
structure LineOf (line : Str) (fs : List Str) : Prop where
  two : 2 ≤ fs.length
  noComma : ∀ f ∈ fs, (44 : UInt8) ∉ f
  text : ∃ ws, line = commaJoin fs ++ ws ∧ ∀ c ∈ ws, c < 33
  ends : ∃ c, (commaJoin fs).getLast? = some c ∧ 33 ≤ c ∧ c < 128

/-- `f`, line `k`, is the first place in `fs` with an entry for `node`. -/
def FirstEntry {α : Type} (zone : α → UInt16) (lines : α → List Str) (fs : List α) (node : Node4D) (j : Nat) (f : α)
    (k : Nat) (e : NlEntry) : Prop :=
  fs[j]? = some f ∧ EntryAt (zone f) (lines f) k e ∧ e.addr = node ∧
  ∀ (j' : Nat) (f' : α) (k' : Nat) (e' : NlEntry), fs[j']? = some f' → EntryAt (zone f') (lines f') k' e' →
    e'.addr = node → j < j' ∨ j = j' ∧ k ≤ k'

end CM
