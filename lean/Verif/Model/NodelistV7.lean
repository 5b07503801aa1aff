import Verif.Model.MbJam
import Verif.Model.Outbound
/-! # Model of V7+ nodelists (`crashmail/nl_v7p.c`)

The records are read into C structures, so their layout depends on the machine: the size of `long` (4 or 8 bytes, aligned to its size), and whether `char` is signed. Machines are little-endian. -/

namespace CM

/-- The machine: the size of `long`, and whether `char` is signed. -/
structure V7Arch where
  long : Nat
  signedChar : Bool
  deriving DecidableEq

/-- A number as an `int` of `n` bytes. -/
def signedOf (n v : Nat) : Int := if v < 2 ^ (8 * n - 1) then (v : Int) else (v : Int) - 2 ^ (8 * n)

/-- Bytes as a little-endian number. -/
def leNat : Data → Nat
  | [] => 0
  | b :: r => b.toNat + 256 * leNat r

/-- `n` bytes of a buffer. -/
def bufAt (buf : Data) (off n : Nat) : Except JErr Data := if off + n ≤ buf.length then .ok ((buf.drop off).take n) else .error (.ub .oobRead)

/-- A `uint16_t` of a buffer. -/
def bufWord (buf : Data) (off : Nat) : Except JErr Nat := do return leNat (← bufAt buf off 2)

/-- A `long` of a buffer. -/
def bufLong (A : V7Arch) (buf : Data) (off : Nat) : Except JErr Int := do return signedOf A.long (leNat (← bufAt buf off A.long))

/-- The open index (`nl_v7p.c` 74-83): the file, the position in it, `v7p_ndxrecsize`, `v7p_ndxcontrol.indexstart` and `v7p_ndxbuf`. -/
structure V7Ndx where
  file : Data
  pos : Nat
  recSize : Nat
  root : Int
  buf : Data := List.replicate 512 0
  deriving DecidableEq

/-- The address in a key (`nl_v7p.c` 93-97). -/
def v7Addr (d : Data) : Node4D :=
  ⟨UInt16.ofNat (leNat (d.take 2)), UInt16.ofNat (leNat ((d.drop 2).take 2)), UInt16.ofNat (leNat ((d.drop 4).take 2)), UInt16.ofNat (leNat ((d.drop 6).take 2))⟩

/-- `v7p_ndxcompare` (`nl_v7p.c` 85-106): the key at `off` with length `len` and the address. A key of six bytes has no point, which is 0 (`leNat []`). -/
def v7Compare (buf : Data) (off len : Nat) (n : Node4D) : Except JErr Int :=
  if len ≠ 8 ∧ len ≠ 6 then .ok (-1)
  else do return compare4D (v7Addr (← bufAt buf off len)) n

/-- A record is read (`nl_v7p.c` 122-125, 150-153): `false` if it is not complete. The position stays where it was if it is to be before the beginning. -/
def v7Read (A : V7Arch) (x : V7Ndx) (recnum : Int) : Except JErr (Bool × V7Ndx) :=
  let off := recnum * x.recSize
  if off < -2 ^ (8 * A.long - 1) ∨ 2 ^ (8 * A.long - 1) ≤ off then .error (.ub .overflow)
  else
    let pos := if off < 0 then x.pos else off.toNat
    let d := (x.file.drop pos).take x.recSize
    .ok (d.length == x.recSize, { x with pos := pos + d.length, buf := d ++ x.buf.drop d.length })

/-- `keycount` (`nl_v7p.c` 31, 48). -/
def v7Count (A : V7Arch) (buf : Data) : Except JErr Int := do return signedOf 2 (← bufWord buf (3 * A.long))

/-- The loop over the keys of an index record (`nl_v7p.c` 132-138) from key `i` on, with `n` keys left: where it ends. -/
def v7Keys (A : V7Arch) (buf : Data) (node : Node4D) : Nat → Nat → Except JErr Nat
  | 0, i => .ok i
  | n + 1, i => do
    let k := 4 * A.long + i * (3 * A.long)
    if (← v7Compare buf (← bufWord buf k) (← bufWord buf (k + 2)) node) > 0 then return i else v7Keys A buf node n (i + 1)

/-- The record below the key before which the loop has ended (`nl_v7p.c` 140-148). -/
def v7Pick (A : V7Arch) (buf : Data) : Nat → Except JErr Int
  | 0 => bufLong A buf 0
  | i + 1 => bufLong A buf (4 * A.long + i * (3 * A.long) + 2 * A.long)

/-- The record below (`nl_v7p.c` 129-148): `none` if the record has a negative number of keys. -/
def v7Down (A : V7Arch) (buf : Data) (node : Node4D) : Except JErr (Option Int) := do
  let n ← v7Count A buf
  if n < 0 then return none
  return some (← v7Pick A buf (← v7Keys A buf node n.toNat 0))

/-- The loop over the keys of a leaf (`nl_v7p.c` 159-174): the value of the key that matches. -/
def v7Leaf (A : V7Arch) (buf : Data) (node : Node4D) : Nat → Nat → Except JErr (Option Int)
  | 0, _ => .ok none
  | n + 1, i => do
    let k := 4 * A.long + i * (2 * A.long)
    let r ← v7Compare buf (← bufWord buf k) (← bufWord buf (k + 2)) node
    if r > 0 then return none
    else if r = 0 then return some (← bufLong A buf (k + A.long))
    else v7Leaf A buf node n (i + 1)

/-- The loop down to a leaf and the search in it (`nl_v7p.c` 127-179). -/
def v7Search (A : V7Arch) (node : Node4D) : Nat → V7Ndx → Except JErr (Option UInt32 × V7Ndx)
  | 0, _ => .error .stuck
  | fuel + 1, x => do
    if (← bufLong A x.buf 0) ≠ -1 then
      match ← v7Down A x.buf node with
      | none => return (none, x)
      | some r =>
        let (ok, x) ← v7Read A x r
        if !ok then return (none, x) else v7Search A node fuel x
    else
      let n ← v7Count A x.buf
      if n ≤ 0 then return (none, x)
      return ((← v7Leaf A x.buf node n.toNat 0).map UInt32.ofInt, x)

/-- `v7p_findoffset` (`nl_v7p.c` 108-180). -/
def v7Find (A : V7Arch) (fuel : Nat) (node : Node4D) (x : V7Ndx) : Except JErr (Option UInt32 × V7Ndx) := do
  let (ok, x) ← v7Read A x x.root
  if !ok then return (none, x) else v7Search A node fuel x

/-! ## The data -/

/-- A `char` as a number. -/
def charVal (A : V7Arch) (c : UInt8) : Int := if A.signedChar = true ∧ 128 ≤ c then (c.toNat : Int) - 256 else c.toNat

/-- The characters of packed text (`nl_v7p.c` 186), with the NUL behind them. -/
def v7Table : Str := b!" EANROSTILCHBDMUGPKYWFVJXZQ-'0123456789" ++ [0]

/-- A character of `junk`: its bytes may have no value. -/
def junkAt (junk : List (Option UInt8)) (k : Nat) : Except JErr UInt8 :=
  match junk[k]? with
  | none => .error (.ub .oobRead)
  | some none => .error (.ub .uninit)
  | some (some c) => .ok c

/-- The three characters of a word (`nl_v7p.c` 192-201). -/
def v7Word (A : V7Arch) (a b : UInt8) : Str :=
  let w := (UInt16.ofInt (charVal A a + charVal A b * 256)).toNat
  [v7Table.getD (w / 40 / 40 % 40) 0, v7Table.getD (w / 40 % 40) 0, v7Table.getD (w % 40) 0]

/-- `v7p_unpack` (`nl_v7p.c` 182-207) from byte `c` on, with `n` words left. -/
def v7Unpack (A : V7Arch) (junk : List (Option UInt8)) : Nat → Nat → Except JErr Str
  | 0, _ => .ok []
  | n + 1, c => do return v7Word A (← junkAt junk c) (← junkAt junk (c + 1)) ++ (← v7Unpack A junk n (c + 2))

/-- `osRead` into `junk`: `none` if less is there. -/
def junkRead (f : Data) (pos : Nat) (len : UInt32) (junk : List (Option UInt8)) : Except JErr (Option (List (Option UInt8))) :=
  let d := (f.drop pos).take len.toNat
  if junk.length < d.length then .error (.ub .oobWrite)
  else if d.length ≠ len.toNat then .ok none
  else .ok (some (d.map some ++ junk.drop d.length))

/-- `unpacked[k]`: the text, a NUL, and bytes without value up to `size`. -/
def unpackedAt (s : Str) (size : Nat) (k : UInt32) : Except JErr UInt8 :=
  if k.toNat < s.length then .ok (s.getD k.toNat 0) else if k.toNat = s.length then .ok 0 else if k.toNat < size then .error (.ub .uninit) else .error (.ub .oobRead)

/-- The loop `nl_v7p.c` 273-280 from character `c` on, with `n` characters left: are all hexadecimal digits? -/
def v7Hex (s : Str) (size : Nat) (sum : UInt32) : Nat → UInt32 → Except JErr Bool
  | 0, _ => .ok true
  | n + 1, c => do if (hexVal (lower (← unpackedAt s size (sum + c)))).isSome then v7Hex s size sum n (c + 1) else return false

/-- The end of `v7p_gethubregion` (`nl_v7p.c` 263-300), with the lengths of the names. -/
def v7Numbers (A : V7Arch) (dtp : Data) (sz : Nat) (junk : List (Option UInt8)) (s : Str) (sum : UInt32) : Except JErr (Option (UInt32 × UInt32)) := do
  if UInt32.ofNat s.length - sum < 8 then return none
  if !(← v7Hex s (sz * 3 / 2 + 3) sum 8 0) then return none
  let off := (hextodec ((s.drop sum.toNat).take 8)).toUInt32
  match ← junkRead dtp off.toNat 4 junk with
  | none => return none
  | some j =>
    let region := charVal A (← junkAt j 0) + charVal A (← junkAt j 1) * 256
    let hub := charVal A (← junkAt j 2) + charVal A (← junkAt j 3) * 256
    return some (UInt32.ofInt hub, UInt32.ofInt region)

/-- The size of `junk` (`nl_v7p.c` 220-226). -/
def v7Size (phone pass pack : Int) : Int :=
  let sz := if pass > phone then pass else phone
  if pack > sz then pack else sz

/-- `v7p_gethubregion` after the header (`nl_v7p.c` 228-300), with the position in the data file and the lengths. A negative size cannot be allocated; other allocations succeed. The text is built in a buffer of `sz*3/2+3` bytes, which is large enough (`pack` is at most `sz`). -/
def v7Body (A : V7Arch) (dat dtp : Data) (pos : Nat) (phone pass pack : Int) (sum : UInt32) : Except JErr (Option (UInt32 × UInt32)) := do
  let sz := v7Size phone pass pack
  if sz < 0 then return none
  match ← junkRead dat pos (UInt32.ofInt phone) (List.replicate sz.toNat none) with
  | none => return none
  | some junk =>
    match ← junkRead dat (pos + (UInt32.ofInt phone).toNat) (UInt32.ofInt pass) junk with
    | none => return none
    | some junk =>
      match ← junkRead dat (pos + (UInt32.ofInt phone).toNat + (UInt32.ofInt pass).toNat) (UInt32.ofInt pack) junk with
      | none => return none
      | some junk =>
        let s ← v7Unpack A junk (((UInt32.ofInt pack).toNat + 1) / 2) 0
        v7Numbers A dtp sz.toNat junk s sum

/-- `v7p_gethubregion` (`nl_v7p.c` 209-301): hub and region. -/
def v7HubRegion (A : V7Arch) (dat dtp : Data) (off : UInt32) : Except JErr (Option (UInt32 × UInt32)) :=
  let h := (dat.drop off.toNat).take 22
  if h.length ≠ 22 then .ok none
  else v7Body A dat dtp (off.toNat + 22) (charVal A (h.getD 15 0)) (charVal A (h.getD 16 0)) (charVal A (h.getD 20 0))
    (UInt32.ofInt (charVal A (h.getD 17 0) + charVal A (h.getD 18 0) + charVal A (h.getD 19 0)))

/-! ## The functions of the nodelist -/

/-- `v7p_nlStart` (`nl_v7p.c` 303-360): `none` is an error. -/
def v7Start (A : V7Arch) (ndx dat dtp : Option Data) : Option V7Ndx :=
  match ndx, dat, dtp with
  | some f, some _, some _ =>
    if f.length < 2 then none
    else
      let size := leNat (f.take 2)
      if 512 < size then none
      else if f.length < 2 + 7 * A.long then none
      else some { file := f, pos := 2 + 7 * A.long, recSize := size, root := signedOf A.long (leNat ((f.drop 2).take A.long)) }
  | _, _, _ => none

/-- `v7p_nlCheckNode` (`nl_v7p.c` 369-377). -/
def v7CheckNode (A : V7Arch) (fuel : Nat) (node : Node4D) (x : V7Ndx) : Except JErr Bool := do return (← v7Find A fuel node x).1.isSome

/-- A `uint32_t` returned as `long`. -/
def longOf (A : V7Arch) (v : UInt32) : Int := if A.long = 4 then signedOf 4 v.toNat else v.toNat

/-- `v7p_nlGetHub` and `v7p_nlGetRegion` (`nl_v7p.c` 379-411). -/
def v7Get (A : V7Arch) (fuel : Nat) (pick : UInt32 × UInt32 → UInt32) (node : Node4D) (x : V7Ndx) (dat dtp : Data) : Except JErr Int := do
  match (← v7Find A fuel { node with point := 0 } x).1 with
  | none => return -1
  | some off =>
    match ← v7HubRegion A dat dtp off with
    | none => return -1
    | some p => return longOf A (pick p)

def v7GetHub (A : V7Arch) (fuel : Nat) : Node4D → V7Ndx → Data → Data → Except JErr Int := v7Get A fuel (·.1)
def v7GetRegion (A : V7Arch) (fuel : Nat) : Node4D → V7Ndx → Data → Data → Except JErr Int := v7Get A fuel (·.2)

end CM
