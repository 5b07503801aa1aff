import Verif.Model.NodelistV7
/-! # V7+ nodelists, from outside

A V7+ nodelist has an index (a tree of records of one size, in which the entries are in the order of their addresses), a data file and a file with the hubs and regions. The numbers of the index are `long`s of the machine that wrote it, with `L` bytes. -/

namespace CM

/-- A number in `n` bytes, the lowest first. -/
def leBytes : Nat → Nat → Data
  | 0, _ => []
  | n + 1, v => UInt8.ofNat (v % 256) :: leBytes n (v / 256)

/-- The bytes `b` are at position `off`. -/
def Found7 (r : Data) (off : Nat) (b : Data) : Prop := ∃ p s, r = p ++ (b ++ s) ∧ p.length = off

/-- Address `a` is before `b`. -/
def AddrBefore (a b : Node4D) : Prop :=
  a.zone < b.zone ∨ a.zone = b.zone ∧ (a.net < b.net ∨ a.net = b.net ∧ (a.node < b.node ∨ a.node = b.node ∧ a.point < b.point))

/-- A key for the address: zone, net, node and point; the point may be left out when it is 0. -/
inductive V7Key : Node4D → Data → Prop
  | full (a : Node4D) : V7Key a (leBytes 2 a.zone.toNat ++ (leBytes 2 a.net.toNat ++ (leBytes 2 a.node.toNat ++ leBytes 2 a.point.toNat)))
  | short (a : Node4D) : a.point = 0 → V7Key a (leBytes 2 a.zone.toNat ++ (leBytes 2 a.net.toNat ++ leBytes 2 a.node.toNat))

/-- Where a record says that its key is: position and length at `pos`, and there the key for `a`. -/
def V7KeyAt (r : Data) (pos : Nat) (a : Node4D) : Prop :=
  ∃ off key, off < 65536 ∧ V7Key a key ∧ Found7 r pos (leBytes 2 off) ∧ Found7 r (pos + 2) (leBytes 2 key.length) ∧ Found7 r off key

/-- A leaf: the mark -1, the number of entries, and each with key and value. -/
structure V7LeafRec (L : Nat) (r : Data) (es : List (Node4D × UInt32)) : Prop where
  mark : Found7 r 0 (List.replicate L 255)
  few : es.length < 32768
  count : Found7 r (3 * L) (leBytes 2 es.length)
  keys : ∀ (i : Nat) (e : Node4D × UInt32), es[i]? = some e → V7KeyAt r (4 * L + i * (2 * L)) e.1 ∧ Found7 r (4 * L + i * (2 * L) + L) (leBytes L e.2.toNat)

/-- A record above others: the first record below it, the number of keys, and each with the record below it. -/
structure V7IndexRec (L : Nat) (r : Data) (first : Nat) (ks : List (Node4D × Nat)) : Prop where
  small : first < 2 ^ (8 * L - 1)
  start : Found7 r 0 (leBytes L first)
  few : ks.length < 32768
  count : Found7 r (3 * L) (leBytes 2 ks.length)
  keys : ∀ (i : Nat) (k : Node4D × Nat), ks[i]? = some k → k.2 < 2 ^ (8 * L - 1) ∧ V7KeyAt r (4 * L + i * (3 * L)) k.1 ∧ Found7 r (4 * L + i * (3 * L) + 2 * L) (leBytes L k.2)

/-- Record `n` of the index. -/
def V7Rec (L : Nat) (f : Data) (size n : Nat) (r : Data) : Prop := r.length = size ∧ n * size < 2 ^ (8 * L - 1) ∧ Found7 f (n * size) r

/-- The entries below record `n`. What is below a key is not before it, and is before the following keys. -/
inductive V7Below (L : Nat) (f : Data) (size : Nat) : Nat → List (Node4D × UInt32) → Prop
  | leaf (n : Nat) (r : Data) (es : List (Node4D × UInt32)) : V7Rec L f size n r → V7LeafRec L r es → es.Pairwise (fun a b => AddrBefore a.1 b.1) →
      (∀ e ∈ es, e.1.zone ≠ 0) → V7Below L f size n es
  | index (n : Nat) (r : Data) (first : Nat) (ks : List (Node4D × Nat)) (es0 : List (Node4D × UInt32)) (ess : List (List (Node4D × UInt32))) :
      V7Rec L f size n r → V7IndexRec L r first ks → ess.length = ks.length → (∀ k ∈ ks, k.1.zone ≠ 0) →
      V7Below L f size first es0 → (∀ (i : Nat) (k : Node4D × Nat) (es : List (Node4D × UInt32)), ks[i]? = some k → ess[i]? = some es → V7Below L f size k.2 es) →
      (∀ e ∈ es0, ∀ k ∈ ks, AddrBefore e.1 k.1) →
      (∀ (i : Nat) (es : List (Node4D × UInt32)) (e : Node4D × UInt32) (j : Nat) (k : Node4D × Nat), ess[i]? = some es → e ∈ es → ks[j]? = some k → (i < j ↔ AddrBefore e.1 k.1)) →
      V7Below L f size n (es0 ++ ess.flatten)

/-- An index with these entries: the size of its records and the number of the uppermost are at its beginning. -/
structure V7Index (L : Nat) (f : Data) (es : List (Node4D × UInt32)) : Prop where
  ex : ∃ size root, size ≤ 512 ∧ root < 2 ^ (8 * L - 1) ∧ f.take (2 + L) = leBytes 2 size ++ leBytes L root ∧ 2 + 7 * L ≤ f.length ∧ V7Below L f size root es

/-! ## Data -/

/-- The alphabet of packed text. -/
def v7Alphabet : Str := b!" EANROSTILCHBDMUGPKYWFVJXZQ-'0123456789"

/-- Three characters are packed into two bytes. -/
inductive V7Packed : Data → Str → Prop
  | nil : V7Packed [] []
  | cons (lo hi : UInt8) (p : Data) (x y z : UInt8) (s : Str) (i j k : Nat) : v7Alphabet[i]? = some x → v7Alphabet[j]? = some y → v7Alphabet[k]? = some z →
      lo.toNat + 256 * hi.toNat = 1600 * i + 40 * j + k → V7Packed p s → V7Packed (lo :: hi :: p) (x :: y :: z :: s)

/-- A hexadecimal digit, in capitals. -/
def hexCap (n : Nat) : UInt8 := (b!"0123456789ABCDEF").getD n 0

/-- A number in `w` hexadecimal digits. -/
def hexCaps : Nat → Nat → Str
  | 0, _ => []
  | w + 1, n => hexCaps w (n / 16) ++ [hexCap (n % 16)]

/-- What the data file has at `off`, and the file of hubs and regions where it says: after a header with the lengths (22 bytes) are the telephone number, the password and packed text, which has names, and after them the position of region and hub. -/
structure V7Data (dat dtp : Data) (off : Nat) (hub region : Nat) (h phone pass pack : Data) : Prop where
  header : h.length = 22
  lens : h[15]? = some (UInt8.ofNat phone.length) ∧ h[16]? = some (UInt8.ofNat pass.length) ∧ h[20]? = some (UInt8.ofNat pack.length)
  short : phone.length < 256 ∧ pass.length < 256 ∧ pack.length < 256
  there : Found7 dat off (h ++ (phone ++ (pass ++ pack)))
  text : ∃ names rest pos, pos < 2 ^ 32 ∧ V7Packed pack (names ++ (hexCaps 8 pos ++ rest)) ∧ names.length = (h.getD 17 0).toNat + (h.getD 18 0).toNat + (h.getD 19 0).toNat ∧
    Found7 dtp pos (leBytes 2 region ++ leBytes 2 hub)
  small : hub < 65536 ∧ region < 65536

/-- Every byte is a `char` that is not negative. -/
def PlainChars (A : V7Arch) (d : Data) : Prop := ∀ c ∈ d, A.signedChar = true → c < 128

end CM
