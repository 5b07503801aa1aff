import Verif.Model.File
import Verif.Model.Bytes
import Verif.Model.Node4D
/-! # Model of the nodelist index (`tools/crashlist.c`, `cmnllib/cmnllib.c`, `crashmail/nl_cmnl.c`) -/

namespace CM

/-- `struct idx` (`crashlist.c` 33-37, `cmnllib.c` 12-16). -/
structure NlIdx where
  zone : UInt16 := 0
  net : UInt16 := 0
  node : UInt16 := 0
  point : UInt16 := 0
  region : UInt16 := 0
  hub : UInt16 := 0
  offset : UInt32 := 0
  deriving DecidableEq, Repr

/-- `WriteIdx` (`crashlist.c` 55-68). -/
def idxBytes (i : NlIdx) : List UInt8 :=
  le16 i.zone ++ le16 i.net ++ le16 i.node ++ le16 i.point ++ le16 i.region ++ le16 i.hub ++ le32 i.offset

/-- `strnicmp(buf,"...",n)==0` with `n` the length of the literal. -/
def isKey (buf key : Str) : Bool := eqin buf key key.length

/-- `atoi(&buf[k])` stored in a `uint16_t`. -/
def numAt (buf : Str) (k : Nat) : UInt16 := UInt16.ofInt (atoi (buf.drop k))

/-- The body of the loop of `ProcessList` (`crashlist.c` 176-239): the new `idx` and the records
written. -/
def nlLine (i : NlIdx) (buf : Str) : NlIdx × List NlIdx :=
  let s := (i, ([] : List NlIdx))
  let s := if isKey buf b!"Zone," then
      let z := numAt buf 5
      let i := { s.1 with zone := z, region := 0, net := z, hub := 0, node := 0, point := 0 }
      (i, s.2 ++ [i]) else s
  let s := if isKey buf b!"Region," then
      let r := numAt buf 7
      let i := { s.1 with region := r, net := r, hub := 0, node := 0, point := 0 }
      (i, s.2 ++ [i]) else s
  let s := if isKey buf b!"Host," then
      let i := { s.1 with net := numAt buf 5, hub := 0, node := 0, point := 0 }
      (i, s.2 ++ [i]) else s
  let s := if isKey buf b!"Hub," then
      let h := numAt buf 4
      let i := { s.1 with hub := h, node := h, point := 0 }
      (i, s.2 ++ [i]) else s
  let s := if isKey buf b!"Pvt," then
      let i := { s.1 with node := numAt buf 4, point := 0 }
      (i, s.2 ++ [i]) else s
  let s := if isKey buf b!"Hold," then
      let i := { s.1 with node := numAt buf 5, point := 0 }
      (i, s.2 ++ [i]) else s
  let s := if isKey buf b!"," then
      let i := { s.1 with node := numAt buf 1, point := 0 }
      (i, s.2 ++ [i]) else s
  if isKey buf b!"Point," then
    let i := { s.1 with point := numAt buf 6 }
    (i, s.2 ++ [i]) else s

/-- The loop `crashlist.c` 174-242. `size` is the length of the whole file, so `osFTell` is `size`
minus what is left. The first argument bounds the number of lines (the length of the file does). -/
def nlLines : Nat → Nat → NlIdx → List UInt8 → List NlIdx
  | 0, _, _, _ => []
  | n + 1, size, i, f =>
    match osFGets 500 f with
    | none => []
    | some (s, r) =>
      if s = [] then []
      else
        let p := nlLine i s
        p.2 ++ nlLines n size { p.1 with offset := UInt32.ofNat (size - r.length) } r

/-- The last record of a list (`crashlist.c` 244-252). -/
def nlEnd : NlIdx := { offset := 0xffffffff }

/-- One nodelist: its file name, what was behind the name in the buffer, the default zone and the
contents. -/
structure NlFile where
  name : Str
  stale : List UInt8
  zone : UInt16
  content : List UInt8

/-- `ProcessList` (`crashlist.c` 143-253) for a list that is found and can be opened. Writing 100 bytes
of the buffer that starts with the file name. Write errors are not noticed. -/
def processList (f : NlFile) : List UInt8 :=
  (f.name ++ 0 :: f.stale).take 100 ++
    (nlLines (f.content.length + 1) f.content.length { zone := f.zone } f.content).flatMap idxBytes ++ idxBytes nlEnd

/-- The index file (`crashlist.c` 311-329). -/
def crashList (fs : List NlFile) : List UInt8 := b!"CNL1" ++ fs.flatMap processList

/-- A record of 16 bytes taken apart (`cmnllib.c` 106-112). -/
def parseIdx : List UInt8 → NlIdx
  | [a, b, c, d, e, f, g, h, i, j, k, l, m, n, o, p] =>
    ⟨rd16 a b, rd16 c d, rd16 e f, rd16 g h, rd16 i j, rd16 k l, rd32 m n o p⟩
  | _ => {}

/-- The comparison `cmnllib.c` 114-119. -/
def idxIs (n : Node4D) (i : NlIdx) : Bool :=
  n.zone == i.zone && n.net == i.net && n.node == i.node && n.point == i.point

/-- How the inner loop of `cmnlFindNL` ends. -/
inductive NlScan where
  | found (i : NlIdx)
  | listEnd (rest : List UInt8)
  | eof
  deriving DecidableEq

/-- The inner loop `cmnllib.c` 97-120 (`fuel`: the length of the file suffices). -/
def nlScan : Nat → Node4D → List UInt8 → NlScan
  | 0, _, _ => .eof
  | n + 1, node, f =>
    if f.length < 16 then .eof
    else
      let i := parseIdx (f.take 16)
      if idxIs node i then .found i
      else if i.offset = 0xffffffff then .listEnd (f.drop 16)
      else nlScan n node (f.drop 16)

/-- Results of `cmnlFindNL`. -/
inductive NlResult where
  | found (name : List UInt8) (i : NlIdx)
  | notFound
  | unexpectedEof
  deriving DecidableEq

/-- The outer loop `cmnllib.c` 87-121. -/
def nlSearch : Nat → Node4D → List UInt8 → NlResult
  | 0, _, _ => .notFound
  | n + 1, node, f =>
    if f.length < 100 then .notFound
    else match nlScan f.length node (f.drop 100) with
      | .found i => .found (f.take 100) i
      | .eof => .unexpectedEof
      | .listEnd r => nlSearch n node r

/-- `cmnlFindNL` (`cmnllib.c` 74-129) on an index that `cmnlOpenNL` has accepted. The name of the list
is the buffer of 100 bytes. -/
def findNL (index : List UInt8) (node : Node4D) : NlResult :=
  nlSearch (index.length + 1) node (index.drop 4)

/-- `cmnlOpenNL` (`cmnllib.c` 43-67): is the file accepted? -/
def openNL (index : List UInt8) : Bool := index.take 4 == b!"CNL1"

/-- `cmnlFindNL` with a buffer for the line (`cmnllib.c` 131-143): the line at the position found in
the nodelist. `lists` gives the contents of the file with that name. -/
def findNLLine (lists : Str → Option (List UInt8)) (index : List UInt8) (node : Node4D) (len : Nat) : Option Str :=
  match findNL index node with
  | .found name i => match lists (cstr name) with
    | none => none
    | some f => (osFGets len (f.drop i.offset.toNat)).map (·.1)
  | _ => none

/-- `cmnl_nlCheckNode` (`nl_cmnl.c` 22-35). -/
def nlCheckNode (index : List UInt8) (node : Node4D) : Bool :=
  match findNL index node with
  | .found _ _ => true
  | _ => false

/-- `cmnl_nlGetHub` (`nl_cmnl.c` 37-50). -/
def nlGetHub (index : List UInt8) (node : Node4D) : Int :=
  match findNL index node with
  | .found _ i => i.hub.toNat
  | _ => -1

/-- `cmnl_nlGetRegion` (`nl_cmnl.c` 52-65). -/
def nlGetRegion (index : List UInt8) (node : Node4D) : Int :=
  match findNL index node with
  | .found _ i => i.region.toNat
  | _ => -1

end CM
