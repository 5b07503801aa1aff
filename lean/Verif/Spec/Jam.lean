import Verif.Model.Jam
/-! # JAM message bases, from outside

The layout of the files, taken from the JAM specification: numbers are stored with the least significant
byte first, at fixed places of records of fixed size. -/

namespace CM

/-- The number that some bytes stand for, least significant byte first. -/
def leVal : List UInt8 → Nat
  | [] => 0
  | b :: r => b.toNat + 256 * leVal r

/-- The `n` bytes at `off` are there and stand for `v`. -/
def NumAt (d : Data) (off n v : Nat) : Prop := off + n ≤ d.length ∧ leVal ((d.drop off).take n) = v

/-- The header of a base: 1024 bytes. -/
structure BaseLayout (d : Data) (h : JamBaseHdr) : Prop where
  size : d.length = 1024
  sig : NumAt d 0 4 h.sig.toNat
  created : NumAt d 4 4 h.created.toNat
  modCounter : NumAt d 8 4 h.modCounter.toNat
  active : NumAt d 12 4 h.active.toNat
  pwCrc : NumAt d 16 4 h.pwCrc.toNat
  baseNum : NumAt d 20 4 h.baseNum.toNat
  reserved : (d.drop 24).take 1000 = h.reserved

/-- The header of a message: 76 bytes. -/
structure HdrLayout (d : Data) (h : JamHdr) : Prop where
  size : d.length = 76
  sig : NumAt d 0 4 h.sig.toNat
  revision : NumAt d 4 2 h.revision.toNat
  reserved : NumAt d 6 2 h.reserved.toNat
  subLen : NumAt d 8 4 h.subLen.toNat
  timesRead : NumAt d 12 4 h.timesRead.toNat
  msgIdCrc : NumAt d 16 4 h.msgIdCrc.toNat
  replyCrc : NumAt d 20 4 h.replyCrc.toNat
  replyTo : NumAt d 24 4 h.replyTo.toNat
  reply1st : NumAt d 28 4 h.reply1st.toNat
  replyNext : NumAt d 32 4 h.replyNext.toNat
  dateWritten : NumAt d 36 4 h.dateWritten.toNat
  dateReceived : NumAt d 40 4 h.dateReceived.toNat
  dateProcessed : NumAt d 44 4 h.dateProcessed.toNat
  msgNum : NumAt d 48 4 h.msgNum.toNat
  attr : NumAt d 52 4 h.attr.toNat
  attr2 : NumAt d 56 4 h.attr2.toNat
  txtOffset : NumAt d 60 4 h.txtOffset.toNat
  txtLen : NumAt d 64 4 h.txtLen.toNat
  pwCrc : NumAt d 68 4 h.pwCrc.toNat
  cost : NumAt d 72 4 h.cost.toNat

/-- An index record: 8 bytes. -/
structure IdxLayout (d : Data) (h : JamIdx) : Prop where
  size : d.length = 8
  userCrc : NumAt d 0 4 h.userCrc.toNat
  hdrOffset : NumAt d 4 4 h.hdrOffset.toNat

/-- A last-read record: 16 bytes. -/
structure LastLayout (d : Data) (h : JamLast) : Prop where
  size : d.length = 16
  userCrc : NumAt d 0 4 h.userCrc.toNat
  userId : NumAt d 4 4 h.userId.toNat
  lastRead : NumAt d 8 4 h.lastRead.toNat
  highRead : NumAt d 12 4 h.highRead.toNat

/-- Subfields: each has a number in two halves and a length (8 bytes), and its data. -/
def SubsLayout : Data → List JamSub → Prop
  | d, [] => d = []
  | d, s :: t => ∃ hd rest, d = hd ++ s.data ++ rest ∧ hd.length = 8 ∧ NumAt hd 0 2 s.loId.toNat ∧
    NumAt hd 2 2 s.hiId.toNat ∧ NumAt hd 4 4 s.data.length ∧ SubsLayout rest t

/-- A message of a base. -/
structure JamMsg where
  hdr : JamHdr
  subs : List JamSub
  text : Data
  deriving DecidableEq, Repr

/-- How many bytes subfields take. -/
def subBytes (subs : List JamSub) : Nat := (subs.map (fun s => 8 + s.data.length)).sum

/-- How many bytes a message takes in the header file. -/
def JamMsg.size (m : JamMsg) : Nat := 76 + subBytes m.subs

/-- A message that is marked as deleted: the highest bit of its attributes is set. -/
def JamMsg.dead (m : JamMsg) : Bool := 2 ^ 31 ≤ m.hdr.attr.toNat

/-- The number of messages that are there and not marked as deleted. -/
def jamActive (ms : List (Option JamMsg)) : Nat := (ms.filter (fun o => o.any (fun m => !m.dead))).length

/-- Message `m` is stored at `off` of the header file. -/
structure MsgAt (b : JamBase) (off : Nat) (m : JamMsg) : Prop where
  lo : 1024 ≤ off
  hi : off + m.size ≤ b.hdr.length
  small : off < 2 ^ 32 - 1
  hdr : HdrLayout ((b.hdr.drop off).take 76) m.hdr
  subs : SubsLayout ((b.hdr.drop (off + 76)).take (subBytes m.subs)) m.subs
  subLen : m.hdr.subLen.toNat = subBytes m.subs
  subMax : subBytes m.subs < 2 ^ 31
  txtLen : m.hdr.txtLen.toNat = m.text.length
  text : m.text = [] ∨ m.hdr.txtOffset.toNat + m.text.length ≤ b.txt.length ∧ (b.txt.drop m.hdr.txtOffset.toNat).take m.text.length = m.text

/-- The base holds exactly the messages `ms` (`none`: a number without a message), the first of which
has the number `start`; message `i` is stored at `off i`. -/
structure HoldsAt (b : JamBase) (start : UInt32) (ms : List (Option JamMsg)) (off : Nat → Nat) : Prop where
  base : ∃ h, BaseLayout (b.hdr.take 1024) h ∧ h.baseNum = start ∧ h.active.toNat = jamActive ms
  len : b.idx.length = 8 * ms.length
  few : ms.length < 2 ^ 32
  gone : ∀ i, ms[i]? = some none → NumAt b.idx (8 * i) 4 (2 ^ 32 - 1) ∧ NumAt b.idx (8 * i + 4) 4 (2 ^ 32 - 1)
  there : ∀ i m, ms[i]? = some (some m) → NumAt b.idx (8 * i + 4) 4 (off i) ∧ MsgAt b (off i) m
  apart : ∀ i j m m', i ≠ j → ms[i]? = some (some m) → ms[j]? = some (some m') →
    off i + m.size ≤ off j ∨ off j + m'.size ≤ off i

/-- The base holds exactly the messages `ms`. -/
def JamHolds (b : JamBase) (start : UInt32) (ms : List (Option JamMsg)) : Prop := ∃ off, HoldsAt b start ms off

/-- Reading a message: the header with the subfields, and the text the header refers to. -/
def jamGet (b : JamBase) (n : UInt32) : Except UB (Except JamErr JamMsg) := do
  match ← jamReadHdr b n with
  | .error r => return .error r
  | .ok (h, subs) =>
    match jamReadText b h.txtOffset h.txtLen with
    | .error r => return .error r
    | .ok text => return .ok { hdr := h, subs, text }

/-- The recipients (subfield 3) can be put into the index: the names have at most 100 characters; and
where `char` is signed, there are none. -/
def CanIndex (e : JamEnv) (subs : List JamSub) : Prop :=
  ∀ s ∈ subs, s.loId = 3 → s.data.length ≤ 100 ∧ (e.signedChar = true → s.data = [])

/-- What a message looks like once it has been added as number `start + n`: the library sets some fields of
the header, everything else is as it was given. -/
structure AddedMsg (start : UInt32) (n : Nat) (h : JamHdr) (subs : List JamSub) (text : Data) (m : JamMsg) : Prop where
  hdr : m.hdr = { h with sig := m.hdr.sig, revision := 1, subLen := m.hdr.subLen, msgNum := m.hdr.msgNum, txtOffset := m.hdr.txtOffset, txtLen := m.hdr.txtLen }
  sig : le32 m.hdr.sig = b!"JAM" ++ [0]
  num : m.hdr.msgNum = start + UInt32.ofNat n
  subLen : m.hdr.subLen.toNat = subBytes subs
  txtLen : m.hdr.txtLen.toNat = text.length
  subs : m.subs = subs
  text : m.text = text

/-- What a user of the library can do with a base. -/
inductive JamOp where
  | add (h : JamHdr) (subs : List JamSub) (text : Data)
  | empty
  | delete (n : UInt32)

/-- What it means: the messages before and after. -/
inductive JamNext (start : UInt32) : List (Option JamMsg) → JamOp → List (Option JamMsg) → Prop
  | add {ms h subs text m} : AddedMsg start ms.length h subs text m → JamNext start ms (.add h subs text) (ms ++ [some m])
  | empty {ms} : JamNext start ms .empty (ms ++ [none])
  | delete {ms n m} : ms[n.toNat]? = some (some m) → JamNext start ms (.delete n) (ms.set n.toNat none)
  | deleteNone {ms n} : (∀ m, ms[n.toNat]? ≠ some (some m)) → JamNext start ms (.delete n) ms

/-- What a sequence of operations means. -/
inductive JamAll (start : UInt32) : List (Option JamMsg) → List JamOp → List (Option JamMsg) → Prop
  | nil {ms} : JamAll start ms [] ms
  | cons {ms ms' ms'' op ops} : JamNext start ms op ms' → JamAll start ms' ops ms'' → JamAll start ms (op :: ops) ms''

/-- An operation of the library. -/
def jamDo (e : JamEnv) (b : JamBase) : JamOp → Except UB (Except JamErr JamBase)
  | .add h subs text => do
    match ← jamAdd e b h subs text with
    | .error r => return .error r
    | .ok r => return .ok r.1
  | .empty => .ok (jamAddEmpty e b)
  | .delete n => .ok (jamDelete e b n)

/-- A sequence of operations; one that fails changes nothing. -/
def jamRun (e : JamEnv) (b : JamBase) : List JamOp → Except UB JamBase
  | [] => .ok b
  | op :: ops => do
    match ← jamDo e b op with
    | .error _ => jamRun e b ops
    | .ok b' => jamRun e b' ops

/-- The space an operation needs in the header file, and in the text file. -/
def JamOp.hdrSize : JamOp → Nat
  | .add _ subs _ => 76 + subBytes subs
  | _ => 0

def JamOp.txtSize : JamOp → Nat
  | .add _ _ text => text.length
  | _ => 0

/-- The recipients of the message, if one is added, can be put into the index. -/
def JamOp.CanIndex (e : JamEnv) : JamOp → Prop
  | .add _ subs _ => CM.CanIndex e subs ∧ subBytes subs < 2 ^ 31
  | _ => True

/-- The base and what is to be added stay below 4 GB. -/
def JamRoom (b : JamBase) (ms : List (Option JamMsg)) (ops : List JamOp) : Prop :=
  b.hdr.length + (ops.map (·.hdrSize)).sum < 2 ^ 32 ∧ b.txt.length + (ops.map (·.txtSize)).sum < 2 ^ 32 ∧ ms.length + ops.length < 2 ^ 32

/-- The CRC-32 of the JAM specification, bit by bit: polynomial `edb88320` (reflected), all bits set at first and not
inverted at the end. -/
def jcrcBit (c : UInt32) : UInt32 := if c &&& 1 = 1 then (c >>> 1) ^^^ 0xedb88320 else c >>> 1

def jcrcByte (c : UInt32) (x : UInt8) : UInt32 :=
  jcrcBit (jcrcBit (jcrcBit (jcrcBit (jcrcBit (jcrcBit (jcrcBit (jcrcBit (c ^^^ x.toUInt32))))))))

def jcrcOf (s : Data) : UInt32 := s.foldl jcrcByte 0xffffffff

end CM
