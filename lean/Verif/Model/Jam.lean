import Verif.Model.Bytes
import Verif.Model.Disk
/-! # JAM message bases (`jamlib`)

A base is four files: `.jhr` with the headers, `.jdt` with the texts, `.jdx` with an index and `.jlr` with
the last-read pointers. The functions are those of `structrw.c`, `crc32.c`, `subpack.c`, `mbase.c` and `message.c`.

Simplifications: the files are open and can be read and written, so an operation fails only when the
file is too short for what is to be read (all writes come after the reads that can fail, so a failing operation
changes nothing); there is always enough memory, except for requests of 2 GB and more; `long` has 64 bits;
null arguments are not modelled. -/

namespace CM

/-! ## Structures -/

/-- Bytes written at an offset of a buffer (`jamputuword`, `jamputuint32_t` and `memcpy`, `structrw.c` 35-43). -/
def puts (buf : Data) (ws : List (Nat × Data)) : Data := ws.foldl (fun b w => overlay b w.1 w.2) buf

/-- `jamgetuword` (`structrw.c` 30-33); the buffer is large enough in all uses. -/
def get16 (b : Data) (off : Nat) : UInt16 := match b.drop off with
  | x :: y :: _ => rd16 x y
  | _ => 0

/-- `jamgetuint32_t` (`structrw.c` 45-48). -/
def get32 (b : Data) (off : Nat) : UInt32 := rd32L (b.drop off)

/-- `s_JamBaseHeader` (`jam.h`). The signature, `char[4]`, is held as a number. -/
structure JamBaseHdr where
  sig : UInt32
  created : UInt32
  modCounter : UInt32
  active : UInt32
  pwCrc : UInt32
  baseNum : UInt32
  /-- 1000 bytes -/
  reserved : Data
  deriving DecidableEq, Repr

/-- `s_JamMsgHeader` (`jam.h`). The signature, `char[4]`, is held as a number. -/
structure JamHdr where
  sig : UInt32
  revision : UInt16
  reserved : UInt16
  subLen : UInt32
  timesRead : UInt32
  msgIdCrc : UInt32
  replyCrc : UInt32
  replyTo : UInt32
  reply1st : UInt32
  replyNext : UInt32
  dateWritten : UInt32
  dateReceived : UInt32
  dateProcessed : UInt32
  msgNum : UInt32
  attr : UInt32
  attr2 : UInt32
  txtOffset : UInt32
  txtLen : UInt32
  pwCrc : UInt32
  cost : UInt32
  deriving DecidableEq, Repr

/-- `s_JamIndex` (`jam.h`). -/
structure JamIdx where
  userCrc : UInt32
  hdrOffset : UInt32
  deriving DecidableEq, Repr

/-- `s_JamLastRead` (`jam.h`). -/
structure JamLast where
  userCrc : UInt32
  userId : UInt32
  lastRead : UInt32
  highRead : UInt32
  deriving DecidableEq, Repr

/-- `s_JamSubfield` (`jam.h`): `DatLen` is the length of `data`. -/
structure JamSub where
  loId : UInt16
  hiId : UInt16
  data : Data
  deriving DecidableEq, Repr

/-- `freadjambaseheader` (`structrw.c` 50-68) after the 1024 bytes have been read. -/
def JamBaseHdr.ofBytes (b : Data) : JamBaseHdr :=
  { sig := get32 b 0, created := get32 b 4, modCounter := get32 b 8, active := get32 b 12, pwCrc := get32 b 16,
    baseNum := get32 b 20, reserved := (b.drop 24).take 1000 }

/-- `fwritejambaseheader` (`structrw.c` 70-88): what is written. `junk` is what the buffer on the stack held. -/
def JamBaseHdr.bytes (junk : Data) (h : JamBaseHdr) : Data :=
  puts junk [(0, le32 h.sig), (4, le32 h.created), (8, le32 h.modCounter), (12, le32 h.active), (16, le32 h.pwCrc),
    (20, le32 h.baseNum), (24, h.reserved)]

/-- `freadjammsgheader` (`structrw.c` 90-120) after the 76 bytes have been read. -/
def JamHdr.ofBytes (b : Data) : JamHdr :=
  { sig := get32 b 0, revision := get16 b 4, reserved := get16 b 6, subLen := get32 b 8, timesRead := get32 b 12,
    msgIdCrc := get32 b 16, replyCrc := get32 b 20, replyTo := get32 b 24, reply1st := get32 b 28,
    replyNext := get32 b 32, dateWritten := get32 b 36, dateReceived := get32 b 40, dateProcessed := get32 b 44,
    msgNum := get32 b 48, attr := get32 b 52, attr2 := get32 b 56, txtOffset := get32 b 60,
    txtLen := get32 b 64, pwCrc := get32 b 68, cost := get32 b 72 }

/-- `fwritejammsgheader` (`structrw.c` 122-152). -/
def JamHdr.bytes (junk : Data) (h : JamHdr) : Data :=
  puts junk [(0, le32 h.sig), (4, le16 h.revision), (6, le16 h.reserved), (8, le32 h.subLen), (12, le32 h.timesRead),
    (16, le32 h.msgIdCrc), (20, le32 h.replyCrc), (24, le32 h.replyTo), (28, le32 h.reply1st), (32, le32 h.replyNext),
    (36, le32 h.dateWritten), (40, le32 h.dateReceived), (44, le32 h.dateProcessed), (48, le32 h.msgNum),
    (52, le32 h.attr), (56, le32 h.attr2), (60, le32 h.txtOffset), (64, le32 h.txtLen), (68, le32 h.pwCrc),
    (72, le32 h.cost)]

/-- `freadjamindex` (`structrw.c` 154-165) after the 8 bytes have been read. -/
def JamIdx.ofBytes (b : Data) : JamIdx := { userCrc := get32 b 0, hdrOffset := get32 b 4 }

/-- `fwritejamindex` (`structrw.c` 167-178). -/
def JamIdx.bytes (junk : Data) (i : JamIdx) : Data := puts junk [(0, le32 i.userCrc), (4, le32 i.hdrOffset)]

/-- `freadjamlastread` (`structrw.c` 180-193) after the 16 bytes have been read. -/
def JamLast.ofBytes (b : Data) : JamLast :=
  { userCrc := get32 b 0, userId := get32 b 4, lastRead := get32 b 8, highRead := get32 b 12 }

/-- `fwritejamlastread` (`structrw.c` 195-208). -/
def JamLast.bytes (junk : Data) (l : JamLast) : Data :=
  puts junk [(0, le32 l.userCrc), (4, le32 l.userId), (8, le32 l.lastRead), (12, le32 l.highRead)]

/-- `fwritejamsavesubfield` (`structrw.c` 210-222) and the data (`message.c` 402-415). The buffer has 16 bytes,
of which the first 8 are written to the file. -/
def JamSub.bytes (junk : Data) (s : JamSub) : Data :=
  (puts junk [(0, le16 s.loId), (2, le16 s.hiId), (4, le32 (UInt32.ofNat s.data.length))]).take 8 ++ s.data

/-! ## Checksum -/

/-- `crc32tab` (`crc32.c` 26-59). -/
def crc32tab : List UInt32 := [
  0x00000000, 0x77073096, 0xee0e612c, 0x990951ba, 0x076dc419, 0x706af48f, 0xe963a535, 0x9e6495a3,
  0x0edb8832, 0x79dcb8a4, 0xe0d5e91e, 0x97d2d988, 0x09b64c2b, 0x7eb17cbd, 0xe7b82d07, 0x90bf1d91,
  0x1db71064, 0x6ab020f2, 0xf3b97148, 0x84be41de, 0x1adad47d, 0x6ddde4eb, 0xf4d4b551, 0x83d385c7,
  0x136c9856, 0x646ba8c0, 0xfd62f97a, 0x8a65c9ec, 0x14015c4f, 0x63066cd9, 0xfa0f3d63, 0x8d080df5,
  0x3b6e20c8, 0x4c69105e, 0xd56041e4, 0xa2677172, 0x3c03e4d1, 0x4b04d447, 0xd20d85fd, 0xa50ab56b,
  0x35b5a8fa, 0x42b2986c, 0xdbbbc9d6, 0xacbcf940, 0x32d86ce3, 0x45df5c75, 0xdcd60dcf, 0xabd13d59,
  0x26d930ac, 0x51de003a, 0xc8d75180, 0xbfd06116, 0x21b4f4b5, 0x56b3c423, 0xcfba9599, 0xb8bda50f,
  0x2802b89e, 0x5f058808, 0xc60cd9b2, 0xb10be924, 0x2f6f7c87, 0x58684c11, 0xc1611dab, 0xb6662d3d,
  0x76dc4190, 0x01db7106, 0x98d220bc, 0xefd5102a, 0x71b18589, 0x06b6b51f, 0x9fbfe4a5, 0xe8b8d433,
  0x7807c9a2, 0x0f00f934, 0x9609a88e, 0xe10e9818, 0x7f6a0dbb, 0x086d3d2d, 0x91646c97, 0xe6635c01,
  0x6b6b51f4, 0x1c6c6162, 0x856530d8, 0xf262004e, 0x6c0695ed, 0x1b01a57b, 0x8208f4c1, 0xf50fc457,
  0x65b0d9c6, 0x12b7e950, 0x8bbeb8ea, 0xfcb9887c, 0x62dd1ddf, 0x15da2d49, 0x8cd37cf3, 0xfbd44c65,
  0x4db26158, 0x3ab551ce, 0xa3bc0074, 0xd4bb30e2, 0x4adfa541, 0x3dd895d7, 0xa4d1c46d, 0xd3d6f4fb,
  0x4369e96a, 0x346ed9fc, 0xad678846, 0xda60b8d0, 0x44042d73, 0x33031de5, 0xaa0a4c5f, 0xdd0d7cc9,
  0x5005713c, 0x270241aa, 0xbe0b1010, 0xc90c2086, 0x5768b525, 0x206f85b3, 0xb966d409, 0xce61e49f,
  0x5edef90e, 0x29d9c998, 0xb0d09822, 0xc7d7a8b4, 0x59b33d17, 0x2eb40d81, 0xb7bd5c3b, 0xc0ba6cad,
  0xedb88320, 0x9abfb3b6, 0x03b6e20c, 0x74b1d29a, 0xead54739, 0x9dd277af, 0x04db2615, 0x73dc1683,
  0xe3630b12, 0x94643b84, 0x0d6d6a3e, 0x7a6a5aa8, 0xe40ecf0b, 0x9309ff9d, 0x0a00ae27, 0x7d079eb1,
  0xf00f9344, 0x8708a3d2, 0x1e01f268, 0x6906c2fe, 0xf762575d, 0x806567cb, 0x196c3671, 0x6e6b06e7,
  0xfed41b76, 0x89d32be0, 0x10da7a5a, 0x67dd4acc, 0xf9b9df6f, 0x8ebeeff9, 0x17b7be43, 0x60b08ed5,
  0xd6d6a3e8, 0xa1d1937e, 0x38d8c2c4, 0x4fdff252, 0xd1bb67f1, 0xa6bc5767, 0x3fb506dd, 0x48b2364b,
  0xd80d2bda, 0xaf0a1b4c, 0x36034af6, 0x41047a60, 0xdf60efc3, 0xa867df55, 0x316e8eef, 0x4669be79,
  0xcb61b38c, 0xbc66831a, 0x256fd2a0, 0x5268e236, 0xcc0c7795, 0xbb0b4703, 0x220216b9, 0x5505262f,
  0xc5ba3bbe, 0xb2bd0b28, 0x2bb45a92, 0x5cb36a04, 0xc2d7ffa7, 0xb5d0cf31, 0x2cd99e8b, 0x5bdeae1d,
  0x9b64c2b0, 0xec63f226, 0x756aa39c, 0x026d930a, 0x9c0906a9, 0xeb0e363f, 0x72076785, 0x05005713,
  0x95bf4a82, 0xe2b87a14, 0x7bb12bae, 0x0cb61b38, 0x92d28e9b, 0xe5d5be0d, 0x7cdcefb7, 0x0bdbdf21,
  0x86d3d2d4, 0xf1d4e242, 0x68ddb3f8, 0x1fda836e, 0x81be16cd, 0xf6b9265b, 0x6fb077e1, 0x18b74777,
  0x88085ae6, 0xff0f6a70, 0x66063bca, 0x11010b5c, 0x8f659eff, 0xf862ae69, 0x616bffd3, 0x166ccf45,
  0xa00ae278, 0xd70dd2ee, 0x4e048354, 0x3903b3c2, 0xa7672661, 0xd06016f7, 0x4969474d, 0x3e6e77db,
  0xaed16a4a, 0xd9d65adc, 0x40df0b66, 0x37d83bf0, 0xa9bcae53, 0xdebb9ec5, 0x47b2cf7f, 0x30b5ffe9,
  0xbdbdf21c, 0xcabac28a, 0x53b39330, 0x24b4a3a6, 0xbad03605, 0xcdd70693, 0x54de5729, 0x23d967bf,
  0xb3667a2e, 0xc4614ab8, 0x5d681b02, 0x2a6f2b94, 0xb40bbe37, 0xc30c8ea1, 0x5a05df1b, 0x2d02ef8d]

/-- `^` of two `int`s that come from `char`s, which are signed (`sc`) or not: bits 0 to 7 are those of the bytes, all bits above are
equal, and set if exactly one of the operands is negative. -/
def charXor (sc : Bool) (a b : UInt8) : Int :=
  if sc && ((128 ≤ a) != (128 ≤ b)) then ((a ^^^ b).toNat : Int) - 256 else (a ^^^ b).toNat

/-- `JAM_Crc32` (`crc32.c` 67-78): the table is indexed with `(char)Crc_I ^ tolower(Buffer_PC[c])`, which is negative
for some values if `char` is signed. `tolower` is that of the C locale. -/
def jamCrc32 (sc : Bool) (s : Data) (crc : UInt32 := 0xffffffff) : Except UB UInt32 :=
  match s with
  | [] => .ok crc
  | c :: s =>
    match charXor sc crc.toUInt8 (lower c) with
    | .ofNat i => match crc32tab[i]? with
      | some t => jamCrc32 sc s ((crc >>> 8) ^^^ t)
      | none => .error .oobRead
    | .negSucc _ => .error .oobRead

/-! ## Message bases -/

/-- An open message base (`s_JamBase`): contents of its files, and whether it is locked. -/
structure JamBase where
  hdr : Data
  txt : Data
  idx : Data
  lrd : Data
  locked : Bool
  deriving DecidableEq, Repr

/-- Error results of the library (`jam.h`). -/
inductive JamErr where
  | io
  | notLocked
  | noMessage
  | corrupt
  | noMemory
  deriving DecidableEq, Repr

/-- What a build and a run have that the result must not depend on: whether `char` is signed, and what
uninitialised buffers hold. -/
structure JamEnv where
  signedChar : Bool
  junk : Nat → Data
  /-- the buffers have the size they have -/
  size : ∀ n, (junk n).length = n

/-- `fread` of one item of `n` bytes at a position. -/
def freadAt (f : Data) (pos n : Nat) : Except JamErr Data :=
  if pos + n ≤ f.length then .ok ((f.drop pos).take n) else .error .io

/-- `JAM_ReadMBHeader` (`mbase.c` 347-364). -/
def jamReadBase (b : JamBase) : Except JamErr JamBaseHdr := do
  return .ofBytes (← freadAt b.hdr 0 1024)

/-- The signature `JAM` with a zero byte (`jam.h`, `HEADERSIGNATURE`). -/
def jamSig : UInt32 := 0x004d414a

/-- `JAM_WriteMBHeader` (`mbase.c` 372-398). -/
def jamWriteBase (e : JamEnv) (b : JamBase) (h : JamBaseHdr) : Except JamErr JamBase :=
  if b.locked then .ok { b with hdr := overlay b.hdr 0 (JamBaseHdr.bytes (e.junk 1024) { h with sig := jamSig, modCounter := h.modCounter + 1 }) }
  else .error .notLocked

/-- `JAM_CreateMB` (`mbase.c` 147-193) at the time `now`: the files are truncated. -/
def jamCreate (e : JamEnv) (now baseNum : UInt32) : Except JamErr JamBase := do
  let b ← jamWriteBase e { hdr := [], txt := [], idx := [], lrd := [], locked := true }
    { sig := 0, created := now, modCounter := 0, active := 0, pwCrc := 0xffffffff, baseNum, reserved := List.replicate 1000 0 }
  return { b with locked := false }

/-- `JAM_GetMBSize` (`mbase.c` 263-282). -/
def jamSize (b : JamBase) : UInt32 := UInt32.ofNat (b.idx.length / 8)

/-- Reading an index record (`message.c` 79-90, 228-239, 527-538). -/
def jamReadIdx (b : JamBase) (n : UInt32) : Except JamErr JamIdx := do
  return .ofBytes (← freadAt b.idx (n.toNat * 8) 8)

/-- There is no message (`message.c` 93-96, 541-544). -/
def JamIdx.gone (i : JamIdx) : Bool := i.hdrOffset == 0xffffffff && i.userCrc == 0xffffffff

/-- Cutting out the subfields (`message.c` 138-161): the eight bytes of a subfield header are read
without a check that they are there. -/
def jamParse (buf : Data) : Except UB (Except JamErr (List JamSub)) :=
  if buf = [] then .ok (.ok [])
  else if buf.length < 8 then .error .oobRead
  else
    let len := (get32 buf 4).toNat
    if 8 + len > buf.length then .ok (.error .corrupt)
    else do
      match ← jamParse (buf.drop (8 + len)) with
      | .error r => return .error r
      | .ok subs => return .ok ({ loId := get16 buf 0, hiId := get16 buf 2, data := (buf.drop 8).take len } :: subs)
termination_by buf.length
decreasing_by simp only [List.length_drop]; omega

/-- `JAM_ReadMsgHeader` (`message.c` 68-173) with subfields. `BufSize_I` is an `int`: for 2 GB and more
it is negative and `malloc` fails. -/
def jamReadHdr (b : JamBase) (n : UInt32) : Except UB (Except JamErr (JamHdr × List JamSub)) :=
  match jamReadIdx b n with
  | .error r => .ok (.error r)
  | .ok i =>
    if i.gone then .ok (.error .noMessage)
    else match freadAt b.hdr i.hdrOffset.toNat 76 with
      | .error r => .ok (.error r)
      | .ok d =>
        let h := JamHdr.ofBytes d
        if h.subLen = 0 then .ok (.ok (h, []))
        else if 0x80000000 ≤ h.subLen then .ok (.error .noMemory)
        else match freadAt b.hdr (i.hdrOffset.toNat + 76) h.subLen.toNat with
          | .error r => .ok (.error r)
          | .ok s => do
            match ← jamParse s with
            | .error r => return .error r
            | .ok subs => return .ok (h, subs)

/-- `JAM_ReadMsgText` (`message.c` 180-202). -/
def jamReadText (b : JamBase) (off len : UInt32) : Except JamErr Data :=
  if len = 0 then .ok [] else freadAt b.txt off.toNat len.toNat

/-- `MSG_DELETED` (`jam.h`). -/
def jamDeleted (attr : UInt32) : Bool := attr &&& 0x80000000 != 0

/-- `JAM_ChangeMsgHeader` (`message.c` 209-276). -/
def jamChange (e : JamEnv) (b : JamBase) (n : UInt32) (h : JamHdr) : Except JamErr JamBase :=
  if !b.locked then .error .notLocked
  else match jamReadBase b, jamReadIdx b n with
    | .error r, _ => .error r
    | .ok _, .error r => .error r
    | .ok base, .ok i =>
      match freadAt b.hdr i.hdrOffset.toNat 76 with
      | .error r => .error r
      | .ok d =>
        let old := JamHdr.ofBytes d
        jamWriteBase e { b with hdr := overlay b.hdr i.hdrOffset.toNat (h.bytes (e.junk 76)) }
          { base with active := if jamDeleted h.attr && !jamDeleted old.attr then base.active - 1 else base.active }

/-- The size of the subfields on disk (`message.c` 338-347), as a `uint32_t`. -/
def jamSubSize (subs : List JamSub) : UInt32 := subs.foldl (fun t s => t + (8 + UInt32.ofNat s.data.length)) 0

/-- The name of the recipient for the index (`message.c` 396-397, 417-422): `char User_AC[101]` holds the last
`JAMSFLD_RECVRNAME` (3), whatever its size. -/
def jamUser (subs : List JamSub) (user : Data := []) : Except UB Data :=
  match subs with
  | [] => .ok user
  | s :: t => if s.loId = 3 then (if 100 < s.data.length then .error .oobWrite else jamUser t (cstr s.data)) else jamUser t user

/-- The checksum of the name for the index (`message.c` 424-434). -/
def jamUserCrc (e : JamEnv) (subs : List JamSub) : Except UB UInt32 :=
  match jamUser subs with
  | .error u => .error u
  | .ok [] => .ok 0xffffffff
  | .ok (c :: user) => jamCrc32 e.signedChar (c :: user)

/-- The header of a new message (`message.c` 315-368). -/
def jamNewHdr (b : JamBase) (base : JamBaseHdr) (h : JamHdr) (subs : List JamSub) (text : Data) : JamHdr :=
  { h with
    txtOffset := if text = [] then 0 else UInt32.ofNat b.txt.length, txtLen := UInt32.ofNat text.length, subLen := jamSubSize subs,
    msgNum := UInt32.ofNat (b.idx.length / 8) + base.baseNum, sig := jamSig, revision := 1 }

/-- `JAM_AddMessage` (`message.c` 283-462): the new base, and the header as it was changed. Without subfields
`subs` is empty, without a text `text` is. -/
def jamAdd (e : JamEnv) (b : JamBase) (h : JamHdr) (subs : List JamSub) (text : Data) : Except UB (Except JamErr (JamBase × JamHdr)) :=
  if !b.locked then .ok (.error .notLocked)
  else match jamReadBase b with
    | .error r => .ok (.error r)
    | .ok base =>
      let h := jamNewHdr b base h subs text
      match jamUserCrc e subs with
      | .error u => .error u
      | .ok crc =>
        let i : JamIdx := { userCrc := crc, hdrOffset := UInt32.ofNat b.hdr.length }
        let b := { b with
          txt := b.txt ++ text, hdr := b.hdr ++ h.bytes (e.junk 76) ++ subs.flatMap (JamSub.bytes (e.junk 16)), idx := b.idx ++ i.bytes (e.junk 8) }
        match jamWriteBase e b { base with active := if jamDeleted h.attr then base.active else base.active + 1 } with
        | .error r => .ok (.error r)
        | .ok b => .ok (.ok (b, h))

/-- `JAM_AddEmptyMessage` (`message.c` 469-497). -/
def jamAddEmpty (e : JamEnv) (b : JamBase) : Except JamErr JamBase :=
  if !b.locked then .error .notLocked
  else .ok { b with idx := b.idx ++ JamIdx.bytes (e.junk 8) { userCrc := 0xffffffff, hdrOffset := 0xffffffff } }

/-- `JAM_DeleteMessage` (`message.c` 505-594). -/
def jamDelete (e : JamEnv) (b : JamBase) (n : UInt32) : Except JamErr JamBase :=
  if !b.locked then .error .notLocked
  else match jamReadBase b, jamReadIdx b n with
    | .error r, _ => .error r
    | .ok _, .error r => .error r
    | .ok base, .ok i =>
      if i.gone then .error .noMessage
      else match freadAt b.hdr i.hdrOffset.toNat 76 with
        | .error r => .error r
        | .ok d =>
          let old := JamHdr.ofBytes d
          jamWriteBase e
            { b with
              hdr := overlay b.hdr i.hdrOffset.toNat (JamHdr.bytes (e.junk 76) { old with attr := old.attr ||| 0x80000000 }),
              idx := overlay b.idx (n.toNat * 8) (JamIdx.bytes (e.junk 8) { userCrc := 0xffffffff, hdrOffset := 0xffffffff }) }
            { base with active := if jamDeleted old.attr then base.active else base.active - 1 }

end CM
