import Verif.Base
/-! # Little-endian integers in byte buffers -/

namespace CM

/-- A `uint16_t` in memory or a file (little-endian host; also `putuword`, `pkt.c` 19-23). -/
def le16 (x : UInt16) : List UInt8 := [UInt8.ofNat (x.toNat % 256), UInt8.ofNat (x.toNat / 256)]

/-- Two bytes read as `uint16_t` (also `getuword`, `pkt.c` 14-17). -/
def rd16 (a b : UInt8) : UInt16 := UInt16.ofNat (a.toNat + 256 * b.toNat)

/-- A `uint32_t` in memory or a file. -/
def le32 (x : UInt32) : List UInt8 :=
  [UInt8.ofNat (x.toNat % 256), UInt8.ofNat (x.toNat / 256 % 256), UInt8.ofNat (x.toNat / 65536 % 256),
    UInt8.ofNat (x.toNat / 16777216)]

/-- Four bytes read as `uint32_t`. -/
def rd32 (a b c d : UInt8) : UInt32 :=
  UInt32.ofNat (a.toNat + 256 * b.toNat + 65536 * c.toNat + 16777216 * d.toNat)

/-- The first four bytes of a buffer as `uint32_t`; 0 for a shorter list (callers pass at least 4). -/
def rd32L : List UInt8 → UInt32
  | a :: b :: c :: d :: _ => rd32 a b c d
  | _ => 0

end CM
