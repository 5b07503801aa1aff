import Verif.Lemmas.Monad
import Verif.Model.Handle
/-! # A small system for concrete cases

The system 1:2/3 knows the nodes 1:2/4, 1:2/5, 1:2/6 (passive) and 1:2/7. -/

namespace CM.Ex

/-- Everything succeeds. -/
def env : Env where
  importOk _ _ _ := true
  echoOk _ _ _ := true
  netOk _ _ _ := true
  exec _ _ := 0
  tmpnam _ _ := b!"x"
  fidoDate _ := b!"01 Jan 00  00:00:00"
  viaTime _ := b!"20000101.000000"
  serial _ := b!"00000000"
  fileExists _ _ := false
  copyOk _ _ _ := true
  moveOk _ _ _ := true

def node (n : UInt16) (fl : UInt32) : ConfigNode := { node := ⟨1, 2, n, 0⟩, flags := fl }

def area (tag : Str) (fl : UInt8) (ts : List TossNode) : Area :=
  { tag := tag, aka := some 0, base := some 0, flags := fl, tossNodes := ts }

def cfg (areas : List Area) : Config where
  akas := [{ node := ⟨1, 2, 3, 0⟩ }]
  nodes := [node 4 0, node 5 0, node 6 NODE_PASSIVE, node 7 0]
  areas := areas
  flags := CFG_CHECKSEENBY
  dupeSize := 10
  nl := ⟨false, fun _ => 0, fun _ => 0⟩
  nlCheck := fun _ => true

def msg (area : Str) (sb : List (List N2)) : MemMsg :=
  { pktOrig := ⟨1, 2, 4, 0⟩, area := area, seenBy := sb, flags := MMFLAG_TOSSED, text := [b!"hello\r"] }

def st (c : Config) : HSt := { cfg := c, seen := fun _ => false, dupe := ⟨[], [], 0, false⟩, log := [] }

end CM.Ex
