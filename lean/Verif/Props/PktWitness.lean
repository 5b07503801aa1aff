import Verif.Props.PktList
/-! # C11, C12, C13, C65: witnesses -/

set_option linter.unusedSimpArgs false
namespace CM

/-! ## Concrete data -/

def wA : Node4D := ⟨2, 5020, 1042, 0⟩
def wB : Node4D := ⟨2, 5020, 2000, 7⟩
def wDate : PktDate := ⟨2026, 10, 15, 5, 28, 1⟩

def wNet : MemMsg :=
  { orig := wA, dest := ⟨1, 261, 38, 0⟩, to := b!"Sysop", frm := b!"Someone", subject := b!"Hi"
    date := b!"15 Nov 26  05:28:01", attr := 1
    text := [1 :: b!"INTL 1:261/38 2:5020/1042" ++ [13], b!"Hello" ++ [13]] }

def wEcho : MemMsg :=
  { orig := wA, area := b!"RU.LINUX", to := b!"All", frm := b!"Someone", subject := b!"Hi"
    date := b!"15 Nov 26  05:28:01"
    text := [b!"Hello" ++ [13], b!" * Origin: here (2:5020/1042)" ++ [13]]
    seenBy := [[(5020, 1042), (5020, 545)]], path := [[b!"5020/1042"]] }

def wNode : ConfigNode :=
  { node := wB, packetPW := b!"Secret" }

instance (l : Str) : Decidable (SafeKludge l) := by unfold SafeKludge; infer_instance
instance (l : Str) : Decidable (AddrKludge l) := by unfold AddrKludge; infer_instance

theorem wNet_packable : Packable wNet := ⟨by decide, by decide, by decide, by decide⟩
theorem wEcho_packable : Packable wEcho := ⟨by decide, by decide, by decide, by decide⟩

/-- The hypotheses of `netmail_roundtrip` are met. -/
example : ∃ m', interpMsg {} wA wB (toRaw wNet wNet.text.flatten) = .ok (some m') ∧ m'.orig = wNet.orig ∧ m'.dest = wNet.dest := by
  obtain ⟨m', h1, h⟩ := netmail_roundtrip {} wA wB wNet wNet_packable false (b!"Hello" ++ [13]) (by decide +kernel)
    (by decide +kernel) (by decide +kernel)
  have := h.2.2.2.2.2.2.2.2.2.2.2.2.1 (by left; decide)
  exact ⟨m', h1, this⟩

theorem wEcho_safe : ∀ l ∈ pieces wEcho.text.flatten,
    SafeEcho l ∧ ¬ b!"SEEN-BY:" <+: l ∧ ¬ (1 :: b!"PATH:") <+: l := by
  have e : pieces wEcho.text.flatten = [b!"Hello" ++ [13], b!" * Origin: here (2:5020/1042)" ++ [13]] := by decide +kernel
  rw [e]
  intro l hl
  simp only [List.mem_cons, List.not_mem_nil, or_false] at hl
  rcases hl with rfl | rfl
  · refine ⟨⟨by decide, by decide, by intro h; exact absurd h (by decide), by intro h; exact absurd h (by decide)⟩, by decide, by decide⟩
  · refine ⟨⟨by decide, by decide, by intro h; exact absurd h (by decide), fun _ => Or.inr ?_⟩, by decide, by decide⟩
    exact ⟨b!" * Origin: here ", [], b!"2", b!":5020/1042", [13], by decide, by decide, by decide, 50, by decide, by decide⟩

/-- The hypotheses of `echomail_roundtrip` are met. -/
example : ∃ sb m', echoSeenBy wEcho wNode wA = .ok sb ∧
    interpMsg {} wA wB (toRaw wEcho (echoText wEcho sb)) = .ok (some m') ∧ m'.area = b!"RU.LINUX" ∧
    m'.seenBy.flatten.Perm [(5020, 1042), (5020, 545)] := by
  obtain ⟨sb, h1, _, m', h2, h3, h⟩ := echomail_roundtrip {} wA wB wEcho wNode wA wEcho_packable
    ⟨by decide, by decide, by decide, by decide, ⟨88, by decide, by decide⟩⟩ (Or.inr (by decide)) (by decide) wEcho_safe
    ⟨by decide, by decide⟩ (by decide)
    (by intro l hl; have : l = b!"5020/1042" := by simpa [wEcho] using hl
        subst this; exact ⟨by decide, by decide, by decide, by decide, 50, by decide, by decide⟩)
  exact ⟨sb, m', h1, h2, h3, h.2.2.2.2.2.2.2.2.2.2.1⟩

/-- The hypotheses of `pktHeader_addresses` and `pktHeader_password` are met. -/
example : pktAddresses (pktHeader wA wB b!"Secret" wDate) = (wA, wB) ∧ pktPassword (pktHeader wA wB b!"Secret" wDate) = b!"Secret" :=
  ⟨(pktHeader_addresses _ _ _ _ (by decide) (by decide)).2, pktHeader_password _ _ _ _ (by decide) (by decide)⟩

/-- The hypotheses of `packets_hold` are met by messages for two systems and a small packet limit. -/
example : (closePackets (([⟨wB, wA, 2, [], wDate, toRaw wNet wNet.text.flatten⟩, ⟨wA, wB, 2, [], wDate, toRaw wNet []⟩,
      ⟨wB, wA, 2, [], wDate, toRaw wNet []⟩] : List WOp).foldl (writeOp 60) {})).finished.length = 3 := by decide +kernel

example : ∀ o ∈ ([⟨wB, wA, 2, [], wDate, toRaw wNet wNet.text.flatten⟩] : List WOp), o.dest.zone ≠ 0 ∧ o.orig.zone ≠ 0 := by
  simp [wA, wB]

/-! ## Violations -/

/-- A packet from `wA` to `wB` with one message with the given text, and the given tail. -/
def wPacket (text tail : Str) : List UInt8 :=
  pktHeader wA wB b!"Secret" wDate ++ ((toRaw wNet text).bytes ++ tail)

/-- C65: the right and a wrong password. -/
example : readPkt { nodes := [{ wNode with node := wA }] } (fun _ _ => true) (fun _ => false) (List.replicate 14 0)
    (wPacket b!"x" [0, 0]) = .ok (some (.done, [{
      orig := ⟨0, 5020, 1042, 0⟩, dest := ⟨2, 261, 38, 0⟩, pktOrig := wA, pktDest := wB, to := b!"Sysop", frm := b!"Someone"
      subject := b!"Hi", date := b!"15 Nov 26  05:28:01", attr := 1, flags := 4, text := [b!"x"] }])) := by decide +kernel

example : readPkt { nodes := [{ wNode with node := wA, packetPW := b!"Other" }] } (fun _ _ => true) (fun _ => false)
    (List.replicate 14 0) (wPacket b!"x" [0, 0]) = .ok (some (.bad .password, [])) := by decide +kernel

/-- C13 (violated). An area line without a name makes the reader run off the front of a string. -/
theorem readPkt_blank_area : readPkt {} (fun _ _ => true) (fun _ => false) (List.replicate 14 0)
    (wPacket (b!"AREA:" ++ [13]) [0, 0]) = .error .oobRead := by decide +kernel

/-- C13 (violated). A text that ends in an incomplete control line is read past its end. -/
theorem readPkt_short_kludge : readPkt {} (fun _ _ => true) (fun _ => false) (List.replicate 14 0)
    (wPacket (1 :: b!"MSGID:") [0, 0]) = .error .oobRead := by decide +kernel

/-- C13 (violated). An origin line without a closing parenthesis is read past its end. -/
theorem readPkt_open_origin : readPkt {} (fun _ _ => true) (fun _ => false) (List.replicate 14 0)
    (wPacket (b!"AREA:X" ++ 13 :: b!" * Origin: (2:5020/1042") [0, 0]) = .error .oobRead := by decide +kernel

/-- C12 (violated). A line longer than 198 characters is cut, and the rest is taken for a line of its
own: here for a SEEN-BY line, so text disappears and a SEEN-BY entry appears. -/
theorem readPkt_long_line : readPkt {} (fun _ _ => true) (fun _ => false) (List.replicate 14 0)
    (wPacket (b!"AREA:X" ++ 13 :: (List.replicate 198 120 ++ b!"SEEN-BY: 1/2" ++ [13])) [0, 0]) =
    .ok (some (.done, [{
      orig := ⟨0, 5020, 1042, 0⟩, dest := ⟨2, 261, 38, 0⟩, pktOrig := wA, pktDest := wB, to := b!"Sysop", frm := b!"Someone"
      subject := b!"Hi", date := b!"15 Nov 26  05:28:01", attr := 1, flags := 4, area := b!"X"
      text := [List.replicate 198 120], seenBy := [[(1, 2)]] }])) := by decide +kernel

/-- C12 (violated). Interrupting the program between two messages makes it treat the packet as bad:
the messages already handled are in the packet that is put away. -/
theorem readMsgs_interrupted (cfg : PktCfg) (po pd : Node4D) (pw : Str) (handler : List MemMsg → MemMsg → Bool)
    (ctrlc : Nat → Bool) (f : Nat) (hdr s : List UInt8) (acc : List MemMsg) (h : word hdr 0 = 2)
    (hc : ctrlc acc.length = true) :
    readMsgs cfg po pd pw handler ctrlc (f + 1) hdr s acc = .ok (some (.bad .unknownType, acc)) := by
  unfold readMsgs
  rw [if_neg (by simp [hc]), if_pos (by rw [h]; decide)]

/-- C12 (violated). A packet cut off right after a complete message is put away as bad although its
messages were handled. -/
theorem readPkt_no_end : (readPkt {} (fun _ _ => true) (fun _ => false) (List.replicate 14 0)
    (wPacket b!"x" [])).map (fun o => o.map fun r => (r.1, r.2.length)) = .ok (some (.bad .msgHeaderShort, 1)) := by
  decide +kernel

end CM
