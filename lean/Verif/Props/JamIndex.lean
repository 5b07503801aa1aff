import Verif.Props.JamFormat
/-! # The index of JAM message bases, and what goes wrong -/

set_option linter.unusedSimpArgs false

namespace CM

/-- The recipient of a message: the data of its last subfield of type 3 up to a zero byte; empty if there is
none. -/
def recipientOf (subs : List JamSub) : Data := ((subs.filter (fun s => s.loId == 3)).getLast?.map (fun s => cstr s.data)).getD []

theorem jamUser_eq (subs : List JamSub) (u : Data) (h : ∀ s ∈ subs, s.loId = 3 → s.data.length ≤ 100) :
    jamUser subs u = .ok (((subs.filter (fun s => s.loId == 3)).getLast?.map (fun s => cstr s.data)).getD u) := by
  induction subs generalizing u with
  | nil => rfl
  | cons s t ih =>
    have ht := fun x hx => h x (List.mem_cons_of_mem _ hx)
    rw [jamUser]
    by_cases h3 : s.loId = 3
    · rw [if_pos h3, if_neg (by have := h s (List.mem_cons_self ..) h3; omega), ih _ ht, List.filter_cons_of_pos (by simp [h3])]
      rw [List.getLast?_cons]
      cases (t.filter (fun s => s.loId == 3)).getLast? <;> rfl
    · rw [if_neg h3, ih _ ht, List.filter_cons_of_neg (by simp [h3])]

/-- The checksum for the index: that of the name in lower case, and all bits set if there is no name. -/
theorem jam_user_crc (e : JamEnv) (he : e.signedChar = false) (subs : List JamSub) (h : ∀ s ∈ subs, s.loId = 3 → s.data.length ≤ 100) :
    jamUserCrc e subs = .ok (jcrcOf ((recipientOf subs).map lower)) := by
  have hu := jamUser_eq subs [] h
  rw [show ((subs.filter (fun s => s.loId == 3)).getLast?.map (fun s => cstr s.data)).getD [] = recipientOf subs from rfl] at hu
  rw [jamUserCrc, hu]
  match recipientOf subs with
  | [] => rfl
  | c :: s => rw [he]; exact jam_crc _

/-- The index record of a message that was added has the checksum of its recipient. -/
theorem jam_index (e : JamEnv) (he : e.signedChar = false) {b b' : JamBase} {start : UInt32} {ms : List (Option JamMsg)} (hb : JamHolds b start ms)
    {h h' : JamHdr} {subs : List JamSub} {text : Data} (hs : ∀ s ∈ subs, s.loId = 3 → s.data.length ≤ 100)
    (hadd : jamAdd e b h subs text = .ok (.ok (b', h'))) :
    NumAt b'.idx (8 * ms.length) 4 (jcrcOf ((recipientOf subs).map lower)).toNat ∧ b'.idx.take (8 * ms.length) = b.idx := by
  obtain ⟨off, hb⟩ := hb
  have hidx := hb.len
  rw [jamAdd] at hadd
  by_cases hl : b.locked = true
  · rw [if_neg (by simp [hl])] at hadd
    obtain ⟨H, hH, -⟩ := hb.readBase
    rw [hH] at hadd
    simp only [jam_user_crc e he subs hs] at hadd
    rw [jamWriteBase, if_pos (show (JamBase.locked _) = true from hl)] at hadd
    simp only [Except.ok.injEq, Prod.mk.injEq] at hadd
    rw [← hadd.1]
    have hX := JamIdx.layout_bytes (e.junk 8) (e.size _) { userCrc := jcrcOf ((recipientOf subs).map lower), hdrOffset := UInt32.ofNat b.hdr.length }
    refine ⟨?_, by show (b.idx ++ _).take _ = _; rw [← hidx, List.take_left]⟩
    have hx := hX.userCrc
    have e1 : ∀ y : Data, y.length = 8 → ((b.idx ++ y).drop (8 * ms.length)).take 8 = y := fun y hy => by
      rw [← hidx, List.drop_left, List.take_of_length_le (by omega)]
    rw [← e1 _ hX.size] at hx
    exact hx.unslice (by omega) (by rw [List.length_append, hX.size]; omega)
  · rw [if_pos (by simp [hl])] at hadd
    simp at hadd

/-- Where `char` is signed, adding a message whose recipient begins with an ASCII character reads memory
outside a table. -/
theorem jam_add_signed (e : JamEnv) (he : e.signedChar = true) {b : JamBase} {start : UInt32} {ms : List (Option JamMsg)} (hb : JamHolds b start ms)
    (hl : b.locked = true) (h : JamHdr) {subs : List JamSub} (text : Data) (hs : ∀ s ∈ subs, s.loId = 3 → s.data.length ≤ 100)
    {c : UInt8} {s : Data} (hr : recipientOf subs = c :: s) (hc : c < 128) : jamAdd e b h subs text = .error .oobRead := by
  obtain ⟨off, hb⟩ := hb
  obtain ⟨H, hH, -⟩ := hb.readBase
  have : jamUserCrc e subs = .error .oobRead := by
    have hu := jamUser_eq subs [] hs
    rw [show ((subs.filter (fun s => s.loId == 3)).getLast?.map (fun s => cstr s.data)).getD [] = c :: s from hr] at hu
    rw [jamUserCrc, hu, he]
    exact jam_crc_signed c s hc
  rw [jamAdd, if_neg (by simp [hl]), hH]
  simp only [this]

/-- Adding a message with a name of a recipient that has more than 100 bytes writes beyond a buffer. -/
theorem jam_add_long (e : JamEnv) {b : JamBase} {start : UInt32} {ms : List (Option JamMsg)} (hb : JamHolds b start ms)
    (hl : b.locked = true) (h : JamHdr) {subs : List JamSub} (text : Data) {s : JamSub} (hs : s ∈ subs) (h3 : s.loId = 3) (h100 : 100 < s.data.length) :
    jamAdd e b h subs text = .error .oobWrite := by
  obtain ⟨off, hb⟩ := hb
  obtain ⟨H, hH, -⟩ := hb.readBase
  have hu : ∀ (subs : List JamSub) (u : Data), s ∈ subs → jamUser subs u = .error .oobWrite := by
    intro subs
    induction subs with
    | nil => intro u hm; simp at hm
    | cons x t ih =>
      intro u hm
      rw [jamUser]
      by_cases hx : x.loId = 3
      · rw [if_pos hx]
        by_cases hx' : 100 < x.data.length
        · rw [if_pos hx']
        · rw [if_neg hx']
          rcases List.mem_cons.1 hm with e | hm
          · rw [← e] at hx'; exact absurd h100 hx'
          · exact ih _ hm
      · rw [if_neg hx]
        rcases List.mem_cons.1 hm with e | hm
        · rw [e] at h3; exact absurd h3 hx
        · exact ih _ hm
  have : jamUserCrc e subs = .error .oobWrite := by
    have := hu subs [] hs
    rw [jamUserCrc, this]
  rw [jamAdd, if_neg (by simp [hl]), hH]
  simp only [this]

/-- Subfields that are cut off within the header of one are read beyond the buffer. -/
theorem jam_parse_short (d : Data) (h0 : d ≠ []) (h : d.length < 8) : jamParse d = .error .oobRead := by
  rw [jamParse, if_neg h0, if_pos h]

namespace Ex

/-- A platform where `char` is unsigned. -/
def jamEnv : JamEnv := { signedChar := false, junk := fun n => List.replicate n 0xaa, size := fun _ => List.length_replicate }

/-- A platform where `char` is signed. -/
def jamEnvX86 : JamEnv := { jamEnv with signedChar := true }

def jamHdr0 : JamHdr := JamHdr.ofBytes (List.replicate 76 0)

def jamSubs0 : List JamSub := [⟨2, 0, b!"Joe Sender"⟩, ⟨3, 0, b!"Jane"⟩, ⟨6, 0, b!"Hello"⟩]

def jamOps0 : List JamOp := [.add jamHdr0 jamSubs0 b!"First", .add jamHdr0 jamSubs0 b!"Second", .empty, .delete 0, .delete 7, .add jamHdr0 [] []]

theorem jamOps0_index : ∀ op ∈ jamOps0, op.CanIndex jamEnv := by
  intro op hm
  simp only [jamOps0, List.mem_cons, List.not_mem_nil, or_false] at hm
  have hc : CanIndex jamEnv jamSubs0 ∧ subBytes jamSubs0 < 2 ^ 31 := by
    refine ⟨fun s hs _ => ?_, by decide⟩
    simp only [jamSubs0, List.mem_cons, List.not_mem_nil, or_false] at hs
    rcases hs with rfl | rfl | rfl <;> exact ⟨by decide, fun h => nomatch h⟩
  rcases hm with rfl | rfl | rfl | rfl | rfl | rfl
  · exact hc
  · exact hc
  · trivial
  · trivial
  · trivial
  · exact ⟨fun s hs => by simp at hs, by decide⟩

/-- Three messages are added to a new base and the first one is deleted: the second is read back. -/
theorem jam_used : ∃ b b' m, jamCreate jamEnv 5 1 = .ok b ∧ jamRun jamEnv { b with locked := true } jamOps0 = .ok b' ∧
    jamGet b' 1 = .ok (.ok m) ∧ m.subs = jamSubs0 ∧ m.text = b!"Second" ∧ jamGet b' 0 = .ok (.error .noMessage) ∧
    ∃ H, jamReadBase b' = .ok H ∧ H.active = 2 := by
  obtain ⟨b, h1, h2⟩ := jam_create jamEnv 5 1
  have hlen : b.hdr.length = 1024 ∧ b.txt = [] := by
    injection h1 with h1; rw [← h1]; exact ⟨by decide +kernel, rfl⟩
  obtain ⟨b', ms', r1, r2, r3⟩ := jam_history_partial jamEnv jamOps0 (b := { b with locked := true }) (start := 1) (ms := [])
    (by obtain ⟨off, h⟩ := h2; exact ⟨off, h.base, h.len, h.few, h.gone, fun i m hi => by simp at hi, h.apart⟩) rfl
    ⟨by show b.hdr.length + _ < _; rw [hlen.1]; decide, by show b.txt.length + _ < _; rw [hlen.2]; decide, by decide⟩ jamOps0_index
  rw [jamOps0] at r2
  cases r2 with | cons n1 r2 =>
  cases n1 with | add a1 =>
  cases r2 with | cons n1 r2 =>
  cases n1 with | add a2 =>
  cases r2 with | cons n1 r2 =>
  cases n1 with | empty =>
  cases r2 with | cons n1 r2 =>
  cases n1 with
  | deleteNone hn => exact absurd rfl (hn _)
  | delete _ =>
  cases r2 with | cons n1 r2 =>
  cases n1 with
  | delete hn => exact nomatch hn
  | deleteNone _ =>
  cases r2 with | cons n1 r2 =>
  cases n1 with | add a3 =>
  cases r2
  rename_i m1 m2 _ _ _ m3
  have g1 := jam_get r3 1
  have g0 := jam_get r3 0
  obtain ⟨H, c1, c2, -⟩ := jam_count r3
  refine ⟨b, b', m2, h1, r1, g1, a2.subs, a2.text, g0, H, c1, UInt32.toNat_inj.1 (c2.trans ?_)⟩
  have d2 : m2.dead = false := by
    have := congrArg JamHdr.attr a2.hdr
    rw [JamMsg.dead, this]; exact (show decide (2 ^ 31 ≤ jamHdr0.attr.toNat) = false by decide)
  have d3 : m3.dead = false := by
    have := congrArg JamHdr.attr a3.hdr
    rw [JamMsg.dead, this]; exact (show decide (2 ^ 31 ≤ jamHdr0.attr.toNat) = false by decide)
  show jamActive [none, some m2, none, some m3] = 2
  simp [jamActive, d2, d3]

/-- The same message on x86: undefined behaviour. -/
theorem jam_x86 : ∃ b, jamCreate jamEnvX86 5 1 = .ok b ∧ jamAdd jamEnvX86 { b with locked := true } jamHdr0 jamSubs0 b!"First" = .error .oobRead := by
  obtain ⟨b, h1, h2⟩ := jam_create jamEnvX86 5 1
  refine ⟨b, h1, jam_add_signed jamEnvX86 rfl (b := { b with locked := true }) (start := 1) (ms := [])
    (by obtain ⟨off, h⟩ := h2; exact ⟨off, h.base, h.len, h.few, h.gone, fun i m hi => by simp at hi, h.apart⟩) rfl jamHdr0 _ (fun s hs _ => ?_) (c := 74) (s := b!"ane") rfl (by decide)⟩
  simp only [jamSubs0, List.mem_cons, List.not_mem_nil, or_false] at hs
  rcases hs with rfl | rfl | rfl <;> decide

/-- A deleted message whose mark is removed: the counter says 0 although there is a message. -/
theorem jam_undelete : ∃ b0 b1 b2 h, jamCreate jamEnv 5 1 = .ok b0 ∧
    jamAdd jamEnv { b0 with locked := true } { jamHdr0 with attr := 0x80000000 } [] b!"X" = .ok (.ok (b1, h)) ∧
    jamChange jamEnv b1 0 { h with attr := 0 } = .ok b2 ∧ (jamReadBase b2).toOption.map (·.active) = some 0 ∧
    (jamReadIdx b2 0).toOption.map (·.hdrOffset) = some 1024 ∧ (freadAt b2.hdr 1024 76).toOption.map (fun d => (JamHdr.ofBytes d).attr) = some 0 := by
  have h : ((jamCreate jamEnv 5 1).toOption.any fun b0 =>
      match jamAdd jamEnv { b0 with locked := true } { jamHdr0 with attr := 0x80000000 } [] b!"X" with
      | .ok (.ok (b1, h)) => (jamChange jamEnv b1 0 { h with attr := 0 }).toOption.any fun b2 =>
        (jamReadBase b2).toOption.map (·.active) = some 0 ∧ (jamReadIdx b2 0).toOption.map (·.hdrOffset) = some 1024 ∧
          (freadAt b2.hdr 1024 76).toOption.map (fun d => (JamHdr.ofBytes d).attr) = some 0
      | _ => false) = true := by decide +kernel
  match h0 : jamCreate jamEnv 5 1 with
  | .error _ => rw [h0] at h; simp [Except.toOption] at h
  | .ok b0 =>
    rw [h0] at h
    simp only [Except.toOption, Option.any_some] at h
    split at h
    · rename_i b1 hh h1
      match h2 : jamChange jamEnv b1 0 { hh with attr := 0 } with
      | .error _ => rw [h2] at h; simp at h
      | .ok b2 =>
        rw [h2] at h
        have h := of_decide_eq_true h
        exact ⟨b0, b1, b2, hh, rfl, h1, h2, h.1, h.2.1, h.2.2⟩
    · cases h

end Ex

end CM
