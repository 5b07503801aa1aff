import Verif.Props.Pkt
/-! # C12, C13, C65: whole packets -/

set_option linter.unusedSimpArgs false
namespace CM

/-! ## One line -/

theorem readCR_line (s : List UInt8) : (readCR s).line = lineAt s := by
  have term : ∀ t s, NoNul t → (readCR (t ++ 0 :: s)).line = (pieces t).head?.getD [] := by
    intro t s h
    rcases readCR_text t s h with ⟨h1, h2⟩ | ⟨l, r, hne, h1, h2, h3⟩
    · rw [h1, h2]; split <;> simp_all
    · rw [h3, h2]; rfl
  unfold lineAt
  rcases split_nul s with h | ⟨t, r, h, rfl⟩
  · rw [noNul_takeWhile h, ← term s [] h]
    have e : (s ++ [0]).takeWhile (fun c => !lineStop c) = s.takeWhile (fun c => !lineStop c) := by
      clear term h
      induction s with
      | nil => rfl
      | cons c s ih =>
        simp only [List.cons_append, List.takeWhile_cons, ih]
    simp only [readCR, e]
    have hle : ((s.takeWhile fun c => !lineStop c).take 198).length ≤ s.length := by
      have := (List.takeWhile_sublist (fun c => !lineStop c) (l := s)).length_le
      simp only [List.length_take]; omega
    generalize (s.takeWhile fun c => !lineStop c).take 198 = body at *
    split
    · rfl
    · rw [List.drop_append_of_le_length hle]
      cases hd : s.drop body.length with
      | nil => simp
      | cons c r =>
        simp only [List.cons_append]
        have : c ≠ 0 := fun e => h (List.mem_of_mem_drop (i := body.length) (by rw [hd, e]; simp))
        simp [this]
  · rw [takeWhile_nul h, term t r h]

theorem readCR_line_le (s : List UInt8) : (readCR s).line.length ≤ 199 := by
  simp only [readCR]
  have hb : ((s.takeWhile fun c => !lineStop c).take 198).length ≤ 198 := by simp; omega
  generalize (s.takeWhile fun c => !lineStop c).take 198 = body at *
  split
  · simp; omega
  · split
    · simp; omega
    · split
      · simp; omega
      · simp; omega

/-- `ReadCR` moves forward. -/
theorem readCR_rest (s : List UInt8) :
    (readCR s).rest <:+ s ∧ ((readCR s).short = false → (readCR s).rest.length < s.length) := by
  simp only [readCR]
  have hle : ((s.takeWhile fun c => !lineStop c).take 198).length ≤ s.length := by
    have := (List.takeWhile_sublist (fun c => !lineStop c) (l := s)).length_le
    simp only [List.length_take]; omega
  generalize (s.takeWhile fun c => !lineStop c).take 198 = body at *
  split
  · refine ⟨List.drop_suffix _ _, fun _ => ?_⟩
    simp; omega
  · split
    · exact ⟨List.nil_suffix, by simp⟩
    · rename_i c r hd
      have h1 : r <:+ s := (List.suffix_cons c r).trans (hd ▸ List.drop_suffix _ _)
      have h2 : r.length < s.length := by
        have := congrArg List.length hd
        simp at this; omega
      split <;> exact ⟨h1, fun _ => h2⟩

theorem readNull_rest (n : Nat) (s : List UInt8) : (readNull n s).rest <:+ s := by
  simp only [readNull]
  split
  · exact List.nil_suffix
  · rename_i c r hd
    exact (List.suffix_cons c r).trans (hd ▸ List.drop_suffix _ _)

theorem readHdrStrings_bounds (s : List UInt8) :
    (readHdrStrings s).rest <:+ s ∧ (readHdrStrings s).date.length ≤ 19 ∧ (readHdrStrings s).to.length ≤ 35 ∧
      (readHdrStrings s).frm.length ≤ 35 ∧ (readHdrStrings s).subject.length ≤ 71 := by
  have r1 := readNull_rest 20 s
  have r2 := (readNull_rest 36 (readNull 20 s).rest).trans r1
  have r3 := (readNull_rest 36 (readNull 36 (readNull 20 s).rest).rest).trans r2
  have r4 := (readNull_rest 72 (readNull 36 (readNull 36 (readNull 20 s).rest).rest).rest).trans r3
  have l1 := readNull_str_le 20 s
  have l2 := readNull_str_le 36 (readNull 20 s).rest
  have l3 := readNull_str_le 36 (readNull 36 (readNull 20 s).rest).rest
  have l4 := readNull_str_le 72 (readNull 36 (readNull 36 (readNull 20 s).rest).rest).rest
  simp only [Nat.reduceSub] at l1 l2 l3 l4
  unfold readHdrStrings
  simp only
  split
  · exact ⟨r1, l1, by simp, by simp, by simp⟩
  · split
    · exact ⟨r2, l1, l2, by simp, by simp⟩
    · split
      · exact ⟨r3, l1, l2, l3, by simp⟩
      · generalize readNull 72 _ = d at *
        exact ⟨r4, l1, l2, l3, l4⟩

/-- An unsafe line occurs somewhere in the packet. -/
def Unsafe (s : List UInt8) : Prop := ∃ post, post <:+ s ∧ ¬ SafeLine (lineAt post)

theorem Unsafe.mono {a b : List UInt8} (h : Unsafe a) (hs : a <:+ b) : Unsafe b := by
  obtain ⟨p, h1, h2⟩ := h; exact ⟨p, h1.trans hs, h2⟩

theorem mmAddLine_total (m : MemMsg) (l : Str) (hi : MsgInv m) (hl : l.length ≤ 199) :
    (∃ e, mmAddLine m l = .error e ∧ ¬ SafeLine l) ∨ ∃ m', mmAddLine m l = .ok (some m') ∧ MsgInv m' ∧ LFrame m m' := by
  have hl' : l.length + chunkLen < 2 ^ 32 := by simp only [chunkLen]; omega
  rcases mmAddLine_cases m l hi hl' with h | ⟨m', h, ha⟩
  · left
    refine ⟨_, h, fun hs => ?_⟩
    obtain ⟨m', h', _⟩ := mmAddLine_safe m l hi hl' (fun _ => hs.1.1) (fun _ => hs.1)
    rw [h] at h'; simp at h'
  · exact Or.inr ⟨m', h, ha.inv, ha.frame⟩

theorem firstLine_total (m : MemMsg) (l : Str) (hi : MsgInv m) (hl : l.length ≤ 199) :
    (∃ e, firstLine m l = .error e ∧ ¬ SafeLine l) ∨
      ∃ m', firstLine m l = .ok (some m') ∧ MsgInv m' ∧ m'.pktOrig = m.pktOrig ∧ m'.pktDest = m.pktDest := by
  unfold firstLine
  split
  · rename_i hA
    cases hs : stripleadtrail (mystrncpy (l.drop 5) 80) with
    | error e =>
      left
      refine ⟨e, rfl, fun hsafe => ?_⟩
      obtain ⟨c, hc, h1, h2⟩ := hsafe.2 ((startsWith_iff _ _).1 hA)
      have hb : below33 c = false := by
        have : ∀ c : UInt8, 33 ≤ c.toNat → c.toNat < 128 → below33 c = false := by decide +kernel
        exact this c h1 h2
      have hmem : c ∈ striplead (mystrncpy (l.drop 5) 80) := by
        have hne : (c == 32) = false := by
          have : c ≠ 32 := by rintro rfl; exact absurd h1 (by decide)
          simpa using this
        unfold striplead
        have h3 : c ∈ mystrncpy (l.drop 5) 80 := hc
        rw [← List.takeWhile_append_dropWhile (p := (· == 32)) (l := mystrncpy (l.drop 5) 80)] at h3
        rw [List.mem_append] at h3
        rcases h3 with h3 | h3
        · have := mem_takeWhile h3
          simp [hne] at this
        · exact h3
      have : ∃ t, striptrail (striplead (mystrncpy (l.drop 5) 80)) = .ok t := by
        generalize striplead (mystrncpy (l.drop 5) 80) = q at hmem
        have gen : ∀ q : Str, c ∈ q → ∃ t, striptrailLoop q = .ok t := by
          intro q
          induction q with
          | nil => simp
          | cons d q ih =>
            intro hm
            simp only [striptrailLoop]
            split
            · rename_i hd
              simp only [List.mem_cons] at hm
              rcases hm with rfl | hm
              · rw [hb] at hd; simp at hd
              · exact ih hm
            · exact ⟨_, rfl⟩
        obtain ⟨t, ht⟩ := gen q.reverse (by simpa using hmem)
        exact ⟨t.reverse, by simp [striptrail, ht, Except.map]⟩
      obtain ⟨t, ht⟩ := this
      unfold stripleadtrail at hs
      rw [ht] at hs; simp at hs
    | ok a =>
      right
      refine ⟨_, rfl, { hi with area := ?_ }, rfl, rfl⟩
      have h1 := striptrail_len hs
      have h2 : (striplead (mystrncpy (l.drop 5) 80)).length ≤ (mystrncpy (l.drop 5) 80).length :=
        (List.dropWhile_sublist _).length_le
      have h3 : (mystrncpy (l.drop 5) 80).length ≤ 79 := by simp [mystrncpy]; omega
      show a.length ≤ 79
      omega
  · rcases mmAddLine_total m l hi hl with h | ⟨m', h1, h2, h3⟩
    · exact Or.inl h
    · exact Or.inr ⟨m', h1, h2, h3.pktOrig, h3.pktDest⟩

theorem readText_total (f : Nat) (m : MemMsg) (s : List UInt8) (hi : MsgInv m) (hf : s.length < f) :
    (∃ e, readText f m s = .error e ∧ Unsafe s) ∨ readText f m s = .ok (some none) ∨
      ∃ m' s', readText f m s = .ok (some (some (m', s'))) ∧ MsgInv m' ∧ LFrame m m' ∧ s' <:+ s := by
  induction f generalizing m s with
  | zero => omega
  | succ f ih =>
    obtain ⟨hr1, hr2⟩ := readCR_rest s
    simp only [readText]
    by_cases hsh : (readCR s).short = true
    · rw [if_pos hsh]; exact Or.inr (Or.inl rfl)
    · rw [if_neg hsh]
      have hlt := hr2 (by simpa using hsh)
      have hadd : (∃ e, addNonEmpty m (readCR s).line = .error e ∧ ¬ SafeLine (readCR s).line) ∨
          ∃ m', addNonEmpty m (readCR s).line = .ok (some m') ∧ MsgInv m' ∧ LFrame m m' := by
        unfold addNonEmpty
        split
        · exact Or.inr ⟨m, rfl, hi, .refl m⟩
        · exact mmAddLine_total m _ hi (readCR_line_le s)
      rcases hadd with ⟨e, he, hn⟩ | ⟨m', he, hi', hf'⟩
      · rw [he]
        exact Or.inl ⟨e, rfl, s, List.suffix_refl s, by rw [← readCR_line]; exact hn⟩
      · rw [he]
        simp only
        by_cases hen : (readCR s).ended = true
        · rw [if_pos hen]
          exact Or.inr (Or.inr ⟨m', _, rfl, hi', hf', hr1⟩)
        · rw [if_neg hen]
          rcases ih m' (readCR s).rest hi' (by omega) with ⟨e, h1, h2⟩ | h1 | ⟨m2, s2, h1, h2, h3, h4⟩
          · exact Or.inl ⟨e, h1, h2.mono hr1⟩
          · exact Or.inr (Or.inl h1)
          · exact Or.inr (Or.inr ⟨m2, s2, h1, h2, hf'.trans h3, h4.trans hr1⟩)

theorem readRest_total (m : MemMsg) (s : List UInt8) (hi : MsgInv m) :
    (∃ e, readRest m (readCR s) = .error e ∧ Unsafe s) ∨ readRest m (readCR s) = .ok (some none) ∨
      ∃ m' s', readRest m (readCR s) = .ok (some (some (m', s'))) ∧ MsgInv m' ∧ LFrame m m' ∧ s' <:+ s := by
  unfold readRest
  have hr1 := (readCR_rest s).1
  split
  · exact Or.inr (Or.inr ⟨m, _, rfl, hi, .refl m, hr1⟩)
  · rcases readText_total _ m (readCR s).rest hi (Nat.lt_succ_self _) with ⟨e, h1, h2⟩ | h1 | ⟨m2, s2, h1, h2, h3, h4⟩
    · exact Or.inl ⟨e, h1, h2.mono hr1⟩
    · exact Or.inr (Or.inl h1)
    · exact Or.inr (Or.inr ⟨m2, s2, h1, h2, h3, h4.trans hr1⟩)

theorem pktMessage_inv (cfg : PktCfg) (po pd : Node4D) (hdr s : List UInt8) :
    MsgInv (pktMessage cfg po pd hdr (readHdrStrings s)) := by
  obtain ⟨_, h1, h2, h3, h4⟩ := readHdrStrings_bounds s
  constructor
  · simp [pktMessage, TextOK]
  · simp [pktMessage]
  · exact h2
  · exact h3
  · exact h4
  · exact h1
  · simp [pktMessage]
  · simp [pktMessage]
  · simp [pktMessage, Blocks]
  · intro c hc; simp [pktMessage] at hc

/-- What is known about every message handed over. -/
structure Handed (cfg : PktCfg) (po pd : Node4D) (pw : Str) (m : MemMsg) : Prop where
  inv : MsgInv m
  orig : m.pktOrig = po
  dest : m.pktDest = pd
  password : wrongPassword cfg (findNode cfg.nodes po) pw m.area = false

theorem readMsgs_total (cfg : PktCfg) (po pd : Node4D) (pw : Str) (handler : List MemMsg → MemMsg → Bool)
    (ctrlc : Nat → Bool) (f : Nat) (hdr s : List UInt8) (acc : List MemMsg) (hf : s.length < f) :
    (∃ e, readMsgs cfg po pd pw handler ctrlc f hdr s acc = .error e ∧ Unsafe s) ∨
    ∃ e new, readMsgs cfg po pd pw handler ctrlc f hdr s acc = .ok (some (e, acc ++ new)) ∧
      ∀ m ∈ new, Handed cfg po pd pw m := by
  induction f generalizing hdr s acc with
  | zero => omega
  | succ f ih =>
    have stop : ∀ e, ∃ e' new, (Except.ok (some (e, acc)) : Except UB (Option (PktEnd × List MemMsg))) =
        .ok (some (e', acc ++ new)) ∧ ∀ m ∈ new, Handed cfg po pd pw m :=
      fun e => ⟨e, [], by simp, by simp⟩
    conv => enter [1, 1, e]; unfold readMsgs
    conv => enter [2, 1, e]; unfold readMsgs
    simp only
    by_cases hw : word hdr 0 = 2 ∧ ctrlc acc.length = false
    · simp only [if_pos hw]
      by_cases hs : (readHdrStrings s).short = true
      · simp only [if_pos hs]; exact Or.inr (stop _)
      · simp only [if_neg hs]
        by_cases hlg : (readHdrStrings s).long = true
        · simp only [if_pos hlg]; exact Or.inr (stop _)
        · simp only [if_neg hlg]
          have e1 := (readHdrStrings_inv s (by simpa using hs) (by simpa using hlg)).1
          have hsuf := (readHdrStrings_bounds s).1
          have hlt : (readHdrStrings s).rest.length < s.length := by
            have := congrArg List.length e1
            simp at this; omega
          have hu : ∀ {x}, x <:+ (readHdrStrings s).rest → Unsafe x → Unsafe s :=
            fun hx h => h.mono (hx.trans hsuf)
          rcases firstLine_total (pktMessage cfg po pd hdr (readHdrStrings s)) (readCR (readHdrStrings s).rest).line
            (pktMessage_inv ..) (readCR_line_le _) with ⟨e, h1, h2⟩ | ⟨m, h1, h2, h3, h4⟩
          · left
            rw [h1]
            exact ⟨e, rfl, (readHdrStrings s).rest, hsuf, by rw [← readCR_line]; exact h2⟩
          · rw [h1]
            simp only
            by_cases hwp : wrongPassword cfg (findNode cfg.nodes po) pw m.area = true
            · simp only [if_pos hwp]; exact Or.inr (stop _)
            · simp only [if_neg hwp]
              rcases readRest_total m (readHdrStrings s).rest h2 with ⟨e, g1, g2⟩ | g1 | ⟨m2, s2, g1, g2, g3, g4⟩
              · rw [g1]; exact Or.inl ⟨e, rfl, hu (List.suffix_refl _) g2⟩
              · rw [g1]; exact Or.inr (stop _)
              · rw [g1]
                simp only
                have hm : Handed cfg po pd pw { m2 with flags := m2.flags ||| 4 } := by
                  refine ⟨?_, g3.pktOrig.trans h3, g3.pktDest.trans h4, ?_⟩
                  · exact ⟨g2.text, g2.area, g2.to, g2.frm, g2.subject, g2.date, g2.msgid, g2.reply, g2.seenBy, g2.path⟩
                  · show wrongPassword cfg _ pw m2.area = false
                    rw [g3.area]; simpa using hwp
                have one : ∀ e, ∃ e' new, (Except.ok (some (e, acc ++ [{ m2 with flags := m2.flags ||| 4 }])) :
                    Except UB (Option (PktEnd × List MemMsg))) =
                    .ok (some (e', acc ++ new)) ∧ ∀ m ∈ new, Handed cfg po pd pw m :=
                  fun e => ⟨e, [_], rfl, by intro x hx; rw [List.mem_singleton] at hx; rw [hx]; exact hm⟩
                by_cases hh : handler acc { m2 with flags := m2.flags ||| 4 } = false
                · simp only [if_pos hh]; exact Or.inr (one _)
                · simp only [if_neg hh]
                  cases hnx : nextHdr hdr s2 with
                  | none => exact Or.inr (one _)
                  | some h' =>
                    simp only
                    have hl2 := g4.length_le
                    rcases ih h' (s2.drop 14) (acc ++ [{ m2 with flags := m2.flags ||| 4 }])
                      (by simp; omega) with ⟨e, k1, k2⟩ | ⟨e, new, k1, k2⟩
                    · exact Or.inl ⟨e, k1, hu ((List.drop_suffix _ _).trans g4) k2⟩
                    · refine Or.inr ⟨e, { m2 with flags := m2.flags ||| 4 } :: new, by rw [k1]; simp, ?_⟩
                      intro x hx
                      rw [List.mem_cons] at hx
                      rcases hx with hx | hx
                      · rw [hx]; exact hm
                      · exact k2 x hx
    · simp only [if_neg hw]
      by_cases h0 : word hdr 0 ≠ 0
      · simp only [if_pos h0]; exact Or.inr (stop _)
      · simp only [if_neg h0]; exact Or.inr (stop _)

/-! ## Whole packets -/

/-- The sender of a packet as `ReadPkt` determines it. -/
def pktSender (cfg : PktCfg) (file : List UInt8) : Node4D :=
  fixZone (cfg.nodes.map (·.node)) cfg.defaultZone (pktAddresses (file.take 58)).1

def pktReceiver (cfg : PktCfg) (file : List UInt8) : Node4D :=
  fixZone (cfg.akas.map (·.node)) cfg.defaultZone (pktAddresses (file.take 58)).2

/-- C13. Reading any file as a packet ends: either some line in it makes the reader leave the line
buffer, or the packet is accepted, rejected or abandoned, and every message handed over until then
is within the capacity of all its fields. -/
theorem readPkt_total (cfg : PktCfg) (handler : List MemMsg → MemMsg → Bool) (ctrlc : Nat → Bool)
    (junk file : List UInt8) :
    (∃ e, readPkt cfg handler ctrlc junk file = .error e ∧ Unsafe file) ∨
    ∃ e ms, readPkt cfg handler ctrlc junk file = .ok (some (e, ms)) ∧
      ∀ m ∈ ms, Handed cfg (pktSender cfg file) (pktReceiver cfg file) (pktPassword (file.take 58)) m := by
  unfold readPkt
  simp only
  by_cases h1 : (file.take 58).length ≠ 58
  · simp only [if_pos h1]; exact Or.inr ⟨_, [], rfl, by simp⟩
  · simp only [if_neg h1]
    by_cases h2 : word (file.take 58) 18 ≠ 2
    · simp only [if_pos h2]; exact Or.inr ⟨_, [], rfl, by simp⟩
    · simp only [if_neg h2]
      split
      · exact Or.inr ⟨_, [], rfl, by simp⟩
      · by_cases h4 : ((file.drop 58).take 14).length < 2
        · simp only [if_pos h4]; exact Or.inr ⟨_, [], rfl, by simp⟩
        · simp only [if_neg h4]
          rcases readMsgs_total cfg (pktSender cfg file) (pktReceiver cfg file) (pktPassword (file.take 58))
            handler ctrlc (file.length + 1) ((file.drop 58).take 14 ++ junk.drop ((file.drop 58).take 14).length)
            ((file.drop 58).drop 14) [] (by simp; omega) with ⟨e, g1, g2⟩ | ⟨e, new, g1, g2⟩
          · exact Or.inl ⟨e, g1, g2.mono ((List.drop_suffix _ _).trans (List.drop_suffix _ _))⟩
          · exact Or.inr ⟨e, new, g1, g2⟩

/-- C13. A file all of whose lines are safe is never read outside the buffers, whatever the handler
does and whenever the user interrupts. -/
theorem readPkt_safe (cfg : PktCfg) (handler : List MemMsg → MemMsg → Bool) (ctrlc : Nat → Bool)
    (junk file : List UInt8) (h : ∀ post, post <:+ file → SafeLine (lineAt post)) :
    ∃ e ms, readPkt cfg handler ctrlc junk file = .ok (some (e, ms)) ∧ ∀ m ∈ ms, MsgInv m := by
  rcases readPkt_total cfg handler ctrlc junk file with ⟨e, _, p, h1, h2⟩ | ⟨e, ms, h1, h2⟩
  · exact absurd (h p h1) h2
  · exact ⟨e, ms, h1, fun m hm => (h2 m hm).inv⟩

/-- C65. Whatever a packet contains: if its sender is a configured node with a packet password, and
security is on, then a message is handed over only if the password in the packet is the configured
one up to case, or the message is a netmail and the node is excused from passwords for netmail. -/
theorem readPkt_password (cfg : PktCfg) (handler : List MemMsg → MemMsg → Bool) (ctrlc : Nat → Bool)
    (junk file : List UInt8) (e : PktEnd) (ms : List MemMsg)
    (h : readPkt cfg handler ctrlc junk file = .ok (some (e, ms))) (m : MemMsg) (hm : m ∈ ms)
    (n : ConfigNode) (hn : findNode cfg.nodes m.pktOrig = some n) (hp : n.packetPW ≠ [])
    (hs : cfg.noSecurity = false) :
    (pktPassword (file.take 58)).map lower = n.packetPW.map lower ∨
      (m.area = [] ∧ n.has NODE_NONETMAILPASSWORD = true) := by
  rcases readPkt_total cfg handler ctrlc junk file with ⟨e', h1, _⟩ | ⟨e', ms', h1, h2⟩
  · rw [h] at h1; simp at h1
  · rw [h] at h1
    simp only [Except.ok.injEq, Option.some.injEq, Prod.mk.injEq] at h1
    obtain ⟨rfl, rfl⟩ := h1
    have hh := h2 m hm
    have hpw := hh.password
    rw [← hh.orig, hn] at hpw
    simp only [wrongPassword, hs, Bool.not_false, Bool.and_true, Bool.and_eq_false_iff, Bool.or_eq_false_iff,
      decide_eq_false_iff_not, Bool.not_eq_false', Decidable.not_not, ne_eq] at hpw
    rcases hpw with (h3 | h3) | h3
    · exact Or.inr h3
    · exact absurd h3 hp
    · exact Or.inl ((eqi_iff _ _).1 h3)

/-- C12. A packet made of a type 2 header, well-formed messages and a proper end, from a sender whose
password is accepted, is read as exactly its messages, in order, each handed over once. -/
theorem readPkt_wellformed (cfg : PktCfg) (junk h : List UInt8) (rs : List RawMsg) (tail : List UInt8)
    (hj : junk.length = 14) (hl : h.length = 58) (ht : u16At h 18 = 2)
    (hd : cfg.checkDest = true → cfg.noSecurity = false → ∃ a ∈ cfg.akas, compare4D a.node (pktAddresses h).2 = 0)
    (hr : ∀ r ∈ rs, r.OK) (htail : PktTail (rs = []) tail)
    (hp : PasswordOK cfg (pktSender cfg h) (pktPassword h)) (ms : List MemMsg)
    (hms : rs.map (interpMsg cfg (pktSender cfg h) (pktReceiver cfg h)) = ms.map fun m => .ok (some m)) :
    readPkt cfg (fun _ _ => true) (fun _ => false) junk (h ++ (rs.flatMap RawMsg.bytes ++ tail)) =
      .ok (some (.done, ms)) := by
  have e1 : (h ++ (rs.flatMap RawMsg.bytes ++ tail)).take 58 = h := List.take_left' hl
  have e2 : (h ++ (rs.flatMap RawMsg.bytes ++ tail)).drop 58 = rs.flatMap RawMsg.bytes ++ tail := List.drop_left' hl
  have hw : word h 18 = 2 := word_of_u16At (by omega) ht
  have hto : (cfg.checkDest && !cfg.noSecurity && !cfg.akas.any (fun a => compare4D a.node (pktAddresses h).2 == 0)) = false := by
    cases hc : cfg.checkDest <;> cases hn : cfg.noSecurity <;> simp
    obtain ⟨a, ha, hb⟩ := hd hc hn
    exact ⟨a, ha, hb⟩
  have etk : h.take 58 = h := List.take_of_length_le (by omega)
  unfold pktSender at hp hms
  unfold pktReceiver at hms
  rw [etk] at hp hms
  unfold readPkt
  simp only [e1, e2, hl, ne_eq, not_true, if_false, hw, hto, Bool.false_eq_true]
  cases rs with
  | nil =>
    cases ms with
    | cons _ _ => simp at hms
    | nil =>
      rcases htail with ⟨r, rfl⟩ | ⟨h0, _⟩
      · simp only [List.flatMap_nil, List.nil_append]
        rw [if_neg (by simp)]
        unfold readMsgs
        have : word ((0 :: 0 :: r).take 14 ++ junk.drop ((0 :: 0 :: r).take 14).length) 0 = 0 := by simp [word, rd16]
        rw [if_neg (by rw [this]; simp), if_neg (by rw [this]; simp)]
      · simp at h0
  | cons r rs =>
    cases ms with
    | nil => simp at hms
    | cons m ms =>
      simp only [List.map_cons, List.cons.injEq] at hms
      have hrr := hr r (by simp)
      obtain ⟨h1, h2⟩ := nextHdr_raw [] r hrr (rs.flatMap RawMsg.bytes ++ tail)
      have e3 : (r.bytes ++ (rs.flatMap RawMsg.bytes ++ tail)).take 14 = r.hdr := by
        rw [RawMsg.bytes_split]; exact List.take_left' hrr.hdr
      simp only [List.flatMap_cons, List.append_assoc, e3, h2, hrr.hdr]
      rw [if_neg (by omega)]
      rw [List.drop_of_length_le (by omega : junk.length ≤ 14), List.append_nil]
      have hcnt : ∀ rs : List RawMsg, (∀ r ∈ rs, r.OK) → rs.length ≤ (rs.flatMap RawMsg.bytes).length := by
        intro rs
        induction rs with
        | nil => simp
        | cons x rs ih =>
          intro hx
          have h1 := RawMsg.bytes_length x (hx x (by simp))
          have h2 := ih (fun y hy => hx y (by simp [hy]))
          simp only [List.length_cons, List.flatMap_cons, List.length_append]; omega
      have hc := hcnt rs (fun x hx => hr x (by simp [hx]))
      have hb := RawMsg.bytes_length r hrr
      have h0 : decide ((r :: rs) = []) = false := by simp
      rw [h0] at htail
      rw [readMsgs_all cfg _ _ _ hp rs r hrr (fun x hx => hr x (by simp [hx])) m ms hms.1 hms.2 tail htail _
        (by simp only [List.length_append]; omega)]
      simp

/-- C12, C13, converse. A packet that is read to its end, whatever the handler does, has a type 2
header, is addressed to us if that is required, and consists of well-formed messages and a proper
end; exactly these messages were handed over, in order. -/
theorem readPkt_inv (cfg : PktCfg) (handler : List MemMsg → MemMsg → Bool) (ctrlc : Nat → Bool)
    (junk file : List UInt8) (hj : junk.length = 14) (ms : List MemMsg)
    (h : readPkt cfg handler ctrlc junk file = .ok (some (.done, ms))) :
    ∃ (hd : List UInt8) (rs : List RawMsg) (tail : List UInt8),
      file = hd ++ (rs.flatMap RawMsg.bytes ++ tail) ∧ hd.length = 58 ∧ u16At hd 18 = 2 ∧
      (cfg.checkDest = true → cfg.noSecurity = false → ∃ a ∈ cfg.akas, compare4D a.node (pktAddresses hd).2 = 0) ∧
      (∀ r ∈ rs, r.OK) ∧ PktTail (rs = []) tail ∧
      rs.map (interpMsg cfg (pktSender cfg file) (pktReceiver cfg file)) = ms.map fun m => .ok (some m) := by
  unfold readPkt at h
  simp only at h
  by_cases h1 : (file.take 58).length ≠ 58
  · rw [if_pos h1] at h; simp at h
  · rw [if_neg h1] at h
    have h1' : (file.take 58).length = 58 := by simpa using h1
    by_cases h2 : word (file.take 58) 18 ≠ 2
    · rw [if_pos h2] at h; simp at h
    · rw [if_neg h2] at h
      have h2' : word (file.take 58) 18 = 2 := by simpa using h2
      split at h
      · simp at h
      · rename_i h3
        by_cases h4 : ((file.drop 58).take 14).length < 2
        · rw [if_pos h4] at h; simp at h
        · rw [if_neg h4] at h
          have hto : cfg.checkDest = true → cfg.noSecurity = false →
              ∃ a ∈ cfg.akas, compare4D a.node (pktAddresses (file.take 58)).2 = 0 := by
            intro ha hb
            simp only [ha, hb, Bool.not_false, Bool.and_true, Bool.true_and, Bool.not_eq_true', Bool.not_eq_false,
              List.any_eq_true, beq_iff_eq] at h3
            exact h3
          have h18 : u16At (file.take 58) 18 = 2 := by
            rw [u16At_of_word (by rw [h1']; omega), h2']; rfl
          have efile : file = file.take 58 ++ file.drop 58 := (List.take_append_drop _ _).symm
          rcases readMsgs_inv cfg _ _ _ handler ctrlc _ _ _ [] ms (by simp; simp at h4; omega) h with ⟨g1, g2⟩ | ⟨rs, tail, ms', g0, g1, g2, g3, g4, g5⟩
          · refine ⟨file.take 58, [], file.drop 58, by simp, h1', h18, hto, by simp, Or.inl ?_, by simp [g2]⟩
            generalize file.drop 58 = s at *
            match s, h4 with
            | [], h4 => simp at h4
            | [_], h4 => simp at h4
            | a :: b :: q, _ =>
              simp only [List.take_succ_cons, List.cons_append, word] at g1
              have h00 : (rd16 a b).toNat = 0 := by
                have : rd16 a b = 0 := by simpa using g1
                rw [this]; rfl
              have ha := a.toNat_lt; have hb := b.toNat_lt
              simp only [rd16, UInt16.toNat_ofNat'] at h00
              refine ⟨q, ?_⟩
              have : a = 0 ∧ b = 0 := by
                constructor <;> (apply UInt8.toNat_inj.1; show _ = 0; omega)
              rw [this.1, this.2]
          · simp only [List.nil_append] at g5
            subst g5
            have hlen : 14 ≤ (file.drop 58).length := by
              cases rs with
              | nil => exact absurd rfl g0
              | cons r' rs' =>
                have := congrArg List.length g1
                have h19 := RawMsg.bytes_length r' (g2 r' (by simp))
                simp [hj] at this h4 ⊢
                omega
            have hjn : junk.drop ((file.drop 58).take 14).length = [] :=
              List.drop_of_length_le (by rw [List.length_take]; omega)
            rw [hjn, List.append_nil, List.take_append_drop] at g1
            refine ⟨file.take 58, rs, tail, by rw [← g1]; exact efile, h1', h18, hto, g2, ?_, g4⟩
            have : decide (rs = []) = false := by simpa using g0
            rw [this]; exact g3

end CM
