import Verif.Spec.CrashWrite
import Verif.Lemmas.Nodelist
import Verif.Lemmas.ReadBack
import Verif.Props.PktRound
import Verif.Props.PktFile
import Verif.Props.Date
import Verif.Props.Pack
/-! # Messages written from the command line: lemmas -/

set_option linter.unusedSimpArgs false

namespace CM

/-! ## The text -/

/-- What the loop over the text file writes. -/
def cwLoop (n : Nat) (f : List UInt8) : Str :=
  (fileLines 100 n f).flatMap fun l => l.map fun c => if c = 10 then 13 else c

theorem cwLoop_step {n : Nat} {f r : List UInt8} {s : Str} (h : osFGets 100 f = some (s, r)) (hs : s ≠ []) :
    cwLoop (n + 1) f = (s.map fun c => if c = 10 then 13 else c) ++ cwLoop n r := by
  unfold cwLoop
  rw [fileLines, h]
  simp only [hs, if_false, List.flatMap_cons]

theorem map_noLf {l : Str} (h : (10 : UInt8) ∉ l) : (l.map fun c => if c = 10 then 13 else c) = l := by
  induction l with
  | nil => rfl
  | cons a t ih =>
    simp only [List.mem_cons, not_or] at h
    rw [List.map_cons, if_neg (fun e => h.1 e.symm), ih h.2]

theorem fgetsRaw_full (l r : List UInt8) (n : Nat) (h : (10 : UInt8) ∉ l) (hn : l.length = n) :
    fgetsRaw n (l ++ r) = (l, r) := by
  induction l generalizing n with
  | nil => subst hn; rfl
  | cons a t ih =>
    subst hn
    simp only [List.mem_cons, not_or] at h
    rw [List.length_cons, List.cons_append, fgetsRaw, if_neg (by simpa using Ne.symm h.1), ih _ h.2 rfl]

/-- A full buffer without a line end. -/
theorem osFGets_full (l r : List UInt8) (h0 : NoNul l) (h : (10 : UInt8) ∉ l) (hn : l.length = 99) :
    osFGets 100 (l ++ r) = some (l, r) := by
  unfold osFGets
  rw [if_neg (by rintro e; simp at e; simp [e.1] at hn), fgetsRaw_full l r _ h hn]
  dsimp only
  rw [cstr_all _ h0, fixCrLf_last _ h]

theorem nlText_short {l : Str} (h0 : NoNul l) (h : (10 : UInt8) ∉ l) (hl : l.length ≤ 498) : NlText l := ⟨h0, h, hl⟩

theorem noNul_take {l : Str} (k : Nat) (h : NoNul l) : NoNul (l.take k) ∧ NoNul (l.drop k) :=
  ⟨fun hc => h (List.mem_of_mem_take hc), fun hc => h (List.mem_of_mem_drop hc)⟩

/-- A line ended by LF. -/
theorem cwLoop_lf (l r : List UInt8) (h0 : NoNul l) (h13 : (13 : UInt8) ∉ l) (h10 : (10 : UInt8) ∉ l) (n : Nat)
    (hn : (l ++ 10 :: r).length < n) : ∃ k, r.length < k ∧ cwLoop n (l ++ 10 :: r) = l ++ 13 :: cwLoop k r := by
  induction n using Nat.strongRecOn generalizing l with
  | ind n ih =>
  obtain ⟨m, rfl⟩ : ∃ m, n = m + 1 := ⟨n - 1, by omega⟩
  simp only [List.length_append, List.length_cons] at hn
  by_cases hl : l.length ≤ 98
  · refine ⟨m, by omega, ?_⟩
    have hs := osFGets_line l r 100 (nlText_short h0 h10 (by omega)) (by omega)
    rw [if_neg (fun e => h13 (List.mem_of_getLast? e))] at hs
    rw [cwLoop_step hs (by simp), List.map_append, map_noLf h10]
    simp
  · have e : l ++ 10 :: r = l.take 99 ++ (l.drop 99 ++ 10 :: r) := by
      rw [← List.append_assoc, List.take_append_drop]
    have hs := osFGets_full (l.take 99) (l.drop 99 ++ 10 :: r) (noNul_take _ h0).1 (fun h => h10 (List.mem_of_mem_take h))
      (by simp; omega)
    rw [e, cwLoop_step hs (by intro e2; have := congrArg List.length e2; rw [List.length_take, List.length_nil] at this; omega),
      map_noLf (fun h => h10 (List.mem_of_mem_take h))]
    obtain ⟨k, hk, hh⟩ := ih m (by omega) (l.drop 99) (noNul_take _ h0).2 (fun h => h13 (List.mem_of_mem_drop h))
      (fun h => h10 (List.mem_of_mem_drop h)) (by simp; omega)
    exact ⟨k, hk, by rw [hh, ← List.append_assoc, List.take_append_drop]⟩

/-- A line ended by CR and LF. -/
theorem cwLoop_crlf (l r : List UInt8) (h0 : NoNul l) (h13 : (13 : UInt8) ∉ l) (h10 : (10 : UInt8) ∉ l) (n : Nat)
    (hn : (l ++ 13 :: 10 :: r).length < n) : ∃ k, r.length < k ∧ cwLoop n (l ++ 13 :: 10 :: r) =
      l ++ 13 :: ((if l.length % 99 = 98 then [13] else []) ++ cwLoop k r) := by
  induction n using Nat.strongRecOn generalizing l with
  | ind n ih =>
  obtain ⟨m, rfl⟩ : ∃ m, n = m + 1 := ⟨n - 1, by omega⟩
  simp only [List.length_append, List.length_cons] at hn
  have hcr : NoNul (l ++ [13]) := by
    simp only [NoNul, List.mem_append, not_or]
    exact ⟨h0, by decide⟩
  have hlf : (10 : UInt8) ∉ l ++ [13] := by simp [h10]
  have ec : l ++ 13 :: 10 :: r = (l ++ [13]) ++ 10 :: r := by simp
  by_cases hl : l.length ≤ 97
  · refine ⟨m, by omega, ?_⟩
    have hs := osFGets_line (l ++ [13]) r 100 (nlText_short hcr hlf (by simp; omega)) (by simp; omega)
    rw [if_pos (by simp), List.dropLast_concat] at hs
    rw [ec, cwLoop_step hs (by simp), List.map_append, map_noLf h10, if_neg (by omega)]
    simp
  · by_cases h98 : l.length = 98
    · have hs := osFGets_full (l ++ [13]) (10 :: r) hcr hlf (by simp [h98])
      obtain ⟨k, hk, hh⟩ := cwLoop_lf [] r (by simp [NoNul]) (by simp) (by simp) m (by simp; omega)
      refine ⟨k, hk, ?_⟩
      rw [ec, cwLoop_step hs (by simp), map_noLf hlf, if_pos (by omega)]
      rw [List.nil_append] at hh
      rw [hh]
      simp
    · have e : l ++ 13 :: 10 :: r = l.take 99 ++ (l.drop 99 ++ 13 :: 10 :: r) := by
        rw [← List.append_assoc, List.take_append_drop]
      have hs := osFGets_full (l.take 99) (l.drop 99 ++ 13 :: 10 :: r) (noNul_take _ h0).1 (fun h => h10 (List.mem_of_mem_take h))
        (by simp; omega)
      rw [e, cwLoop_step hs (by intro e2; have := congrArg List.length e2; rw [List.length_take, List.length_nil] at this; omega),
        map_noLf (fun h => h10 (List.mem_of_mem_take h))]
      obtain ⟨k, hk, hh⟩ := ih m (by omega) (l.drop 99) (noNul_take _ h0).2 (fun h => h13 (List.mem_of_mem_drop h))
        (fun h => h10 (List.mem_of_mem_drop h)) (by simp; omega)
      have em : (l.drop 99).length % 99 = l.length % 99 := by
        rw [List.length_drop]; omega
      rw [em] at hh
      exact ⟨k, hk, by rw [hh, ← List.append_assoc, List.take_append_drop]⟩

/-- The rest of a file without a line end. -/
theorem cwLoop_last (l : List UInt8) (h0 : NoNul l) (h10 : (10 : UInt8) ∉ l) (n : Nat) (hn : l.length < n) : cwLoop n l = l := by
  induction n using Nat.strongRecOn generalizing l with
  | ind n ih =>
  obtain ⟨m, rfl⟩ : ∃ m, n = m + 1 := ⟨n - 1, by omega⟩
  by_cases he : l = []
  · subst he; simp [cwLoop, fileLines, osFGets]
  by_cases hl : l.length ≤ 99
  · rw [cwLoop_step (osFGets_last l 100 (nlText_short h0 h10 (by omega)) he (by omega)) he, map_noLf h10]
    obtain ⟨k, rfl⟩ : ∃ k, m = k + 1 := ⟨m - 1, by
      have : l.length ≠ 0 := by simpa using he
      omega⟩
    simp [cwLoop, fileLines, osFGets]
  · have hs := osFGets_full (l.take 99) (l.drop 99) (noNul_take _ h0).1 (fun h => h10 (List.mem_of_mem_take h)) (by simp; omega)
    rw [List.take_append_drop] at hs
    rw [cwLoop_step hs (by intro e2; have := congrArg List.length e2; rw [List.length_take, List.length_nil] at this; omega),
      map_noLf (fun h => h10 (List.mem_of_mem_take h)),
      ih m (by omega) (l.drop 99) (noNul_take _ h0).2 (fun h => h10 (List.mem_of_mem_drop h)) (by simp; omega),
      List.take_append_drop]

theorem cwLoop_file (ls : List (Str × Bool)) (last : Str) (h : PlainText ls last) (n : Nat)
    (hn : (textFile ls last).length < n) : cwLoop n (textFile ls last) =
      (ls.flatMap fun l => l.1 ++ 13 :: if l.2 = true ∧ l.1.length % 99 = 98 then [13] else []) ++ last := by
  induction ls generalizing n with
  | nil => exact cwLoop_last last h.last.1 h.last.2.2 n (by simpa [textFile] using hn)
  | cons l ls ih =>
    obtain ⟨l, b⟩ := l
    obtain ⟨a0, a13, a10⟩ := h.lines (l, b) (by simp)
    have ht : PlainText ls last := ⟨fun x hx => h.lines x (by simp [hx]), h.last⟩
    cases b with
    | false =>
      have e : textFile ((l, false) :: ls) last = l ++ 10 :: textFile ls last := by simp [textFile]
      rw [e] at hn ⊢
      obtain ⟨k, hk, hh⟩ := cwLoop_lf l _ a0 a13 a10 n hn
      rw [hh, ih ht k hk]
      simp
    | true =>
      have e : textFile ((l, true) :: ls) last = l ++ 13 :: 10 :: textFile ls last := by simp [textFile]
      rw [e] at hn ⊢
      obtain ⟨k, hk, hh⟩ := cwLoop_crlf l _ a0 a13 a10 n hn
      rw [hh, ih ht k hk]
      simp

theorem cwText_file (ls : List (Str × Bool)) (last : Str) (h : PlainText ls last) : cwText (textFile ls last) =
    (ls.flatMap fun l => l.1 ++ 13 :: if l.2 = true ∧ l.1.length % 99 = 98 then [13] else []) ++ last :=
  cwLoop_file ls last h _ (Nat.lt_succ_self _)

theorem cwText_whole (ls : List (Str × Bool)) (last : Str) (h : PlainText ls last) (hw : Untorn ls) :
    cwText (textFile ls last) = crEnded (ls.map (·.1)) ++ last := by
  rw [cwText_file ls last h]
  congr 1
  unfold crEnded
  rw [List.flatMap_map]
  clear h
  induction ls with
  | nil => rfl
  | cons l ls ih =>
    have := hw l (by simp)
    rw [List.flatMap_cons, List.flatMap_cons, ih (fun x hx => hw x (by simp [hx])), if_neg (fun h => this h.1 h.2)]

/-! ## The packet -/

/-- The message in the packet. -/
def cwMsg (a : WriteArgs) (orig dest : Node4D) (t : Tm) (area text : Str) : MemMsg :=
  { orig := orig, dest := dest, attr := cwAttr a, date := makeFidoDate t, area := area, text := [text]
    to := cwName b!"All" a.toName 36, frm := cwName b!"CrashWrite" a.fromName 36
    subject := cwName b!"Information" a.subject 72 }

/-- The date in the packet header. -/
def cwDate (t : Tm) : PktDate :=
  ⟨UInt16.ofInt (t.year + 1900), UInt16.ofInt t.mon, UInt16.ofInt t.mday, UInt16.ofInt t.hour, UInt16.ofInt t.min, UInt16.ofInt t.sec⟩

theorem cwHeader_eq (o d : Node4D) (pw : Str) (t : Tm) : cwHeader o d pw t = pktHeader o d pw (cwDate t) := by
  unfold cwHeader pktHeader pktHeaderA pktHeaderB pktHeaderC pwField cwDate
  generalize UInt16.ofInt (t.year + 1900) = y
  generalize UInt16.ofInt t.mon = mo
  generalize UInt16.ofInt t.mday = dd
  generalize UInt16.ofInt t.hour = hh
  generalize UInt16.ofInt t.min = mi
  generalize UInt16.ofInt t.sec = ss
  generalize (pw ++ List.replicate 8 0).take 8 = p
  simp only [List.append_assoc, List.cons_append, List.nil_append]

theorem makeFidoDate_ok (t : Tm) (h : FidoDate t) : NoNul (makeFidoDate t) ∧ (makeFidoDate t).length ≤ 19 := by
  obtain ⟨⟨s1, s2⟩, ⟨m1, m2⟩, ⟨h1, h2⟩, ⟨d1, d2⟩, ⟨o1, o2⟩, ⟨y1, y2⟩⟩ := h
  have hmon : ∀ m : Fin 12, NoNul ((monthNames ++ [b!"???"]).getD m.val []) ∧ ((monthNames ++ [b!"???"]).getD m.val []).length = 3 := by
    decide +kernel
  obtain ⟨hm, hl⟩ := hmon ⟨t.mon.toNat, by omega⟩
  dsimp only at hm hl
  have hd : ∀ n : Nat, NoNul (dec2 n) := by
    intro n
    unfold dec2
    split
    · have := dec_no_nul n
      simp only [NoNul, List.mem_cons, not_or] at *
      exact ⟨by decide, this⟩
    · exact dec_no_nul n
  have h2 : ∀ n : Nat, n < 100 → (dec2 n).length = 2 := fun n hn => by rw [dec2_two n hn]; rfl
  have n32 : NoNul b!" " ∧ NoNul b!"  " ∧ NoNul b!":" := by decide
  unfold makeFidoDate
  constructor
  · simp only [NoNul, List.mem_append, not_or] at *
    simp only [hd, hm, n32, not_false_eq_true, and_self]
  · simp only [List.length_append, hl, h2 _ (show t.mday.toNat < 100 by omega), h2 _ (show t.year.toNat % 100 < 100 by omega),
      h2 _ (show t.hour.toNat < 100 by omega), h2 _ (show t.min.toNat < 100 by omega), h2 _ (show t.sec.toNat < 100 by omega)]
    decide

theorem cwName_ok (d : Str) (o : Option Str) (k : Nat) (hd : NoNul d) (h : ∀ s, o = some s → NoNul s) :
    NoNul (cwName d o k) ∧ (cwName d o k).length ≤ k - 1 ∧ cwName d o k = (o.getD d).take (k - 1) := by
  have h0 : NoNul (o.getD d) := by
    cases o with
    | none => exact hd
    | some s => exact h s rfl
  refine ⟨(noNul_take _ h0).1, ?_, rfl⟩
  unfold cwName mystrncpy
  rw [List.length_take]; omega

theorem cwMsg_packable (a : WriteArgs) (orig dest : Node4D) (t : Tm) (area text : Str) (hc : CArgs a) (ht : FidoDate t) :
    Packable (cwMsg a orig dest t area text) := by
  obtain ⟨a1, a2, _⟩ := cwName_ok b!"All" a.toName 36 (by decide) hc.toName
  obtain ⟨b1, b2, _⟩ := cwName_ok b!"CrashWrite" a.fromName 36 (by decide) hc.fromName
  obtain ⟨c1, c2, _⟩ := cwName_ok b!"Information" a.subject 72 (by decide) hc.subject
  exact ⟨makeFidoDate_ok t ht, ⟨a1, a2⟩, ⟨b1, b2⟩, ⟨c1, c2⟩⟩

theorem cwAddr_iff (d : Node4D) (o : Option Str) (n : Node4D) : cwAddr d o = some n ↔ AddrArg d o n := by
  unfold cwAddr AddrArg
  cases o with
  | none => simp [eq_comm]
  | some s => simp

theorem addrArg_unique {d : Node4D} {o : Option Str} {n m : Node4D} (h : AddrArg d o n) (h' : AddrArg d o m) : n = m := by
  rw [← cwAddr_iff] at h h'
  exact Option.some.inj (h.symm.trans h')

/-- The packet as a packet file in the sense of the reader. -/
theorem cwPacket_shape {a : WriteArgs} {t : Tm} {num : UInt32} {disk : Str → Option (List UInt8)} {c : List UInt8}
    {orig dest pO pD : Node4D} {ls : List (Str × Bool)} {last : Str} (h : cwPacket a t num disk = some c)
    (ha : AddrArgs a orig dest pO pD) (ht : TextArg a disk ls last) (hp : PlainText ls last) (hw : Untorn ls)
    (area text : Str) : c = pktHeader pO pD (a.password.getD []) (cwDate t) ++
      ([toRaw (cwMsg a orig dest t area text) (cwHead a orig dest num ++ (crEnded (ls.map (·.1)) ++ last) ++ cwTail a orig)].flatMap
        RawMsg.bytes ++ [0, 0]) := by
  have h1 := (cwAddr_iff _ _ _).2 ha.frm
  have h2 := (cwAddr_iff _ _ _).2 ha.to
  have h3 := (cwAddr_iff _ _ _).2 ha.pktFrm
  have h4 := (cwAddr_iff _ _ _).2 ha.pktTo
  have h5 : cwBody a disk = some (crEnded (ls.map (·.1)) ++ last) := by
    unfold cwBody
    rcases ht with ⟨e, rfl, rfl⟩ | ⟨f, e, hf⟩
    · rw [e]; rfl
    · rw [e]
      show (disk f).map cwText = _
      rw [hf, Option.map_some, cwText_whole ls last hp hw]
  unfold cwPacket at h
  rw [h1] at h
  simp only [Option.bind_eq_bind, Option.bind_some, h2, h3, h4, h5] at h
  rw [← Option.some.inj h, cwHeader_eq]
  simp [RawMsg.bytes, toRaw, cwMsg, msgHeaderFixed, cwMsgHeader]

/-- A packet with one message that can be read. -/
theorem cwPacket_read {cfg : PktCfg} {junk : List UInt8} {pO pD : Node4D} {pw : Str} {d : PktDate} {r : RawMsg} {m : MemMsg}
    (hw : Welcome cfg pO pD pw) (hn : NoNul pw) (hj : junk.length = 14) (hr : r.OK)
    (hm : interpMsg cfg pO pD r = .ok (some m)) :
    readPkt cfg (fun _ _ => true) (fun _ => false) junk (pktHeader pO pD pw d ++ ([r].flatMap RawMsg.bytes ++ [0, 0])) =
      .ok (some (.done, [m])) := by
  obtain ⟨e1, e2⟩ := pktHeader_addresses pO pD pw d (Or.inl hw.zones.1) hw.net
  have e3 := pktHeader_length pO pD pw d
  have e4 : (pktHeader pO pD pw d).take 58 = pktHeader pO pD pw d := List.take_of_length_le (by omega)
  have e5 : pktSender cfg (pktHeader pO pD pw d) = pO := by
    unfold pktSender fixZone
    rw [e4, e2, if_pos hw.zones.1]
  have e6 : pktReceiver cfg (pktHeader pO pD pw d) = pD := by
    unfold pktReceiver fixZone
    rw [e4, e2, if_pos hw.zones.2]
  refine readPkt_wellformed cfg junk _ [r] [0, 0] hj e3 ?_ ?_ ?_ ?_ ?_ [m] ?_
  · rw [u16At_of_word (by omega), e1]; rfl
  · rw [e2]; exact hw.toMe
  · intro x hx; rw [List.mem_singleton.1 hx]; exact hr
  · exact Or.inl ⟨[], rfl⟩
  · rw [e5, pktHeader_password _ _ _ _ hn hw.short]
    intro area
    unfold wrongPassword
    cases hf : findNode cfg.nodes pO with
    | none => rfl
    | some n =>
      rcases hw.password n hf with h | h
      · simp [h]
      · have := (eqi_iff pw n.packetPW).2 h
        simp [this]
  · rw [e5, e6]
    simp [hm]

/-! ## The lines around the text -/

theorem writeNode4D_chars (n : Node4D) : ∀ c ∈ writeNode4D n, isDigit c = true ∨ c = 58 ∨ c = 47 ∨ c = 46 := by
  intro c hc
  simp only [writeNode4D, List.mem_append, List.mem_singleton] at hc
  rcases hc with (((((h | h) | h) | h) | h) | h) | h
  · exact Or.inl (dec_digits _ _ h)
  · exact Or.inr (Or.inl (by simpa using h))
  · exact Or.inl (dec_digits _ _ h)
  · exact Or.inr (Or.inr (Or.inl (by simpa using h)))
  · exact Or.inl (dec_digits _ _ h)
  · exact Or.inr (Or.inr (Or.inr (by simpa using h)))
  · exact Or.inl (dec_digits _ _ h)

theorem writeNode4D_not (n : Node4D) (c : UInt8) (h : isDigit c = false ∧ c ≠ 58 ∧ c ≠ 47 ∧ c ≠ 46) : c ∉ writeNode4D n := by
  intro hc
  rcases writeNode4D_chars n c hc with e | e | e | e
  · rw [h.1] at e; exact absurd e (by decide)
  · exact h.2.1 e
  · exact h.2.2.1 e
  · exact h.2.2.2 e

theorem cwHead_net (a : WriteArgs) (orig dest : Node4D) (num : UInt32) (h : a.area = none) :
    cwHead a orig dest num = (netmailKludgeLines true orig dest).flatten ++ crEnded (idLines a orig num) ∧
    (netmailKludgeLines true orig dest).flatten = crEnded (addressLines orig dest) := by
  constructor
  · unfold cwHead netmailKludgeLines crEnded idLines
    rw [h]
    have ea : addr4 orig = writeNode4D orig := rfl
    rw [ea]
    by_cases h1 : orig.point = 0 <;> by_cases h2 : dest.point = 0 <;> cases a.noMsgid <;> simp [h1, h2]
  · unfold netmailKludgeLines addressLines crEnded print4D
    by_cases h1 : orig.point = 0 <;> by_cases h2 : dest.point = 0 <;> simp [h1, h2]

theorem cwHead_echo (a : WriteArgs) (orig dest : Node4D) (num : UInt32) (tag : Str) (h : a.area = some tag) :
    cwHead a orig dest num = b!"AREA:" ++ (tag ++ 13 :: crEnded (idLines a orig num)) := by
  unfold cwHead crEnded idLines
  rw [h]
  have ea : addr4 orig = writeNode4D orig := rfl
  rw [ea]
  cases a.noMsgid <;> simp

theorem cwTail_echo (a : WriteArgs) (orig : Node4D) (tag : Str) (h : a.area = some tag) :
    cwTail a orig = crEnded (closingLines a orig) := by
  unfold cwTail crEnded closingLines
  have ea : addr4 orig = writeNode4D orig := rfl
  rw [h, ea]
  simp [cwName, mystrncpy]

end CM
