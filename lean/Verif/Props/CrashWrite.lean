import Verif.Lemmas.CrashWrite
import Verif.Lemmas.ReadItem
/-! # Messages written from the command line (C89) -/

set_option linter.unusedSimpArgs false

namespace CM

theorem crEnded_flatten (ls : List Str) : crEnded ls = (ls.map (· ++ [13])).flatten := by
  rw [crEnded, List.flatMap_def]

theorem crEnded_append (a b : List Str) : crEnded (a ++ b) = crEnded a ++ crEnded b := by
  simp [crEnded]

theorem hexW_not (w n : Nat) (c : UInt8) (h : c = 13 ∨ c = 10 ∨ c = 0 ∨ c = 1 ∨ c = 40) : c ∉ hexW w n := by
  intro hc
  have := hexW_hex w n c hc
  rcases h with rfl | rfl | rfl | rfl | rfl <;> exact absurd this (by decide)

theorem idLines_full (a : WriteArgs) (orig : Node4D) (num : UInt32) :
    ∀ l ∈ idLines a orig num, (13 ∉ l ∧ 10 ∉ l) ∧ l.length ≤ 40 ∧ NoNul l ∧ ∃ r, l = 1 :: b!"MSGID: " ++ r ∧ r.length ≤ 32 ∧
      r = writeNode4D orig ++ b!" " ++ hexW 8 num.toNat := by
  intro l hl
  unfold idLines at hl
  cases hb : a.noMsgid with
  | true => rw [hb] at hl; simp at hl
  | false =>
    rw [hb] at hl
    simp only [Bool.false_eq_true, if_false, List.mem_singleton] at hl
    have hw := writeNode4D_length orig
    have hh := hexW_length 8 num.toNat
    have n13 := writeNode4D_not orig 13 (by decide)
    have n10 := writeNode4D_not orig 10 (by decide)
    have n0 := writeNode4D_not orig 0 (by decide)
    have x13 := hexW_not 8 num.toNat 13 (by simp)
    have x10 := hexW_not 8 num.toNat 10 (by simp)
    have x0 := hexW_not 8 num.toNat 0 (by simp)
    subst hl
    refine ⟨⟨by simp [n13, x13], by simp [n10, x10]⟩, by simp; omega, by simp [NoNul, n0, x0],
      writeNode4D orig ++ b!" " ++ hexW 8 num.toNat, by simp, ?_, rfl⟩
    simp; omega

theorem idLines_fullLine (a : WriteArgs) (orig : Node4D) (num : UInt32) :
    ∀ l ∈ (idLines a orig num).map (· ++ [13]), FullLine l := by
  intro l hl
  obtain ⟨q, hq, rfl⟩ := List.mem_map.1 hl
  obtain ⟨h1, h2, _⟩ := idLines_full a orig num q hq
  exact ⟨q, rfl, h1, by omega⟩

theorem mem_pieces {t l : Str} {c : UInt8} (h : l ∈ pieces t) (hc : c ∈ l) : c ∈ t := by
  rw [← pieces_flatten t]
  exact List.mem_flatten.2 ⟨l, h, hc⟩

theorem noNul_append {a b : Str} (ha : NoNul a) (hb : NoNul b) : NoNul (a ++ b) := by
  simp only [NoNul, List.mem_append, not_or] at *
  exact ⟨ha, hb⟩

theorem noNul_crEnded {ls : List Str} (h : ∀ l ∈ ls, NoNul l) : NoNul (crEnded ls) := by
  intro hc
  obtain ⟨l, hl, hm⟩ := List.mem_flatMap.1 hc
  rcases List.mem_append.1 hm with h1 | h1
  · exact h l hl h1
  · simp at h1

theorem kludges_noNul (orig dest : Node4D) : NoNul (netmailKludgeLines true orig dest).flatten := by
  rw [(cwHead_net { area := none } orig dest 0 rfl).2]
  refine noNul_crEnded ?_
  have hp : ∀ n : Node4D, NoNul (print4D n) := by
    intro n
    unfold print4D NoNul
    have h := fun x : UInt16 => dec_no_nul x.toNat
    unfold NoNul at h
    split <;> simp [h]
  intro l hl
  have hd := fun x : UInt16 => dec_no_nul x.toNat
  have h1 := hp { dest with point := 0 }
  have h2 := hp { orig with point := 0 }
  unfold NoNul at hd h1 h2
  simp only [addressLines, List.mem_append, List.mem_ite_nil_left, List.mem_singleton] at hl
  rcases hl with (⟨_, rfl⟩ | ⟨_, rfl⟩) | rfl
  · simp [NoNul, hd]
  · simp [NoNul, hd]
  · simp [NoNul, h1, h2]

/-- What a run that leaves a packet behind has done. -/
theorem crashWrite_packet {argv : List Str} {t : Tm} {disk : Str → Option (List UInt8)} {time : Nat → UInt32} {fuel : Nat}
    {name : Str} {c : List UInt8} {args : List Arg} (h : crashWrite argv t disk time fuel = .packet name c)
    (ha : parseArgs cwTable argv = some args) : ∃ num n, cwPacket (writeArgs args) t num disk = some c ∧
      num = (time n <<< 8) + UInt32.ofNat n ∧ disk name = none ∧
      name = makeFullPath (writeArgs args).dir (hexW 8 num.toNat ++ b!".pkt") 200 := by
  unfold crashWrite at h
  rw [ha] at h
  dsimp only at h
  have key : ∀ fuel n num nm, cwFile (writeArgs args).dir (fun f => (disk f).isSome) time fuel n = some (num, nm) →
      ∃ n, num = (time n <<< 8) + UInt32.ofNat n ∧ disk nm = none ∧
        nm = makeFullPath (writeArgs args).dir (hexW 8 num.toNat ++ b!".pkt") 200 := by
    intro fuel
    induction fuel with
    | zero => intro n num nm h; cases h
    | succ fuel ih =>
      intro n num nm h
      unfold cwFile at h
      dsimp only at h
      split at h
      · exact ih _ _ _ h
      · next hx =>
        cases h
        exact ⟨n, rfl, by simpa using hx, rfl⟩
  cases hf : cwFile (writeArgs args).dir (fun f => (disk f).isSome) time fuel 0 with
  | none => rw [hf] at h; cases h
  | some p =>
    obtain ⟨num, nm⟩ := p
    rw [hf] at h
    dsimp only at h
    cases hp : cwPacket (writeArgs args) t num disk with
    | none => rw [hp] at h; cases h
    | some c' =>
      rw [hp] at h
      cases h
      obtain ⟨n, h1, h2, h3⟩ := key _ _ _ _ hf
      exact ⟨num, n, hp, h1, h2, h3⟩

theorem password_noNul {a : WriteArgs} (hc : CArgs a) : NoNul (a.password.getD []) := by
  cases h : a.password with
  | none => simp [NoNul]
  | some s => exact hc.password s h

/-- **C89, netmail.** The packet that a command line without an area leaves behind is a new file, and
a receiver that accepts packets between the two systems finds exactly one message in it: a netmail
between the addresses given, with the names, the subject, the time and the flags given, and with the lines
of the text file as its text, after the lines with the addresses and the identifier. The text must not
contain control lines. -/
theorem written_netmail (argv : List Str) (t : Tm) (disk : Str → Option (List UInt8)) (time : Nat → UInt32) (fuel : Nat)
    (name : Str) (c : List UInt8) (args : List Arg) (a : WriteArgs) (orig dest pO pD : Node4D) (ls : List (Str × Bool)) (last : Str)
    (cfg : PktCfg) (junk : List UInt8)
    (hrun : crashWrite argv t disk time fuel = .packet name c)
    (hargs : parseArgs cwTable argv = some args) (ha : writeArgs args = a) (hc : CArgs a)
    (harea : a.area = none) (haddr : AddrArgs a orig dest pO pD) (ht : FidoDate t)
    (htext : TextArg a disk ls last) (hp : PlainText ls last) (hu : Untorn ls)
    (hk : (∀ l ∈ ls, (1 : UInt8) ∉ l.1) ∧ (1 : UInt8) ∉ last)
    (hw : Welcome cfg pO pD (a.password.getD [])) (hj : junk.length = 14) :
    disk name = none ∧ ∃ m num, name = makeFullPath a.dir (hexW 8 num.toNat ++ b!".pkt") 200 ∧
      readPkt cfg (fun _ _ => true) (fun _ => false) junk c = .ok (some (.done, [m])) ∧
      m.area = [] ∧ m.orig = orig ∧ m.dest = dest ∧ m.pktOrig = pO ∧ m.pktDest = pD ∧
      m.to = (a.toName.getD b!"All").take 35 ∧ m.frm = (a.fromName.getD b!"CrashWrite").take 35 ∧
      m.subject = (a.subject.getD b!"Information").take 71 ∧ fidoTm m.date = .ok (some t) ∧
      m.attr = (if a.fileAttach then 17 else 1) ∧ m.cost = 0 ∧
      m.text.flatten = crEnded (addressLines orig dest ++ idLines a orig num ++ ls.map (·.1)) ++ last := by
  obtain ⟨num, n, h1, h2, h3, h4⟩ := crashWrite_packet hrun hargs
  rw [ha] at h1 h4
  refine ⟨h3, ?_⟩
  obtain ⟨e1, e2⟩ := cwHead_net a orig dest num harea
  obtain ⟨T, hT⟩ : ∃ T, T = crEnded (ls.map (·.1)) ++ last := ⟨_, rfl⟩
  obtain ⟨txt, htxt⟩ : ∃ txt, txt = (netmailKludgeLines true orig dest).flatten ++ (crEnded (idLines a orig num) ++ T) := ⟨_, rfl⟩
  have hshape := cwPacket_shape h1 haddr htext hp hu [] txt
  have etl : cwTail a orig = [] := by unfold cwTail; rw [harea]; rfl
  rw [etl, e1, ← hT, List.append_nil, List.append_assoc, ← htxt] at hshape
  have hpk := cwMsg_packable a orig dest t [] txt hc ht
  have hTn : NoNul T := by
    rw [hT]
    refine noNul_append (noNul_crEnded ?_) hp.last.1
    intro l hl
    obtain ⟨q, hq, rfl⟩ := List.mem_map.1 hl
    exact (hp.lines q hq).1
  have hT1 : (1 : UInt8) ∉ T := by
    rw [hT]
    intro hm
    rcases List.mem_append.1 hm with h | h
    · obtain ⟨l, hl, hm⟩ := List.mem_flatMap.1 h
      obtain ⟨q, hq, rfl⟩ := List.mem_map.1 hl
      rcases List.mem_append.1 hm with h | h
      · exact hk.1 q hq h
      · simp at h
    · exact hk.2 h
  have hn : NoNul txt := by
    rw [htxt]
    refine noNul_append (kludges_noNul _ _) (noNul_append (noNul_crEnded ?_) hTn)
    exact fun l hl => (idLines_full a orig num l hl).2.2.1
  have hno : ¬ b!"AREA:" <+: txt := by
    intro h
    have hhd : txt.head? = some 1 := by
      rw [htxt, e2]
      unfold addressLines crEnded
      by_cases p1 : orig.point = 0 <;> by_cases p2 : dest.point = 0 <;> simp [p1, p2]
    obtain ⟨r, hr⟩ := h
    rw [← hr] at hhd
    simp at hhd
  obtain ⟨m, i1, i2, i3, i4, i5, i6, i7, i8, i9, i10, i11, _, _, i14, _⟩ :=
    netmail_roundtrip cfg pO pD (cwMsg a orig dest t [] txt) hpk true (crEnded (idLines a orig num) ++ T)
      (by show [txt].flatten = _; simp [htxt, cwMsg])
      (by show ¬ b!"AREA:" <+: [txt].flatten; simpa using hno)
      (by
        intro l hl
        rw [crEnded_flatten, pieces_full _ _ (idLines_fullLine a orig num)] at hl
        rcases List.mem_append.1 hl with h | h
        · obtain ⟨q, hq, rfl⟩ := List.mem_map.1 h
          obtain ⟨_, _, _, r, hr, _⟩ := idLines_full a orig num q hq
          refine ⟨fun _ => Or.inr (Or.inl (by simp)), ?_⟩
          rw [hr]
          rintro (⟨u, hu⟩ | ⟨u, hu⟩ | ⟨u, hu⟩) <;> simp at hu
        · have h1 : (1 : UInt8) ∉ l := fun hc => hT1 (mem_pieces h hc)
          refine ⟨fun hh => absurd (List.mem_of_head? hh) h1, ?_⟩
          rintro (⟨u, hu⟩ | ⟨u, hu⟩ | ⟨u, hu⟩) <;> exact h1 (by rw [← hu]; simp))
  have et : (cwMsg a orig dest t [] txt).text.flatten = txt := by simp [cwMsg]
  rw [et] at i1 i2
  obtain ⟨o1, o2⟩ := i14 (Or.inr rfl)
  refine ⟨m, num, h4, ?_, i3, o1, o2, i10, i11, i4, i5, i6, ?_, ?_, i9, ?_⟩
  · rw [hshape]
    exact cwPacket_read hw (password_noNul hc) hj (toRaw_ok _ _ hpk hn) i1
  · rw [i7]; exact date_roundtrip t ht
  · rw [i8]
    show cwAttr a = _
    unfold cwAttr
    rw [harea]
    cases a.fileAttach <;> rfl
  · rw [i2, htxt, hT, e2, crEnded_append, crEnded_append]
    simp only [List.append_assoc]

/-! ## Echomail -/

theorem extractAddress_writeNode4D (p e : Str) (n : Node4D) (he : 40 ∉ e) :
    extractAddress (p ++ 40 :: (writeNode4D n ++ 41 :: e)) = .ok (some n) := by
  have h40 : (40 : UInt8) ∉ writeNode4D n ++ 41 :: e := by
    have := writeNode4D_not n 40 (by decide)
    simp [this, he]
  have hcopy : ∀ (k : Nat) (s : Str), 41 ∉ s → s.length < k → copyAddr k (s ++ 41 :: e) = .ok s := by
    intro k
    induction k with
    | zero => intro s _ h; omega
    | succ k ih =>
      intro s hs hl
      cases s with
      | nil => simp [copyAddr]
      | cons x s =>
        simp only [List.mem_cons, not_or] at hs
        simp only [List.length_cons] at hl
        rw [List.cons_append, copyAddr, if_neg (fun h => hs.1 h.symm), ih s hs.2 (by omega)]
        · rfl
  have hlen := writeNode4D_length n
  unfold extractAddress
  rw [afterLastParen_append _ _ _ h40]
  dsimp only
  obtain ⟨x, r, hx, hd⟩ := writeNode4D_head n
  have hskip : skipToDigit (writeNode4D n ++ 41 :: e) = .ok (writeNode4D n ++ 41 :: e) := by
    rw [hx, List.cons_append, skipToDigit, if_pos (Or.inr hd)]
  rw [hskip]
  simp only [bind, Except.bind]
  rw [hcopy 49 _ (writeNode4D_not n 41 (by decide)) (by omega)]
  simp only
  rw [cstr_all _ (writeNode4D_not n 0 (by decide))]
  unfold parse5D mystrncpy
  rw [List.take_of_length_le (by omega)]
  have : (writeNode4D n).takeWhile (· != 64) = writeNode4D n := by
    have := List.takeWhile_append_of_pos (p := fun c : UInt8 => c != 64) (l₁ := writeNode4D n) (l₂ := []) (by
      intro c hc
      simp only [bne_iff_ne, ne_eq]
      rintro rfl
      exact writeNode4D_not n 64 (by decide) hc)
    simpa using this
  rw [this]
  show Except.ok (parse4DTemplate (writeNode4D n) ⟨0, 0, 0, 0⟩) = _
  rw [parse4DTemplate_writeNode4D]

theorem mmAddLine_origin {m m' : MemMsg} {l : Str} {a : Node4D} (hl : b!" * Origin: " <+: l)
    (ha : extractAddress l = .ok (some a)) (h : mmAddLine m l = .ok (some m')) (hne : m'.area ≠ []) :
    m'.origin4D = if a.zone = 0 then { a with zone := m'.pktOrig.zone } else a := by
  obtain ⟨r, rfl⟩ := hl
  have hs1 : startsWith (b!" * Origin: " ++ r) b!"SEEN-BY:" = false := by simp [startsWith]
  have hs2 : startsWith (b!" * Origin: " ++ r) (1 :: b!"PATH:") = false := by simp [startsWith]
  have hs3 : startsWith (b!" * Origin: " ++ r) b!" * Origin: " = true := by simp [startsWith]
  have hhd : (b!" * Origin: " ++ r).head? ≠ some 1 := by simp
  unfold mmAddLine at h
  by_cases hm : m.area = []
  · rw [if_neg (by simp [hm]), if_neg (by simp [hm]), if_neg (by simp [hm]), if_neg hhd] at h
    exact absurd ((addText_id h).2.2.2.trans hm) hne
  · rw [if_neg (by rw [hs1]; simp), if_neg (by rw [hs2]; simp), if_pos ⟨hm, hs3⟩, ha] at h
    simp only [bind, Except.bind] at h
    unfold addText at h
    cases ht : mmAddBuf m.text (b!" * Origin: " ++ r) with
    | error e => rw [ht] at h; simp [bind, Except.bind] at h
    | ok o =>
      rw [ht] at h
      cases o with
      | none => simp [bind, Except.bind] at h
      | some x =>
        simp only [bind, Except.bind, Option.map_some, Except.ok.injEq, Option.some.injEq] at h
        subst h
        rfl

theorem addLines_snoc {ls : List Str} {l : Str} {m m' : MemMsg} (h : addLines m (ls ++ [l]) = .ok (some m')) :
    ∃ m1, mmAddLine m1 l = .ok (some m') := by
  induction ls generalizing m with
  | nil =>
    simp only [List.nil_append, addLines] at h
    split at h
    · cases h
    · cases h
    · next m1 h1 =>
      exact ⟨m, by rw [h1]; simpa [addLines] using h⟩
  | cons x ls ih =>
    simp only [List.cons_append, addLines] at h
    split at h
    · cases h
    · cases h
    · exact ih h

theorem safeOrigin_cr {l : Str} (h : SafeOrigin l) : SafeOrigin (l ++ [13]) := by
  rcases h with h | ⟨a, b, d, c, e, h1, h2, h3, h4⟩
  · left; simp [h]
  · right
    refine ⟨a, b, d, c, e ++ [13], by rw [h1]; simp, ?_, h3, h4⟩
    simp only [List.mem_append, List.mem_cons, not_or, List.not_mem_nil, not_false_eq_true, and_true] at h2 ⊢
    exact ⟨h2.1, h2.2.1, h2.2.2.1, h2.2.2.2.1, h2.2.2.2.2, by decide⟩

/-- A line that can be part of the text of an echomail. -/
structure EchoLine (l : Str) : Prop where
  len : l.length ≤ 197
  noCtrl : (1 : UInt8) ∉ l
  noSeen : ¬ b!"SEEN-BY:" <+: l
  origin : b!" * Origin: " <+: l → SafeOrigin l

theorem prefix_cr {p l : Str} (h : p <+: l ++ [13]) (h13 : (13 : UInt8) ∉ p) : p <+: l := by
  rcases List.prefix_concat_iff.1 h with e | e
  · exact absurd (by rw [e]; simp) h13
  · exact e

/-- **C89, echomail.** The packet that a command line with an area leaves behind is a new file, and a
receiver that accepts packets between the two systems finds exactly one message in it: an echomail in the
area given, with the names, the subject and the time given, with the lines of the text file as its
text, between the identifier and the closing lines, with this identifier and with the address given as its
origin. The text must end with a line end, must not contain control lines or SEEN-BY lines, and its lines
must not be longer than 197 bytes. -/
theorem written_echomail (argv : List Str) (t : Tm) (disk : Str → Option (List UInt8)) (time : Nat → UInt32) (fuel : Nat)
    (name : Str) (c : List UInt8) (args : List Arg) (a : WriteArgs) (orig dest pO pD : Node4D) (ls : List (Str × Bool))
    (tag : Str) (cfg : PktCfg) (junk : List UInt8)
    (hrun : crashWrite argv t disk time fuel = .packet name c)
    (hargs : parseArgs cwTable argv = some args) (ha : writeArgs args = a) (hc : CArgs a)
    (harea : a.area = some tag) (htag : AreaName tag) (haddr : AddrArgs a orig dest pO pD) (ht : FidoDate t)
    (htext : TextArg a disk ls []) (hp : PlainText ls []) (hu : Untorn ls) (hk : ∀ l ∈ ls, EchoLine l.1)
    (ho : ∀ o, a.origin = some o → (13 : UInt8) ∉ o ∧ (10 : UInt8) ∉ o)
    (hw : Welcome cfg pO pD (a.password.getD [])) (hj : junk.length = 14) :
    disk name = none ∧ ∃ m num, name = makeFullPath a.dir (hexW 8 num.toNat ++ b!".pkt") 200 ∧
      readPkt cfg (fun _ _ => true) (fun _ => false) junk c = .ok (some (.done, [m])) ∧
      m.area = tag ∧ m.pktOrig = pO ∧ m.pktDest = pD ∧
      m.to = (a.toName.getD b!"All").take 35 ∧ m.frm = (a.fromName.getD b!"CrashWrite").take 35 ∧
      m.subject = (a.subject.getD b!"Information").take 71 ∧ fidoTm m.date = .ok (some t) ∧
      m.attr = (if a.fileAttach then 16 else 0) ∧ m.cost = 0 ∧
      m.text.flatten = crEnded (idLines a orig num ++ ls.map (·.1) ++ closingLines a orig) ∧
      m.seenBy.flatten = [] ∧ m.path.flatten = [] ∧
      m.msgid = (if a.noMsgid then [] else writeNode4D orig ++ b!" " ++ hexW 8 num.toNat) ∧
      m.origin4D = (if orig.zone = 0 then { orig with zone := pO.zone } else orig) := by
  obtain ⟨num, n, h1, h2, h3, h4⟩ := crashWrite_packet hrun hargs
  rw [ha] at h1 h4
  refine ⟨h3, ?_⟩
  -- the lines
  obtain ⟨L, hL⟩ : ∃ L, L = idLines a orig num ++ ls.map (·.1) ++ closingLines a orig := ⟨_, rfl⟩
  obtain ⟨og, hog⟩ : ∃ og, og = (a.origin.getD b!"Another user of CrashMail II").take 79 := ⟨_, rfl⟩
  have hogp : NoNul og ∧ (13 : UInt8) ∉ og ∧ (10 : UInt8) ∉ og ∧ og.length ≤ 79 := by
    have : NoNul (a.origin.getD b!"Another user of CrashMail II") ∧ (13 : UInt8) ∉ (a.origin.getD b!"Another user of CrashMail II") ∧
        (10 : UInt8) ∉ (a.origin.getD b!"Another user of CrashMail II") := by
      cases h : a.origin with
      | none => decide
      | some s => exact ⟨hc.origin s h, ho s h⟩
    rw [hog]
    exact ⟨fun h => this.1 (List.mem_of_mem_take h), fun h => this.2.1 (List.mem_of_mem_take h),
      fun h => this.2.2 (List.mem_of_mem_take h), by rw [List.length_take]; omega⟩
  obtain ⟨g0, g13, g10, gl⟩ := hogp
  obtain ⟨ol, hol⟩ : ∃ ol, ol = b!" * Origin: " ++ og ++ b!" (" ++ writeNode4D orig ++ b!")" := ⟨_, rfl⟩
  have hcl : closingLines a orig = [b!"--- CrashWrite II/Linux 1.5.1", ol] := by rw [hol, hog]; rfl
  have w13 := writeNode4D_not orig 13 (by decide)
  have w10 := writeNode4D_not orig 10 (by decide)
  have w0 := writeNode4D_not orig 0 (by decide)
  have w40 := writeNode4D_not orig 40 (by decide)
  have wl := writeNode4D_length orig
  have holp : (13 ∉ ol ∧ 10 ∉ ol) ∧ ol.length ≤ 197 ∧ NoNul ol := by
    rw [hol]
    refine ⟨⟨by simp [g13, w13], by simp [g10, w10]⟩, by simp; omega, ?_⟩
    unfold NoNul at g0
    simp [NoNul, g0, w0]
  have holx : ol ++ [13] = (b!" * Origin: " ++ og ++ b!" ") ++ 40 :: (writeNode4D orig ++ 41 :: [13]) := by
    rw [hol]; simp
  have holo : SafeOrigin (ol ++ [13]) := by
    obtain ⟨x, r, hx, hd⟩ := writeNode4D_head orig
    right
    refine ⟨b!" * Origin: " ++ og ++ b!" ", [], [x], r, [13], ?_, ?_, by simp, x, rfl, hd⟩
    · rw [holx, hx]; rfl
    · rw [hx] at w40
      simp only [List.mem_cons, not_or] at w40
      simp [w40.1, w40.2]
  -- every line
  have hall : ∀ l ∈ L, (13 ∉ l ∧ 10 ∉ l) ∧ l.length ≤ 197 ∧ NoNul l ∧
      (SafeEcho (l ++ [13]) ∧ ¬ b!"SEEN-BY:" <+: l ++ [13] ∧ ¬ (1 :: b!"PATH:") <+: l ++ [13]) := by
    intro l hl
    rw [hL, hcl] at hl
    have hsk : SafeKludge (l ++ [13]) := fun _ => Or.inr (Or.inl (by simp))
    simp only [List.mem_append, List.mem_cons, List.not_mem_nil, or_false] at hl
    rcases hl with (h | h) | rfl | rfl
    · obtain ⟨q1, q2, q3, r, hr, _⟩ := idLines_full a orig num l h
      have hx : ∀ p : Str, p <+: l ++ [13] → p.head? = none ∨ p.head? = some 1 := by
        rintro p ⟨u, hu⟩
        cases p with
        | nil => left; rfl
        | cons y p => rw [hr] at hu; simp at hu; right; simp [hu.1]
      have hpath : ¬ (1 :: b!"PATH:") <+: l ++ [13] := by
        rintro ⟨u, hu⟩; rw [hr] at hu; simp at hu
      refine ⟨q1, by omega, q3, ⟨hsk, fun h => ?_, fun h => absurd h hpath, fun h => ?_⟩, fun h => ?_, hpath⟩
      all_goals exact absurd (hx _ h) (by decide)
    · obtain ⟨q, hq, rfl⟩ := List.mem_map.1 h
      obtain ⟨k1, k2, k3, k4⟩ := hk q hq
      obtain ⟨p0, p13, p10⟩ := hp.lines q hq
      have hseen : ¬ b!"SEEN-BY:" <+: q.1 ++ [13] := fun h => k3 (prefix_cr h (by decide))
      have hpath : ¬ (1 :: b!"PATH:") <+: q.1 ++ [13] := by
        intro h
        obtain ⟨u, hu⟩ := prefix_cr h (by decide)
        exact k2 (by rw [← hu]; simp)
      exact ⟨⟨p13, p10⟩, k1, p0, ⟨hsk, fun h => absurd h hseen, fun h => absurd h hpath,
        fun h => safeOrigin_cr (k4 (prefix_cr h (by decide)))⟩, hseen, hpath⟩
    · refine ⟨by decide, by decide, by decide, ⟨hsk, fun h => ?_, fun h => ?_, fun h => ?_⟩, fun h => ?_, fun h => ?_⟩
      all_goals (obtain ⟨u, hu⟩ := h; simp at hu)
    · refine ⟨holp.1, holp.2.1, holp.2.2, ⟨hsk, fun h => ?_, fun h => ?_, fun _ => holo⟩, fun h => ?_, fun h => ?_⟩
      all_goals (obtain ⟨u, hu⟩ := h; rw [hol] at hu; simp at hu)
  have hpcs : pieces (crEnded L) = L.map (· ++ [13]) := by
    have := pieces_full (L.map (· ++ [13])) [] (by
      intro l hl
      obtain ⟨q, hq, rfl⟩ := List.mem_map.1 hl
      obtain ⟨q1, q2, _⟩ := hall q hq
      exact ⟨q, rfl, q1, q2⟩)
    rw [List.append_nil] at this
    rw [crEnded_flatten, this]
    simp [pieces, piecesFrom]
  -- the packet
  obtain ⟨txt, htxt⟩ : ∃ txt, txt = crEnded L := ⟨_, rfl⟩
  have hshape := cwPacket_shape h1 haddr htext hp hu tag txt
  rw [cwTail_echo a orig tag harea, cwHead_echo a orig dest num tag harea] at hshape
  have htx : b!"AREA:" ++ (tag ++ 13 :: crEnded (idLines a orig num)) ++ (crEnded (ls.map (·.1)) ++ []) ++ crEnded (closingLines a orig) =
      b!"AREA:" ++ (tag ++ 13 :: txt) := by
    rw [htxt, hL, crEnded_append, crEnded_append]
    simp only [List.append_assoc, List.cons_append, List.append_nil]
  rw [htx] at hshape
  have hpk := cwMsg_packable a orig dest t tag txt hc ht
  have hn : NoNul txt := by rw [htxt]; exact noNul_crEnded fun l hl => (hall l hl).2.2.1
  have et : (cwMsg a orig dest t tag txt).text.flatten = txt := by simp [cwMsg]
  have hLne : ∃ L', L = L' ++ [ol] := ⟨idLines a orig num ++ ls.map (·.1) ++ [b!"--- CrashWrite II/Linux 1.5.1"], by rw [hL, hcl]; simp⟩
  obtain ⟨L', hL'⟩ := hLne
  obtain ⟨sb, s1, s2, m, i1, i2, i3, i4, i5, i6, i7, i8, i9, i10, i11, i12, i13, _, _, _, i17, _⟩ :=
    echomail_roundtrip cfg pO pD (cwMsg a orig dest t tag txt) { node := ⟨0, 0, 0, 0⟩, flags := NODE_NOSEENBY } ⟨0, 0, 0, 0⟩ hpk htag
      (by
        rw [et, htxt, hL', crEnded_append]
        right
        simp [crEnded])
      (by rw [et]; exact hn)
      (by
        rw [et, htxt, hpcs]
        intro l hl
        obtain ⟨q, hq, rfl⟩ := List.mem_map.1 hl
        exact (hall q hq).2.2.2)
      (by constructor <;> intro b hb <;> simp [cwMsg] at hb) (by simp [cwMsg]) (by intro l hl; simp [cwMsg] at hl)
  have hsb : sb = [] := by
    have : echoSeenBy (cwMsg a orig dest t tag txt) { node := ⟨0, 0, 0, 0⟩, flags := NODE_NOSEENBY } ⟨0, 0, 0, 0⟩ = .ok [] := by
      unfold echoSeenBy
      rw [if_neg (by decide), if_pos (by decide)]
    rw [this] at s1
    exact (Except.ok.inj s1).symm
  have hec : echoText (cwMsg a orig dest t tag txt) sb = b!"AREA:" ++ (tag ++ 13 :: txt) := by
    unfold echoText
    rw [et, hsb]
    simp [cwMsg, pathBytes]
  rw [hec] at i1 s2
  rw [et] at i3 i17
  have htagne : tag ≠ [] := by
    rintro h0; obtain ⟨c, hc, _⟩ := htag.last; rw [h0] at hc; simp at hc
  refine ⟨m, num, h4, ?_, i2, i10, i11, i4, i5, i6, ?_, ?_, i9, by rw [i3, htxt, hL], ?_, i12, ?_, ?_⟩
  · rw [hshape]
    exact cwPacket_read hw (password_noNul hc) hj (toRaw_ok _ _ hpk s2) i1
  · rw [i7]; exact date_roundtrip t ht
  · rw [i8]
    show cwAttr a = _
    unfold cwAttr
    rw [harea, Option.isNone_some]
    cases a.fileAttach <;> decide
  · have : (sentSeenBy (cwMsg a orig dest t tag txt) { node := ⟨0, 0, 0, 0⟩, flags := NODE_NOSEENBY } ⟨0, 0, 0, 0⟩) = [] := by
      unfold sentSeenBy
      rw [if_neg (by decide), if_pos (by decide)]
    rw [this] at i13
    exact List.Perm.eq_nil (by simpa using i13)
  · rw [i17, htxt, msgidOf, hpcs, hL, List.map_append, List.map_append, List.foldl_append, List.foldl_append]
    have keep : ∀ (X : List Str) (id : Str), (∀ l ∈ X, ¬ (1 :: b!"MSGID:") <+: l) → X.foldl idFrom id = id := by
      intro X
      induction X with
      | nil => intro id _; rfl
      | cons l X ih =>
        intro id h
        rw [List.foldl_cons, idFrom, if_neg (h l (by simp)), ih _ fun x hx => h x (by simp [hx])]
    rw [keep ((closingLines a orig).map _), keep ((ls.map (·.1)).map _)]
    · unfold idLines
      cases hb : a.noMsgid with
      | true => rfl
      | false =>
        simp only [Bool.false_eq_true, if_false, List.map_cons, List.map_nil, List.foldl_cons, List.foldl_nil, idFrom]
        rw [if_pos (by exact ⟨_, by simp only [List.append_assoc, List.cons_append]; rfl⟩)]
        have hx13 := hexW_not 8 num.toNat 13 (by simp)
        have hxl := hexW_length 8 num.toNat
        have e : (1 :: b!"MSGID: " ++ writeNode4D orig ++ b!" " ++ hexW 8 num.toNat ++ [13]).drop 8 =
            (writeNode4D orig ++ b!" " ++ hexW 8 num.toNat) ++ [13] := by simp
        rw [e, List.takeWhile_append_of_pos (by
          intro c hcm
          simp only [ne_eq, decide_not, Bool.not_eq_eq_eq_not, Bool.not_true, decide_eq_false_iff_not]
          rintro rfl
          simp [w13, hx13] at hcm)]
        rw [List.takeWhile_cons_of_neg (by decide), List.append_nil, List.take_of_length_le (by simp; omega)]
    · intro l hl
      obtain ⟨q, hq, rfl⟩ := List.mem_map.1 hl
      obtain ⟨y, hy, rfl⟩ := List.mem_map.1 hq
      intro h
      obtain ⟨u, hu⟩ := prefix_cr h (by decide)
      exact (hk y hy).noCtrl (by rw [← hu]; simp)
    · intro l hl
      obtain ⟨q, hq, rfl⟩ := List.mem_map.1 hl
      rw [hcl] at hq
      simp only [List.mem_cons, List.not_mem_nil, or_false] at hq
      rintro ⟨u, hu⟩
      rcases hq with rfl | rfl
      · simp at hu
      · rw [hol] at hu; simp at hu
  · -- the origin
    have hpt : pieces (b!"AREA:" ++ (tag ++ 13 :: txt)) = (b!"AREA:" ++ tag ++ [13]) :: (L'.map (· ++ [13]) ++ [ol ++ [13]]) := by
      have : b!"AREA:" ++ (tag ++ 13 :: txt) = (b!"AREA:" ++ tag) ++ 13 :: txt := by simp
      rw [this, pieces_line _ _ ⟨by simp [htag.noCR.1], by simp [htag.noCR.2]⟩ (by have := htag.len; simp; omega), htxt, hpcs, hL']
      simp
    unfold interpMsg interpText at i1
    rw [show (toRaw (cwMsg a orig dest t tag txt) (b!"AREA:" ++ (tag ++ 13 :: txt))).text = b!"AREA:" ++ (tag ++ 13 :: txt) from rfl, hpt] at i1
    dsimp only at i1
    cases hf : firstLine (rawStart cfg pO pD (toRaw (cwMsg a orig dest t tag txt) (b!"AREA:" ++ (tag ++ 13 :: txt))))
        (b!"AREA:" ++ tag ++ [13]) with
    | error e => rw [hf] at i1; cases i1
    | ok o =>
      rw [hf] at i1
      cases o with
      | none => cases i1
      | some m1 =>
        dsimp only at i1
        cases hg : addLines m1 (L'.map (· ++ [13]) ++ [ol ++ [13]]) with
        | error e => rw [hg] at i1; cases i1
        | ok o =>
          rw [hg] at i1
          cases o with
          | none => cases i1
          | some m2 =>
            simp only [Except.ok.injEq, Option.some.injEq] at i1
            obtain ⟨m3, hm3⟩ := addLines_snoc hg
            have hne : m2.area ≠ [] := by
              have : m2.area = tag := by rw [← i1] at i2; exact i2
              rw [this]; exact htagne
            have hpo : m2.pktOrig = pO := by rw [← i1] at i10; exact i10
            have := mmAddLine_origin (a := orig) (l := ol ++ [13]) ⟨og ++ b!" (" ++ writeNode4D orig ++ b!")" ++ [13], by rw [hol]; simp⟩
              (by rw [holx]; exact extractAddress_writeNode4D _ _ _ (by simp)) hm3 hne
            rw [← i1, ← hpo]
            exact this

/-! ## When there is no packet, and the text in general -/

/-- **C89, errors.** A run that ends leaves no packet behind exactly if the command line is not understood, an
address in it is not an address, or the text file does not exist. -/
theorem written_nothing (argv : List Str) (t : Tm) (disk : Str → Option (List UInt8)) (time : Nat → UInt32) (fuel : Nat)
    (hs : crashWrite argv t disk time fuel ≠ .stuck) :
    crashWrite argv t disk time fuel = .refused ↔ parseArgs cwTable argv = none ∨ ∃ args, parseArgs cwTable argv = some args ∧
      ((¬ ∃ o d p q, AddrArgs (writeArgs args) o d p q) ∨ ∃ f, (writeArgs args).text = some f ∧ disk f = none) := by
  unfold crashWrite at hs ⊢
  cases hp : parseArgs cwTable argv with
  | none => simp
  | some args =>
    rw [hp] at hs
    dsimp only at hs ⊢
    cases hf : cwFile (writeArgs args).dir (fun f => (disk f).isSome) time fuel 0 with
    | none => rw [hf] at hs; exact absurd rfl hs
    | some x =>
      obtain ⟨num, name⟩ := x
      dsimp only
      have key : cwPacket (writeArgs args) t num disk = none ↔
          ((¬ ∃ o d p q, AddrArgs (writeArgs args) o d p q) ∨ ∃ f, (writeArgs args).text = some f ∧ disk f = none) := by
        have hbody : cwBody (writeArgs args) disk = none ↔ ∃ f, (writeArgs args).text = some f ∧ disk f = none := by
          unfold cwBody
          cases h : (writeArgs args).text with
          | none => simp
          | some f => simp
        rw [← hbody]
        unfold cwPacket
        cases h1 : cwAddr ⟨0, 0, 0, 0⟩ (writeArgs args).fromAddr with
        | none =>
          refine ⟨fun _ => Or.inl ?_, fun _ => rfl⟩
          rintro ⟨o, d, p, q, h⟩
          have := (cwAddr_iff _ _ _).2 h.frm
          rw [h1] at this; cases this
        | some o =>
          cases h2 : cwAddr ⟨0, 0, 0, 0⟩ (writeArgs args).toAddr with
          | none =>
            refine ⟨fun _ => Or.inl ?_, fun _ => rfl⟩
            rintro ⟨o, d, p, q, h⟩
            have := (cwAddr_iff _ _ _).2 h.to
            rw [h2] at this; cases this
          | some d =>
            cases h3 : cwAddr o (writeArgs args).pktFrom with
            | none =>
              refine ⟨fun _ => Or.inl ?_, fun _ => by simp [h3]⟩
              rintro ⟨o', d', p, q, h⟩
              have e := (cwAddr_iff _ _ _).2 h.frm
              rw [h1] at e
              cases e
              have := (cwAddr_iff _ _ _).2 h.pktFrm
              rw [h3] at this; cases this
            | some p =>
              cases h4 : cwAddr d (writeArgs args).pktTo with
              | none =>
                refine ⟨fun _ => Or.inl ?_, fun _ => by simp [h3, h4]⟩
                rintro ⟨o', d', p, q, h⟩
                have e := (cwAddr_iff _ _ _).2 h.to
                rw [h2] at e
                cases e
                have := (cwAddr_iff _ _ _).2 h.pktTo
                rw [h4] at this; cases this
              | some q =>
                have hx : ∃ o d p q, AddrArgs (writeArgs args) o d p q :=
                  ⟨o, d, p, q, (cwAddr_iff _ _ _).1 h1, (cwAddr_iff _ _ _).1 h2, (cwAddr_iff _ _ _).1 h3, (cwAddr_iff _ _ _).1 h4⟩
                cases hb : cwBody (writeArgs args) disk with
                | none => simp [h3, h4, hb]
                | some b => simp [h3, h4, hb, hx]
      have : (∃ args', some args = some args' ∧ ((¬ ∃ o d p q, AddrArgs (writeArgs args') o d p q) ∨
          ∃ f, (writeArgs args').text = some f ∧ disk f = none)) ↔
          ((¬ ∃ o d p q, AddrArgs (writeArgs args) o d p q) ∨ ∃ f, (writeArgs args).text = some f ∧ disk f = none) :=
        ⟨by rintro ⟨_, e, h⟩; cases e; exact h, fun h => ⟨args, rfl, h⟩⟩
      rw [this, ← key]
      cases cwPacket (writeArgs args) t num disk <;> simp

/-- **C89, the text.** What becomes of a text file whose lines contain no line ends and no NULs: each line
is followed by CR. A line with CR and LF at its end gets another, empty, line if the buffer ends between
the two. -/
theorem written_text (ls : List (Str × Bool)) (last : Str) (h : PlainText ls last) : cwText (textFile ls last) =
    crEnded (ls.flatMap fun l => l.1 :: if l.2 = true ∧ l.1.length % 99 = 98 then [[]] else []) ++ last := by
  rw [cwText_file ls last h]
  congr 1
  clear h
  induction ls with
  | nil => rfl
  | cons l ls ih =>
    rw [List.flatMap_cons, List.flatMap_cons, crEnded_append, ih]
    split <;> simp [crEnded]

namespace Ex

/-- A command line for a netmail. -/
def cwNet : List Str := [b!"FROMNAME", b!"Ann", b!"FROMADDR", b!"2:200/111.5", b!"TONAME", b!"Bob", b!"TOADDR", b!"2:201/5",
  b!"SUBJECT", b!"Hello", b!"DIR", b!"in", b!"TEXT", b!"t.txt", b!"PASSWORD", b!"secret"]

/-- A command line for an echomail. -/
def cwEcho : List Str := [b!"FROMNAME", b!"Ann", b!"FROMADDR", b!"2:200/111.5", b!"TOADDR", b!"2:201/5",
  b!"AREA", b!"R20.TEST", b!"DIR", b!"in", b!"TEXT", b!"t.txt", b!"ORIGIN", b!"(here)"]

def cwTm : Tm := ⟨33, 22, 11, 1, 0, 91⟩

/-- A disk with a text file and a packet. -/
def cwDisk (text : List UInt8) (f : Str) : Option (List UInt8) :=
  if f = b!"t.txt" then some text else if f = b!"in/00000100.pkt" then some [1, 2, 3] else none

def cwCfg : PktCfg :=
  { akas := [{ node := ⟨2, 201, 5, 0⟩ }], nodes := [{ node := ⟨2, 200, 111, 5⟩, packetPW := b!"SECRET" }], checkDest := true }

/-- The arguments as parsed. -/
def cwArgs (argv : List Str) : WriteArgs := writeArgs ((parseArgs cwTable argv).getD [])

/-- The message that the receiver finds. -/
def cwRead (argv : List Str) (text : List UInt8) (cfg : PktCfg) : Option MemMsg :=
  match crashWrite argv cwTm (cwDisk text) (fun _ => 1) 3 with
  | .packet _ c =>
    match readPkt cfg (fun _ _ => true) (fun _ => false) (List.replicate 14 0) c with
    | .ok (some (.done, [m])) => some m
    | _ => none
  | _ => none

def cwTxt : List (Str × Bool) := [(b!"Hello Bob,", true), ([], false), (b!"how are you?", false)]

def cwNetArgs : WriteArgs where
  fromName := some b!"Ann"
  fromAddr := some b!"2:200/111.5"
  toName := some b!"Bob"
  toAddr := some b!"2:201/5"
  subject := some b!"Hello"
  dir := b!"in"
  text := some b!"t.txt"
  password := some b!"secret"

/-- The name of the packet. -/
def cwPktName : CwEnd → Option Str
  | .packet n _ => some n
  | _ => none

/-- The closing lines of the example. -/
def cwEnds : Str := b!"--- CrashWrite II/Linux 1.5.1\r" ++ b!" * Origin: (here) (2:200/111.5)\r"

/-- The hypotheses of `written_netmail` are met: the first packet name is in use. -/
example : (∃ c, crashWrite cwNet cwTm (cwDisk (textFile cwTxt b!"-Ann")) (fun _ => 1) 3 = .packet b!"in/00000101.pkt" c) ∧
    (parseArgs cwTable cwNet).isSome ∧ CArgs (cwArgs cwNet) ∧ (cwArgs cwNet).area = none ∧
    AddrArgs (cwArgs cwNet) ⟨2, 200, 111, 5⟩ ⟨2, 201, 5, 0⟩ ⟨2, 200, 111, 5⟩ ⟨2, 201, 5, 0⟩ ∧ FidoDate cwTm ∧
    TextArg (cwArgs cwNet) (cwDisk (textFile cwTxt b!"-Ann")) cwTxt b!"-Ann" ∧ PlainText cwTxt b!"-Ann" ∧ Untorn cwTxt ∧
    ((∀ l ∈ cwTxt, (1 : UInt8) ∉ l.1) ∧ (1 : UInt8) ∉ b!"-Ann") ∧
    Welcome cwCfg ⟨2, 200, 111, 5⟩ ⟨2, 201, 5, 0⟩ ((cwArgs cwNet).password.getD []) := by
  have hargs : cwArgs cwNet = cwNetArgs := by decide +kernel
  rw [hargs]
  refine ⟨?_, by decide +kernel, ⟨?_, ?_, ?_, ?_, ?_⟩, rfl, ⟨?_, ?_, ?_, ?_⟩, ⟨by decide, by decide, by decide, by decide, by decide, by decide⟩,
    Or.inr ⟨_, rfl, rfl⟩, ⟨by decide +kernel, by decide⟩, by unfold Untorn; decide +kernel, by decide +kernel, ⟨by decide, by decide, ?_, by decide, ?_⟩⟩
  · have : ∀ r : CwEnd, cwPktName r = some b!"in/00000101.pkt" → ∃ c, r = .packet b!"in/00000101.pkt" c := by
      intro r h
      cases r with
      | packet n c => exact ⟨c, by rw [Option.some.inj h]⟩
      | refused => cases h
      | stuck => cases h
    exact this _ (by decide +kernel)
  all_goals first
    | (intro s h; cases h; done)
    | (intro s h; cases h; decide)
    | exact Or.inr ⟨_, rfl, by decide +kernel⟩
    | exact Or.inl ⟨rfl, rfl⟩
    | skip

/-- The netmail as it is read. -/
theorem cw_netmail : (cwRead cwNet (textFile cwTxt b!"-Ann") cwCfg).map (fun m => (m.orig, m.dest, m.to, m.text.flatten)) =
    some (⟨2, 200, 111, 5⟩, ⟨2, 201, 5, 0⟩, b!"Bob",
      1 :: b!"FMPT 5\r" ++ 1 :: b!"INTL 2:201/5 2:200/111\r" ++ 1 :: b!"MSGID: 2:200/111.5 00000101\rHello Bob,\r\rhow are you?\r-Ann") := by
  decide +kernel

/-- The hypotheses of `written_echomail` on the lines are met, also by a quoted origin line. -/
example : EchoLine b!"Hello" ∧ EchoLine b!" * Origin: somewhere (1:2/3)" ∧ AreaName b!"R20.TEST" ∧
    (cwArgs cwEcho).area = some b!"R20.TEST" :=
  ⟨⟨by decide, by decide, by decide, fun h => absurd h (by decide)⟩,
   ⟨by decide, by decide, by decide, fun _ => Or.inr ⟨b!" * Origin: somewhere ", [], b!"1", b!":2/3", [], by decide, by decide, by decide,
     49, rfl, by decide⟩⟩,
   ⟨by decide, by decide, by decide, by decide, 84, by decide, by decide⟩, by decide +kernel⟩

/-- The echomail as it is read. -/
theorem cw_echomail : (cwRead cwEcho (textFile cwTxt []) { cwCfg with noSecurity := true }).map
      (fun m => (m.area, m.to, m.subject)) = some (b!"R20.TEST", b!"All", b!"Information") ∧
    (cwRead cwEcho (textFile cwTxt []) { cwCfg with noSecurity := true }).map
      (fun m => (m.msgid, m.origin4D, m.text.flatten)) = some (b!"2:200/111.5 00000101", ⟨2, 200, 111, 5⟩,
      1 :: b!"MSGID: 2:200/111.5 00000101\rHello Bob,\r\rhow are you?\r" ++ cwEnds) := by
  decide +kernel

/-- C89 (violated): if the text of an echomail does not end with a line end, the tear line is glued to its
last line. -/
theorem cw_glued : (cwRead cwEcho b!"Bye" { cwCfg with noSecurity := true }).map (fun m => m.text.flatten) =
    some (1 :: b!"MSGID: 2:200/111.5 00000101\rBye" ++ cwEnds) := by
  decide +kernel

/-- C89 (violated): a line of 98 bytes that ends with CR and LF is followed by an empty line. -/
theorem cw_torn : cwText (textFile [(List.replicate 98 97, true), (b!"b", true)] []) =
    crEnded [List.replicate 98 97, [], b!"b"] := by decide +kernel

/-- C89 (violated): a control line in the text of a netmail changes its addresses. -/
theorem cw_control : (cwRead cwNet (1 :: b!"INTL 3:3/3 4:4/4\n") cwCfg).map (fun m => (m.orig, m.dest)) =
    some (⟨4, 4, 4, 5⟩, ⟨3, 3, 3, 0⟩) := by decide +kernel

/-- C89 (violated): a quoted SEEN-BY line disappears from the text of an echomail and is taken for one of
the message. -/
theorem cw_seenby : (cwRead cwEcho b!"You wrote:\nSEEN-BY: 201/5 9\n" { cwCfg with noSecurity := true }).map
      (fun m => (m.seenBy.flatten, m.text.flatten)) =
    some ([(201, 5), (201, 9)],
      1 :: b!"MSGID: 2:200/111.5 00000101\rYou wrote:\r" ++ cwEnds) := by
  decide +kernel

/-- C89 (violated): a NUL in the text file ends the line, at the beginning of a line it ends the text. -/
theorem cw_nul : cwText (b!"ab" ++ 0 :: b!"cd\nef\n" ++ 0 :: b!"gh\nij\n") = b!"abef\r" := by decide +kernel

end Ex

end CM
