import Verif.Model.Pack
import Verif.Props.FileOps
import Verif.Props.ArcName
import Verif.Props.Flow
import Verif.Props.PktList
import Verif.Lemmas.Post
/-! # C59, C68: packets and the outbound -/

set_option linter.unusedSimpArgs false

namespace CM

/-! ## C68: the name of a packet -/

theorem map_id_of {s : Str} {f : UInt8 → UInt8} (h : ∀ c ∈ s, f c = c) : s.map f = s := by
  induction s with
  | nil => rfl
  | cons c s ih => rw [List.map_cons, h c (by simp), ih fun x hx => h x (by simp [hx])]

theorem ofInt_toNat16 (k : UInt16) : UInt16.ofInt (k.toNat : Int) = k := by
  apply UInt16.toNat_inj.1
  have := k.toNat_lt
  simp [UInt16.ofInt]
  omega

theorem dec_word (n : Nat) : ∀ c ∈ dec n, c ≠ 32 ∧ c ≠ 9 ∧ c ≠ 92 ∧ c ≠ 10 ∧ c ≠ 34 ∧ c ≠ 95 ∧ c ≠ 47 := by
  intro c hc
  have := dec_digits n c hc
  have key : ∀ c : UInt8, isDigit c = true → c ≠ 32 ∧ c ≠ 9 ∧ c ≠ 92 ∧ c ≠ 10 ∧ c ≠ 34 ∧ c ≠ 95 ∧ c ≠ 47 := by decide +kernel
  exact key c this

theorem hexW_word (w n : Nat) : ∀ c ∈ hexW w n, c ≠ 32 ∧ c ≠ 9 ∧ c ≠ 92 ∧ c ≠ 10 ∧ c ≠ 34 ∧ c ≠ 95 ∧ c ≠ 47 := by
  intro c hc
  have := hexW_hex w n c hc
  have key : ∀ c : UInt8, (hexVal c).isSome = true → c ≠ 32 ∧ c ≠ 9 ∧ c ≠ 92 ∧ c ≠ 10 ∧ c ≠ 34 ∧ c ≠ 95 ∧ c ≠ 47 := by decide +kernel
  exact key c this

theorem typeName_ok {t : UInt8} {s : Str} (h : typeName t = .ok s) :
    s ≠ [] ∧ s.length ≤ 8 ∧ pktFlavour s = some t ∧
      ∀ c ∈ s, c ≠ 32 ∧ c ≠ 9 ∧ c ≠ 92 ∧ c ≠ 10 ∧ c ≠ 34 ∧ c ≠ 95 ∧ c ≠ 47 := by
  unfold typeName at h
  split at h
  · cases h; subst_vars; decide
  split at h
  · cases h; subst_vars; decide
  split at h
  · cases h; subst_vars; decide
  split at h
  · cases h; subst_vars; decide
  split at h
  · cases h; subst_vars; decide
  · cases h

theorem pktDoneName_ok {num : UInt32} {t : UInt8} {n : Node4D} {name : Str} (h : pktDoneName num t n = .ok name) :
    (47 : UInt8) ∉ name ∧ name.length ≤ 48 ∧ 25 ≤ name.length ∧ isNewPkt name = true := by
  unfold pktDoneName at h
  cases ht : typeName t with
  | error e => rw [ht] at h; cases h
  | ok ty =>
    rw [ht] at h
    simp only [bind, Except.bind, pure, Except.pure, Except.ok.injEq] at h
    obtain ⟨h1, h2, _, h4⟩ := typeName_ok ht
    have h5 : 4 ≤ ty.length := by
      have : ∀ t : UInt8, ∀ s, typeName t = .ok s → 4 ≤ s.length := by
        intro t s h
        unfold typeName at h
        repeat' split at h
        all_goals first | (cases h; decide) | cases h
      exact this t ty ht
    have hl := fun k : UInt16 => dec_length_le (n := k.toNat) (k := 5) (by omega) (by have := k.toNat_lt; omega)
    have hg : ∀ k, 1 ≤ (dec k).length := fun k => List.length_pos_iff.2 (dec_ne_nil k)
    subst h
    refine ⟨?_, ?_, ?_, ?_⟩
    · simp only [List.mem_append, List.mem_singleton, not_or]
      have a := fun k h => (dec_word k 47 h).2.2.2.2.2.2 rfl
      have b := fun h => (hexW_word 8 num.toNat 47 h).2.2.2.2.2.2 rfl
      have c := fun h => (h4 47 h).2.2.2.2.2.2 rfl
      refine ⟨⟨⟨⟨⟨⟨⟨⟨⟨⟨⟨b, ?_⟩, c⟩, ?_⟩, a _⟩, ?_⟩, a _⟩, ?_⟩, a _⟩, ?_⟩, a _⟩, ?_⟩ <;> decide
    · have := hl n.zone; have := hl n.net; have := hl n.node; have := hl n.point
      simp [hexW_length]; omega
    · have := hg n.zone.toNat; have := hg n.net.toNat; have := hg n.node.toNat; have := hg n.point.toNat
      simp [hexW_length]; omega
    · unfold isNewPkt
      generalize hexW 8 num.toNat ++ [95] ++ ty ++ [95] ++ dec n.zone.toNat ++ [95] ++ dec n.net.toNat ++ [95] ++
        dec n.node.toNat ++ [95] ++ dec n.point.toNat = x
      have : (x ++ b!".newpkt").length - 7 = x.length := by simp
      rw [this, List.drop_left]
      simp
      decide

/-- **C68.** The name of a finished packet says what it is for: whoever reads the name finds the class
and the destination again. `dir` is the directory, of at most 99 characters. -/
theorem pktName_roundtrip (dir : Str) (num : UInt32) (t : UInt8) (n : Node4D) (name : Str)
    (h : pktDoneName num t n = .ok name) (hd : dir.length ≤ 99) :
    parsePktName (makeFullPath dir name 200) = some (t, n) := by
  obtain ⟨hs, hl, _, _⟩ := pktDoneName_ok h
  unfold parsePktName
  rw [getFilePart_makeFullPath dir name 200 hs (by omega)]
  have : mystrncpy name 200 = name := List.take_of_length_le (by omega)
  rw [this]
  unfold pktDoneName at h
  cases ht : typeName t with
  | error e => rw [ht] at h; cases h
  | ok ty =>
    rw [ht] at h
    simp only [bind, Except.bind, pure, Except.pure, Except.ok.injEq] at h
    obtain ⟨t1, t2, t3, t4⟩ := typeName_ok ht
    subst h
    have me : ∀ s : Str, (∀ c ∈ s, c ≠ 32 ∧ c ≠ 9 ∧ c ≠ 92 ∧ c ≠ 10 ∧ c ≠ 34 ∧ c ≠ 95 ∧ c ≠ 47) →
        s.map (fun c => if c = 95 then 32 else c) = s := fun s hs =>
      map_id_of fun c hc => if_neg (hs c hc).2.2.2.2.2.1
    have m1 : ([95] : Str).map (fun c => if c = 95 then 32 else c) = [32] := by decide
    have m2 : (b!".newpkt").map (fun c => if c = 95 then 32 else c) = b!".newpkt" := by decide
    simp only [List.map_append, m1, m2, me _ (hexW_word _ _), me _ (dec_word _), me _ t4]
    have pl : ∀ s : Str, (∀ c ∈ s, c ≠ 32 ∧ c ≠ 9 ∧ c ≠ 92 ∧ c ≠ 10 ∧ c ≠ 34 ∧ c ≠ 95 ∧ c ≠ 47) →
        ∀ c ∈ s, c ≠ 32 ∧ c ≠ 9 ∧ c ≠ 92 ∧ c ≠ 10 ∧ c ≠ 34 := fun s hs c hc =>
      ⟨(hs c hc).1, (hs c hc).2.1, (hs c hc).2.2.1, (hs c hc).2.2.2.1, (hs c hc).2.2.2.2.1⟩
    have hl5 := fun k : UInt16 => dec_length_le (n := k.toNat) (k := 5) (by omega) (by have := k.toNat_lt; omega)
    have jd : ∀ (k : UInt16) (r : Str), jbstrcpy 100 (dec k.toNat ++ 32 :: r) = (dec k.toNat, r, true) := by
      intro k r
      rw [jbstrcpy_word 100 _ _ (pl _ (dec_word _)) (dec_ne_nil _) (by have := hl5 k; omega) (.inr ⟨_, rfl⟩)]
      rfl
    have j0 : ∀ r : Str, jbstrcpy 100 (hexW 8 num.toNat ++ 32 :: r) = (hexW 8 num.toNat, r, true) := by
      intro r
      rw [jbstrcpy_word 100 _ _ (pl _ (hexW_word _ _)) (fun e => by have := hexW_length 8 num.toNat; rw [e] at this; cases this)
        (by rw [hexW_length]; omega) (.inr ⟨_, rfl⟩)]
      rfl
    have j1 : ∀ r : Str, jbstrcpy 100 (ty ++ 32 :: r) = (ty, r, true) := by
      intro r
      rw [jbstrcpy_word 100 _ _ (pl _ t4) t1 (by omega) (.inr ⟨_, rfl⟩)]
      rfl
    have j5 : jbstrcpy 100 (dec n.point.toNat ++ b!".newpkt") = (dec n.point.toNat ++ b!".newpkt", [], true) := by
      have := jbstrcpy_word 100 (dec n.point.toNat ++ b!".newpkt") [] (by
        intro c hc
        rcases List.mem_append.1 hc with hc | hc
        · exact pl _ (dec_word _) c hc
        · exact (by decide : ∀ c ∈ b!".newpkt", c ≠ 32 ∧ c ≠ 9 ∧ c ≠ 92 ∧ c ≠ 10 ∧ c ≠ 34) c hc) (by simp) (by have := hl5 n.point; simp; omega) (.inl rfl)
      simpa using this
    have at1 : ∀ k : UInt16, UInt16.ofInt (atoi (dec k.toNat)) = k := by
      intro k
      have := atoi_dec k.toNat [] (by simp)
      rw [List.append_nil] at this
      rw [this]; exact ofInt_toNat16 k
    have at2 : UInt16.ofInt (atoi (dec n.point.toNat ++ b!".newpkt")) = n.point := by
      rw [atoi_dec n.point.toNat b!".newpkt" (by decide)]; exact ofInt_toNat16 n.point
    simp only [List.append_assoc, List.cons_append, List.nil_append, j0, j1, t3, jd, j5, at1, at2]

example : ∃ name, pktDoneName 0x1234abcd PKTS_CRASH ⟨2, 5030, 1559, 7⟩ = .ok name ∧
    name = b!"1234abcd_Crash_2_5030_1559_7.newpkt" ∧
    parsePktName (makeFullPath b!"/fido/packets" name 200) = some (PKTS_CRASH, ⟨2, 5030, 1559, 7⟩) :=
  ⟨_, rfl, by decide +kernel, by decide +kernel⟩

/-! ## C59: netmail packets -/

/-- A packet: a header of 58 bytes, messages and the end mark. -/
def PktOf (h : Data) (ms : List RawMsg) (c : Data) : Prop := h.length = 58 ∧ c = h ++ (ms.flatMap RawMsg.bytes ++ [0, 0])

theorem ext_ne' {a b x y : Str} (hx : x.length = 4) (hy : y.length = 4) (h : x ≠ y) : a ++ x ≠ b ++ y := by
  intro e
  exact h (List.append_inj_right' e (by omega))

/-- **C59.** Adding a netmail packet to the packet that waits for the node, if there is one: no other
file is touched; the messages that were waiting are there at every moment; and whenever the new packet
has been removed, the waiting packet is a complete packet with the old messages and after them all new
ones. If the function fails, nothing has changed. If nothing fails, it succeeds and the new packet is
removed. Writing is assumed not to fail. -/
theorem netmail_append_partial (w : World) (hw : ¬ w.writeFails) (fs : FS) (st : PackSt) (file base : Str) (type : UInt8)
    (hb : base.length < 196) (h1 h2 : Data) (ms1 ms2 : List RawMsg) (d : Data) (hne : file ≠ outFile base type)
    (hd : fs file = some d) (hp : PktOf h2 ms2 d)
    (ho : (fs (outFile base type) = none ∧ h1 = h2 ∧ ms1 = []) ∨ ∃ c, fs (outFile base type) = some c ∧ PktOf h1 ms1 c) :
    Through w (fun fs' => (∀ g, g ≠ file → g ≠ outFile base type → fs' g = fs g) ∧
        (fs' file = some d ∨ ∃ c, fs' (outFile base type) = some c ∧ PktOf h1 (ms1 ++ ms2) c) ∧
        (fs (outFile base type) ≠ none → ∃ r, fs' (outFile base type) = some (h1 ++ ms1.flatMap RawMsg.bytes ++ r)))
      (fun r fs' => (r.1 = true → ∃ c, fs' (outFile base type) = some c ∧ PktOf h1 (ms1 ++ ms2) c) ∧
        (r.1 = false → fs' = fs) ∧ r.2 = st ∧ (w.Reliable → r.1 = true ∧ fs' file = none))
      (packNetmail st file base type) fs := by
  have hlen : (outFile base type).length = base.length + 4 := by simp [outFile]
  generalize hout : outFile base type = out at *
  obtain ⟨hh2, hd2⟩ := hp
  have drop58 : d.drop 58 = ms2.flatMap RawMsg.bytes ++ [0, 0] := by rw [hd2]; exact List.drop_left' hh2
  have start : (∀ g, g ≠ file → g ≠ out → fs g = fs g) ∧
      (fs file = some d ∨ ∃ c, fs out = some c ∧ PktOf h1 (ms1 ++ ms2) c) ∧
      (fs out ≠ none → ∃ r, fs out = some (h1 ++ ms1.flatMap RawMsg.bytes ++ r)) := by
    refine ⟨fun _ _ _ => rfl, .inl hd, fun h => ?_⟩
    rcases ho with ⟨e, _⟩ | ⟨c, hc, _, rfl⟩
    · exact absurd e h
    · exact ⟨[0, 0], by rw [hc]; simp⟩
  unfold packNetmail
  rw [if_neg (by omega), hout]
  simp only [Prog.bind_eq, Prog.pure_eq, readFile, osExists, Prog.bind]
  refine .read start ?_ ?_
  · intro d' e
    rw [hd] at e
    cases e
    refine .exist start ?_
    rcases ho with ⟨hn, rfl, rfl⟩ | ⟨c, hc, hh1, hc1⟩
    · have hs : (fs out).isSome = false := by rw [hn]; rfl
      simp only [hs, Bool.false_eq_true, if_false, writeFile, Prog.bind, osDelete]
      refine .write start ?_ ?_ (fun h => absurd h hw) ?_
      · intro d' t' e
        refine ⟨fun g _ h => FS.put_ne _ h _, .inl (by rw [FS.put_ne _ hne, hd]), fun h => absurd hn h⟩
      · simp only [opened, overlay_new, if_true]
        have fin : PktOf h1 ([] ++ ms2) d := ⟨hh2, hd2⟩
        refine .delete ⟨fun g _ h => FS.put_ne _ h _, .inl (by rw [FS.put_ne _ hne, hd]), fun h => absurd hn h⟩ ?_ ?_
        · intro x hx
          have e : ((fs.put out (some d)).put file none) out = some d := by rw [FS.put_ne _ (Ne.symm hne), FS.put_self]
          refine .ret ⟨fun g h h' => by rw [FS.put_ne _ h, FS.put_ne _ h'], .inr ⟨d, e, fin⟩, fun h => absurd hn h⟩ ?_
          exact ⟨fun _ => ⟨d, e, fin⟩, by simp, rfl, fun _ => ⟨rfl, FS.put_self _ _ _⟩⟩
        · intro hf
          refine .ret ⟨fun g _ h => FS.put_ne _ h _, .inl (by rw [FS.put_ne _ hne, hd]), fun h => absurd hn h⟩ ?_
          refine ⟨fun _ => ⟨d, FS.put_self _ _ _, fin⟩, by simp, rfl, fun hr => ?_⟩
          rcases hf with hf | hf
          · rw [FS.put_ne _ hne, hd] at hf; cases hf
          · exact absurd hf hr.deletes
      · intro hof
        exact .ret start ⟨by simp, fun _ => rfl, rfl, fun hr => absurd hof hr.opens⟩
    · have hs : (fs out).isSome = true := by rw [hc]; rfl
      simp only [hs, if_true, writeFile, Prog.bind, osDelete]
      have op : opened fs out (.fromEnd 2) = (c, (h1 ++ ms1.flatMap RawMsg.bytes).length) := by
        simp only [opened, hc, Option.getD_some]
        rw [if_neg (by rw [hc1]; simp; omega), hc1]
        simp
        omega
      have ov : ∀ x, overlay c (h1 ++ ms1.flatMap RawMsg.bytes).length x = h1 ++ ms1.flatMap RawMsg.bytes ++ x ++
          ([0, 0] : Data).drop x.length := by
        intro x
        have e : c = (h1 ++ ms1.flatMap RawMsg.bytes) ++ [0, 0] := by rw [hc1]; simp
        unfold overlay
        rw [e, List.take_left, List.drop_append, List.drop_eq_nil_of_le (by omega)]
        simp
      have fin : PktOf h1 (ms1 ++ ms2) (overlay c (h1 ++ ms1.flatMap RawMsg.bytes).length (d.drop 58)) := by
        refine ⟨hh1, ?_⟩
        rw [ov, drop58, List.drop_eq_nil_of_le (by simp)]
        simp
      have mid : ∀ x, (∀ g, g ≠ file → g ≠ out → (fs.put out (some (overlay c (h1 ++ ms1.flatMap RawMsg.bytes).length x))) g = fs g) ∧
          ((fs.put out (some (overlay c (h1 ++ ms1.flatMap RawMsg.bytes).length x))) file = some d ∨
            ∃ c', (fs.put out (some (overlay c (h1 ++ ms1.flatMap RawMsg.bytes).length x))) out = some c' ∧ PktOf h1 (ms1 ++ ms2) c') ∧
          (fs out ≠ none → ∃ r, (fs.put out (some (overlay c (h1 ++ ms1.flatMap RawMsg.bytes).length x))) out =
            some (h1 ++ ms1.flatMap RawMsg.bytes ++ r)) := by
        intro x
        refine ⟨fun g _ h => FS.put_ne _ h _, .inl (by rw [FS.put_ne _ hne, hd]), fun _ => ⟨x ++ ([0, 0] : Data).drop x.length, ?_⟩⟩
        rw [FS.put_self, ov]; simp
      refine .write start ?_ ?_ (fun h => absurd h hw) ?_
      · intro d' t' e
        rw [op]
        exact mid d'
      · rw [op]
        dsimp only
        refine .delete (mid _) ?_ ?_
        · intro x hx
          have e : ((fs.put out (some (overlay c (h1 ++ ms1.flatMap RawMsg.bytes).length (d.drop 58)))).put file none) out =
              some (overlay c (h1 ++ ms1.flatMap RawMsg.bytes).length (d.drop 58)) := by
            rw [FS.put_ne _ (Ne.symm hne), FS.put_self]
          refine .ret ⟨fun g h h' => by rw [FS.put_ne _ h, FS.put_ne _ h'], .inr ⟨_, e, fin⟩, fun _ => ⟨d.drop 58 ++ ([0, 0] : Data).drop (d.drop 58).length, ?_⟩⟩
            ⟨fun _ => ⟨_, e, fin⟩, by simp, rfl, fun _ => ⟨rfl, FS.put_self _ _ _⟩⟩
          rw [e, ov]; simp
        · intro hf
          refine .ret (mid _) ⟨fun _ => ⟨_, FS.put_self _ _ _, fin⟩, by simp, rfl, fun hr => ?_⟩
          rcases hf with hf | hf
          · rw [FS.put_ne _ hne, hd] at hf; cases hf
          · exact absurd hf hr.deletes
      · intro hof
        exact .ret start ⟨by simp, fun _ => rfl, rfl, fun hr => absurd hof hr.opens⟩
  · intro hf
    refine .ret start ⟨by simp, fun _ => rfl, rfl, fun hr => ?_⟩
    rcases hf with hf | hf
    · rw [hd] at hf; cases hf
    · exact absurd hf hr.opens

/-- **C59.** A packet that netmail was added to is read as the old messages followed by the new ones. -/
theorem netmail_append_read (cfg : PktCfg) (junk h1 : List UInt8) (ms1 ms2 : List RawMsg) (c : Data)
    (hc : PktOf h1 (ms1 ++ ms2) c) (hj : junk.length = 14) (ht : u16At h1 18 = 2)
    (hd : cfg.checkDest = true → cfg.noSecurity = false → ∃ a ∈ cfg.akas, compare4D a.node (pktAddresses h1).2 = 0)
    (hr : ∀ r ∈ ms1 ++ ms2, r.OK) (hp : PasswordOK cfg (pktSender cfg h1) (pktPassword h1)) (m1 m2 : List MemMsg)
    (hm1 : ms1.map (interpMsg cfg (pktSender cfg h1) (pktReceiver cfg h1)) = m1.map fun m => .ok (some m))
    (hm2 : ms2.map (interpMsg cfg (pktSender cfg h1) (pktReceiver cfg h1)) = m2.map fun m => .ok (some m)) :
    readPkt cfg (fun _ _ => true) (fun _ => false) junk c = .ok (some (.done, m1 ++ m2)) := by
  obtain ⟨hl, rfl⟩ := hc
  refine readPkt_wellformed cfg junk h1 (ms1 ++ ms2) [0, 0] hj hl ht hd hr (.inl ⟨[], rfl⟩) hp (m1 ++ m2) ?_
  rw [List.map_append, List.map_append, hm1, hm2]

/-! ## C67: echomail packets -/

/-- The command adds the file `pkt` to the archive `arc`: it changes no other file; whatever was in the
archive is in it at every moment; and if it reports success, the packet was there and is in the
archive. `holds a d` says that the archive `a` contains a file with contents `d`. -/
structure Packs (w : World) (holds : Data → Data → Prop) (cmd arc pkt : Str) : Prop where
  during : ∀ fs fs', w.during cmd fs fs' → (∀ g, g ≠ arc → fs' g = fs g) ∧
    ∀ a d, fs arc = some a → holds a d → ∃ a', fs' arc = some a' ∧ holds a' d
  exec : ∀ fs n fs', w.exec cmd fs n fs' → (∀ g, g ≠ arc → fs' g = fs g) ∧
    (∀ a d, fs arc = some a → holds a d → ∃ a', fs' arc = some a' ∧ holds a' d) ∧
    (n = 0 → ∃ d a, fs pkt = some d ∧ fs' arc = some a ∧ holds a d)

/-- Adding a file to a flow file with lines `ls`: only the flow file changes, its lines stay, and in the
end one of them lists the file. -/
theorem doAddFlow_through (w : World) (I : FS → Prop) (o : OutCfg) (fs : FS) (file base : Str) (type : UInt8) (mode : FlowMode)
    (ls : List Str) (hb : base.length < 196) (hf : FlowFits file)
    (hls : (fs (flowFile base type) = none ∧ ls = []) ∨ fs (flowFile base type) = some (unlines ls)) (hl : ∀ l ∈ ls, FlowText l)
    (h0 : I fs) (hI : ∀ x, I (fs.put (flowFile base type) (some (unlines ls ++ x)))) :
    Through w I (fun r fs' => (fs' = fs ∨ ∃ x, fs' = fs.put (flowFile base type) (some (unlines ls ++ x))) ∧
        (r = true → ¬ w.writeFails → ∃ new, fs' (flowFile base type) = some (unlines (ls ++ new)) ∧
          (∀ l ∈ ls ++ new, FlowText l) ∧ ∃ l ∈ ls ++ new, Lists l file) ∧
        (¬ w.openFails → r = true))
      (doAddFlow o file base type mode) fs := by
  have hlen : (flowFile base type).length = base.length + 4 := by simp [flowFile]
  unfold doAddFlow
  rw [if_neg (by omega)]
  generalize flowFile base type = flow at *
  have tx := hf.text (o.cfg.has CFG_FLOWCRLF) mode
  have li : Lists (flowText (o.cfg.has CFG_FLOWCRLF) mode file) file :=
    (flowText_lists (o.cfg.has CFG_FLOWCRLF) mode file file hf.toFlowName hf.toFlowName).2 rfl
  have added : ∃ new, unlines ls ++ flowLine (o.cfg.has CFG_FLOWCRLF) mode file = unlines (ls ++ new) ∧
      (∀ l ∈ ls ++ new, FlowText l) ∧ ∃ l ∈ ls ++ new, Lists l file := by
    refine ⟨[flowText (o.cfg.has CFG_FLOWCRLF) mode file], unlines_add _ _ _ _, ?_, _, by simp, li⟩
    intro l hm
    rcases List.mem_append.1 hm with hm | hm
    · exact hl l hm
    · rw [List.mem_singleton.1 hm]; exact tx
  simp only [Prog.bind_eq, Prog.pure_eq, osExists, Prog.bind]
  refine .exist h0 ?_
  rcases hls with ⟨hn, rfl⟩ | hs
  · have hx : (fs flow).isSome = false := by rw [hn]; rfl
    have hu : ∀ x, unlines [] ++ x = x := fun x => rfl
    simp only [hx, Bool.false_eq_true, if_false, writeFile, Prog.bind]
    refine .write h0 ?_ ?_ ?_ ?_
    · intro d' t' e
      simp only [opened, overlay_new]
      exact hI d'
    · simp only [opened, overlay_new]
      obtain ⟨new, e1, e2, e3⟩ := added
      rw [hu] at e1
      refine .ret (hI _) ⟨.inr ⟨_, rfl⟩, fun _ _ => ⟨new, ?_, e2, e3⟩, fun _ => rfl⟩
      rw [FS.put_self, e1]
    · intro hw junk
      exact .ret (hI _) ⟨.inr ⟨_, rfl⟩, fun _ h => absurd hw h, fun _ => rfl⟩
    · intro ho
      exact .ret h0 ⟨.inl rfl, by simp, fun h => absurd ho h⟩
  · have hx : (fs flow).isSome = true := by rw [hs]; rfl
    simp only [hx, if_true, readFile, writeFile, Prog.bind]
    refine .read h0 ?_ ?_
    · intro d e
      rw [hs] at e
      cases e
      obtain ⟨r, hr, hrl⟩ := flowHas_lines file hf.toFlowName ls hl (unlines ls).length (length_unlines ls)
      dsimp only
      rw [hr]
      simp only [liftUB, Prog.bind]
      cases r with
      | true =>
        simp only [if_true]
        refine .ret h0 ⟨.inl rfl, fun _ _ => ⟨[], by simpa using hs, by simpa using hl, ?_⟩, fun _ => rfl⟩
        simpa using hrl.1 rfl
      | false =>
        simp only [Bool.false_eq_true, if_false]
        have op : opened fs flow (.fromEnd 0) = (unlines ls, (unlines ls).length) := by simp [opened, hs]
        have ov : ∀ x, overlay (unlines ls) (unlines ls).length x = unlines ls ++ x := by intro x; simp [overlay]
        refine .write h0 ?_ ?_ ?_ ?_
        · intro d' t' e
          simp only [op, ov]
          exact hI d'
        · simp only [op, ov]
          obtain ⟨new, e1, e2, e3⟩ := added
          refine .ret (hI _) ⟨.inr ⟨_, rfl⟩, fun _ _ => ⟨new, ?_, e2, e3⟩, fun _ => rfl⟩
          rw [FS.put_self, e1]
        · intro hw junk
          simp only [op, List.take_length]
          exact .ret (hI _) ⟨.inr ⟨_, rfl⟩, fun _ h => absurd hw h, fun _ => rfl⟩
        · intro ho
          exact .ret h0 ⟨.inl rfl, by simp, fun h => absurd ho h⟩
    · intro h
      refine .ret h0 ⟨.inl rfl, by simp, fun h' => ?_⟩
      rcases h with h | h
      · rw [hs] at h; cases h
      · exact absurd h h'

/-- The same with an orphan file if that fails. -/
theorem flowOrOrphan_through (w : World) (I : FS → Prop) (o : OutCfg) (fs : FS) (file base : Str) (n : Node4D) (type : UInt8)
    (ls : List Str) (hb : base.length < 196) (hf : FlowFits file) (hfl : file.length ≤ 192) (ht : type.toNat < 5)
    (hls : (fs (flowFile base type) = none ∧ ls = []) ∨ fs (flowFile base type) = some (unlines ls)) (hl : ∀ l ∈ ls, FlowText l)
    (h0 : I fs) (hI : ∀ x, I (fs.put (flowFile base type) (some (unlines ls ++ x))))
    (hO : ∀ fs' v, I fs' → I (fs'.put (file ++ b!".orphan") (some v))) :
    Through w I (fun _ fs' => (∀ g, g ≠ flowFile base type → g ≠ file ++ b!".orphan" → fs' g = fs g) ∧
        (¬ w.writeFails → ¬ w.openFails → ∃ new, fs' (flowFile base type) = some (unlines (ls ++ new)) ∧
          (∀ l ∈ ls ++ new, FlowText l) ∧ ∃ l ∈ ls ++ new, Lists l file))
      (flowOrOrphan o file base n type) fs := by
  unfold flowOrOrphan
  simp only [Prog.bind_eq, Prog.pure_eq]
  refine Through.bind (doAddFlow_through w I o fs file base type .delete ls hb hf hls hl h0 hI) ?_
  rintro r gs hi ⟨h1, h2, h3⟩
  have fr : ∀ g, g ≠ flowFile base type → gs g = fs g := by
    intro g hg
    rcases h1 with rfl | ⟨x, rfl⟩
    · rfl
    · exact FS.put_ne _ hg _
  cases r with
  | true =>
    simp only [if_true]
    exact .ret hi ⟨fun g h _ => fr g h, fun hw _ => h2 rfl hw⟩
  | false =>
    simp only [Bool.false_eq_true, if_false]
    unfold makeOrphan
    rw [if_neg (by omega)]
    have : ∃ p, priNames[type.toNat]? = some p := by
      have : type.toNat < priNames.length := ht
      exact ⟨_, List.getElem?_eq_getElem this⟩
    obtain ⟨p, hp⟩ := this
    rw [hp]
    simp only [Prog.bind_eq, Prog.pure_eq, writeFile, Prog.bind]
    have q : ∀ v : Data, (∀ g, g ≠ flowFile base type → g ≠ file ++ b!".orphan" → (gs.put (file ++ b!".orphan") (some v)) g = fs g) :=
      fun v g h h' => by rw [FS.put_ne _ h', fr g h]
    refine .write hi (fun d' t' e => hO _ _ hi) ?_ ?_ ?_
    · exact .ret (hO _ _ hi) ⟨q _, fun _ h => absurd (h3 h) (by simp)⟩
    · intro _ junk
      exact .ret (hO _ _ hi) ⟨q _, fun _ h => absurd (h3 h) (by simp)⟩
    · intro ho
      exact .ret hi ⟨fun g h _ => fr g h, fun _ h => absurd ho h⟩

/-- **C59.** If an error was noted while the packet was written, or while any packet was written before it
in this run, `PackFile` reports failure: success means that no error has been noted. For every disk and
every failure. -/
theorem packFile_reports (w : World) (o : OutCfg) (st : PackSt) (file : Str) (fs : FS) :
    Post w (fun r _ => r.1 = true → r.2.io = false) (packFile o st file) fs := by
  have any : ∀ {α : Type} (p : Prog α) (fs : FS), Post w (fun _ _ => True) p fs := fun _ _ _ _ _ => trivial
  have bnd : ∀ {α β : Type} {S : β → FS → Prop} (p : Prog α) (h : α → Prog β) (fs : FS), (∀ a gs, Post w S (h a) gs) → Post w S (p.bind h) fs :=
    fun p h fs hh => .bind (any p fs) fun a gs _ => hh a gs
  unfold packFile
  cases parsePktName file with
  | none => exact .ret (by simp)
  | some q =>
    simp only [Prog.bind_eq, Prog.pure_eq]
    refine bnd _ _ _ fun base gs => bnd _ _ _ fun b gs => ?_
    cases b with
    | false => exact .ret (by simp)
    | true =>
      refine bnd _ _ _ fun r gs => bnd _ _ _ fun _ gs => .ret ?_
      simp

end CM
