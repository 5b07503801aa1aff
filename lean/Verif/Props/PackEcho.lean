import Verif.Lemmas.Pack
/-! # C67: echomail packets are not lost -/

set_option linter.unusedSimpArgs false

namespace CM

/-- The state between packets: the last bundles have bundle names, the archives are archives, and there
is room for `k` more. -/
structure StOK (st : PackSt) (k : Nat) : Prop where
  last : ∀ p ∈ st.last, p.2 = [] ∨ ∃ b d k, BundleName b d k p.2
  arcs : ∀ fe ∈ st.arcs, isArc fe.name = true
  few : st.arcs.length + st.last.length + k < 2 ^ 32

theorem mem_modify {α : Type} {l : List α} {i : Nat} {f : α → α} {x : α} (h : x ∈ l.modify i f) : x ∈ l ∨ ∃ y ∈ l, x = f y := by
  induction l generalizing i with
  | nil => cases i <;> simp at h
  | cons a l ih =>
    cases i with
    | zero =>
      simp at h
      rcases h with rfl | h
      · exact .inr ⟨a, by simp, rfl⟩
      · exact .inl (by simp [h])
    | succ i =>
      simp at h
      rcases h with rfl | h
      · exact .inl (by simp)
      · rcases ih h with h | ⟨y, h1, h2⟩
        · exact .inl (by simp [h])
        · exact .inr ⟨y, by simp [h1], h2⟩

/-- The bundle for a node. -/
theorem newArcName_through (w : World) (I : FS → Prop) (o : OutCfg) (st : PackSt) (i k : Nat) (fs : FS)
    (hwd : ∀ t, (o.wday t).toNat < 7) (hst : StOK st k) (h0 : I fs) (hI : ∀ v, I (fs.put (indexName o) (some v))) :
    Through w I (fun r fs' => (∃ b d k, BundleName b d k r.1) ∧ StOK r.2 k ∧ r.2.io = st.io ∧
        ∀ g, g ≠ indexName o → fs' g = fs g) (newArcName o st i) fs := by
  unfold newArcName
  simp only [Prog.bind_eq, Prog.pure_eq, osTime, Prog.bind]
  refine .time h0 fun t => ?_
  have hc : ((st.last[i]?.map (·.2)).getD []) = [] ∨ ∃ b d k, BundleName b d k ((st.last[i]?.map (·.2)).getD []) := by
    cases hi : st.last[i]? with
    | none => exact .inl rfl
    | some p => exact hst.last p (List.mem_of_getElem? hi)
  obtain ⟨name, b, d, j, hn, hb, -⟩ := arcname_current_or_new (o.cfg.has CFG_WEEKDAYNAMING) o.maxBundle t (o.wday t) st.arcs
    (st.last.map (·.2)) _ (hwd t) (by have := hst.few; simp; omega) hst.arcs hc
  rw [hn]
  simp only [liftUB, Prog.bind]
  split
  · exact .ret h0 ⟨⟨b, d, j, hb⟩, hst, rfl, fun _ _ => rfl⟩
  · have hl := (bundle_form hb).1
    have st' : StOK { st with last := st.last.modify i fun p => (p.1, name.take 12) } k := by
      refine ⟨?_, hst.arcs, by simpa using hst.few⟩
      intro p hp
      rcases mem_modify hp with hp | ⟨q, hq, rfl⟩
      · exact hst.last p hp
      · right
        dsimp only
        rw [List.take_of_length_le (by omega)]
        exact ⟨b, d, j, hb⟩
    simp only [writeFile, Prog.bind]
    refine .write h0 (fun d' t' e => hI _) ?_ ?_ ?_
    · exact .ret (hI _) ⟨⟨b, d, j, hb⟩, st', rfl, fun g hg => FS.put_ne _ hg _⟩
    · intro _ junk
      exact .ret (hI _) ⟨⟨b, d, j, hb⟩, st', rfl, fun g hg => FS.put_ne _ hg _⟩
    · intro _
      exact .ret h0 ⟨⟨b, d, j, hb⟩, st', rfl, fun _ _ => rfl⟩

/-- Reading the size of the bundle. -/
theorem updateFile_through (w : World) (I : FS → Prop) (st : PackSt) (dir arc : Str) (k : Nat) (fs : FS)
    (hst : StOK st (k + 1)) (harc : IsBundle dir arc) (hd : dir.length ≤ 99) (h0 : I fs) :
    Through w I (fun r fs' => fs' = fs ∧ StOK r k ∧ r.io = st.io) (updateFile st arc) fs := by
  unfold updateFile
  have hst' : StOK st k := ⟨hst.last, hst.arcs, by have := hst.few; omega⟩
  simp only [Prog.bind_eq, Prog.pure_eq, readFile, Prog.bind]
  refine .read h0 (fun d hd' => ?_) (fun _ => .ret h0 ⟨rfl, hst', rfl⟩)
  dsimp only
  cases hf : st.arcs.findIdx? fun fe => eqi fe.name arc with
  | some i =>
    refine .ret h0 ⟨rfl, ⟨hst.last, ?_, by have := hst.few; simp; omega⟩, rfl⟩
    intro fe hfe
    rcases mem_modify hfe with h | ⟨y, hy, rfl⟩
    · exact hst.arcs _ h
    · exact hst.arcs y hy
  | none =>
    obtain ⟨name, b, j, m, hb, rfl⟩ := harc
    obtain ⟨h1, h2, _⟩ := bundle_form hb
    refine .ret h0 ⟨rfl, ⟨hst.last, ?_, by have := hst.few; simp; omega⟩, rfl⟩
    intro fe hfe
    rcases List.mem_append.1 hfe with h | h
    · exact hst.arcs _ h
    · rw [List.mem_singleton.1 h, getFilePart_bundle hb hd]
      dsimp only
      rw [show mystrncpy name 100 = name from List.take_of_length_le (by omega)]
      exact h2

/-- The files that packing an echomail packet can change. -/
def EchoFile (o : OutCfg) (file pkt base : Str) (pri : UInt8) (g : Str) : Prop :=
  g = file ∨ g = pkt ∨ g = indexName o ∨ g = flowFile base pri ∨
    ∃ arc, IsBundle o.cfg.packetDir arc ∧ (g = arc ∨ g = arc ++ b!".orphan")

/-- What holds while an echomail packet is packed: no other file is changed; the packet is complete
under its old or its temporary name, or is in an archive; archives keep what is in them; and the flow
file keeps its lines. -/
structure Packing (o : OutCfg) (holds : Data → Data → Prop) (file pkt base : Str) (pri : UInt8) (ls : List Str) (d : Data)
    (fs fs' : FS) : Prop where
  other : ∀ g, ¬ EchoFile o file pkt base pri g → fs' g = fs g
  packet : fs' file = some d ∨ fs' pkt = some d ∨ ∃ arc a, IsBundle o.cfg.packetDir arc ∧ fs' arc = some a ∧ holds a d
  arcs : ∀ arc a x, IsBundle o.cfg.packetDir arc → fs arc = some a → holds a x → ∃ a', fs' arc = some a' ∧ holds a' x
  flow : fs' (flowFile base pri) = fs (flowFile base pri) ∨ ∃ x, fs' (flowFile base pri) = some (unlines ls ++ x)

/-- The name of a packet waiting to be packed. -/
def IsWaiting (file : Str) : Prop := (∃ x, file = x ++ b!".newpkt") ∨ ∃ x, file = x ++ b!".pkttmp"

theorem IsWaiting.tail {file : Str} (h : IsWaiting file) : tail4 file = [116, 107, 112, 119] ∨ tail4 file = [112, 109, 116, 116] := by
  rcases h with ⟨x, rfl⟩ | ⟨x, rfl⟩
  · left; rw [tail4_append _ _ (by decide)]; rfl
  · right; rw [tail4_append _ _ (by decide)]; rfl

theorem indexName_tail (o : OutCfg) (h : o.cfg.packetDir.length ≤ 99) : tail4 (indexName o) = [120, 101, 100, 110] := by
  unfold indexName
  rw [fullPath_eq _ _ h (by decide), tail4_append _ _ (by decide)]
  rfl

theorem flowFile_tail (base : Str) (type : UInt8) : tail4 (flowFile base type) = [111, 108, flowLetter type, 46] := by
  unfold flowFile; rw [tail4_append _ _ (by simp)]; rfl

theorem orphan_tail (f : Str) : tail4 (f ++ b!".orphan") = [110, 97, 104, 112] := by
  rw [tail4_append _ _ (by decide)]; rfl

theorem shortPkt_tail {name pkt : Str} (h : shortPktName name = .ok pkt) : tail4 pkt = [116, 107, 112, 46] := by
  unfold shortPktName at h
  dsimp only at h
  split at h
  · cases h
  · cases h
    rw [tail4_append _ _ (by decide)]; rfl

theorem bundle_ne {dir arc g : Str} (h : IsBundle dir arc) (hd : DirOK dir) {c : UInt8} {t : Str} (hg : tail4 g = c :: t)
    (hc : isDigit c = false) : g ≠ arc := by
  rintro rfl
  obtain ⟨_, _, x, y, h1, h2⟩ := h.form hd
  rw [hg] at h1
  cases h1
  rw [hc] at h2
  cases h2

/-- **C67.** Packing an echomail packet for a node: whatever fails and wherever the program is stopped,
the packet is complete under its name or a temporary name, or it is in an archive of the outbound;
nothing that was in an archive or listed in the flow file is lost; and no other files are touched. If
the function reports success, the packet is in an archive, and the archive is listed in the flow file of
the node (unless writing or opening that file fails). If it reports a failure, the packet is back under
its name (unless renaming fails). What is assumed of the packer is `Packs`; a command to run before it
is assumed not to change any files.

Missing: the entry in the flow file if writing fails (`Ex.flow_unlisted`). -/
theorem echo_packed_partial (w : World) (holds : Data → Data → Prop) (o : OutCfg) (st : PackSt) (file base pkt : Str) (n : Node4D) (i : Nat)
    (cnode : ConfigNode) (cmd : Str) (fs : FS) (d : Data) (ls : List Str) (k : Nat)
    (hdir : DirOK o.cfg.packetDir) (hwd : ∀ t, (o.wday t).toNat < 7) (hst : StOK st (k + 1)) (hfile : IsWaiting file)
    (hpkt : shortPktName (mystrncpy file 200) = .ok pkt) (hd : fs file = some d) (hfree : fs pkt = none)
    (hb : base.length < 196) (hpri : cnode.echomailPri.toNat < 5)
    (hls : (fs (flowFile base cnode.echomailPri) = none ∧ ls = []) ∨ fs (flowFile base cnode.echomailPri) = some (unlines ls))
    (hl : ∀ l ∈ ls, FlowText l)
    (hpack : ∀ arc, IsBundle o.cfg.packetDir arc → ∃ c, expandPacker 200 arc pkt cmd [] = .ok c ∧ Packs w holds c arc pkt)
    (hbef : o.beforePack = [] ∨ ∀ arc, IsBundle o.cfg.packetDir arc → ∃ c, expandPacker 200 arc pkt o.beforePack [] = .ok c ∧
      (∀ fs fs', w.during c fs fs' → fs' = fs) ∧ ∀ fs n fs', w.exec c fs n fs' → fs' = fs) :
    Through w (Packing o holds file pkt base cnode.echomailPri ls d fs)
      (fun r fs' => StOK r.2 k ∧ r.2.io = st.io ∧
        (r.1 = true → fs' file = none) ∧
        (r.1 = true → ∃ arc a, IsBundle o.cfg.packetDir arc ∧ fs' arc = some a ∧ holds a d ∧
          (¬ w.writeFails → ¬ w.openFails → ∃ new, fs' (flowFile base cnode.echomailPri) = some (unlines (ls ++ new)) ∧
            (∀ l ∈ ls ++ new, FlowText l) ∧ ∃ l ∈ ls ++ new, Lists l arc)) ∧
        (r.1 = false → ¬ w.renameFails → fs' file = some d ∧ fs' pkt = none ∧
          fs' (flowFile base cnode.echomailPri) = fs (flowFile base cnode.echomailPri)) ∧
        (¬ w.renameFails → ¬ w.deleteFails → fs' pkt = none))
      (packEcho o st file base n i cnode cmd) fs := by
  have tf := hfile.tail
  have ti := indexName_tail o hdir.short
  have tl := flowFile_tail base cnode.echomailPri
  have tp := shortPkt_tail hpkt
  have nfp : file ≠ pkt := ne_tail4 (by rw [tp]; rcases tf with h | h <;> rw [h] <;> decide)
  have nfi : file ≠ indexName o := ne_tail4 (by rw [ti]; rcases tf with h | h <;> rw [h] <;> decide)
  have nfl : file ≠ flowFile base cnode.echomailPri := ne_tail4 (by rw [tl]; rcases tf with h | h <;> rw [h] <;> simp)
  have npi : pkt ≠ indexName o := ne_tail4 (by rw [ti, tp]; decide)
  have npl : pkt ≠ flowFile base cnode.echomailPri := ne_tail4 (by rw [tl, tp]; simp)
  have nil' : indexName o ≠ flowFile base cnode.echomailPri := ne_tail4 (by rw [ti, tl]; simp)
  have bf : ∀ arc, IsBundle o.cfg.packetDir arc → file ≠ arc := fun arc h => by
    rcases tf with e | e
    · exact bundle_ne h hdir e (by decide)
    · exact bundle_ne h hdir e (by decide)
  have bp : ∀ arc, IsBundle o.cfg.packetDir arc → pkt ≠ arc := fun arc h => bundle_ne h hdir tp (by decide)
  have bi : ∀ arc, IsBundle o.cfg.packetDir arc → indexName o ≠ arc := fun arc h => bundle_ne h hdir ti (by decide)
  have bl : ∀ arc, IsBundle o.cfg.packetDir arc → flowFile base cnode.echomailPri ≠ arc := fun arc h => bundle_ne h hdir tl (by decide)
  have bo : ∀ f arc, IsBundle o.cfg.packetDir arc → f ++ b!".orphan" ≠ arc := fun f arc h =>
    bundle_ne h hdir (orphan_tail f) (by decide)
  have op : ∀ f, file ≠ f ++ b!".orphan" ∧ pkt ≠ f ++ b!".orphan" ∧ flowFile base cnode.echomailPri ≠ f ++ b!".orphan" := fun f =>
    ⟨ne_tail4 (by rw [orphan_tail]; rcases tf with h | h <;> rw [h] <;> decide), ne_tail4 (by rw [orphan_tail, tp]; decide),
      ne_tail4 (by rw [orphan_tail, tl]; simp)⟩
  generalize hfl : flowFile base cnode.echomailPri = flow at *
  have fw : ∀ g, EchoFile o file pkt base cnode.echomailPri g ↔ (g = file ∨ g = pkt ∨ g = indexName o ∨ g = flow ∨
      ∃ arc, IsBundle o.cfg.packetDir arc ∧ (g = arc ∨ g = arc ++ b!".orphan")) := by
    intro g; rw [EchoFile, hfl]
  -- building the invariant
  have mk : ∀ fs' : FS, (∀ g, ¬ (g = file ∨ g = pkt ∨ g = indexName o ∨ g = flow ∨
      ∃ arc, IsBundle o.cfg.packetDir arc ∧ (g = arc ∨ g = arc ++ b!".orphan")) → fs' g = fs g) →
      (fs' file = some d ∨ fs' pkt = some d ∨ ∃ arc a, IsBundle o.cfg.packetDir arc ∧ fs' arc = some a ∧ holds a d) →
      (∀ arc a x, IsBundle o.cfg.packetDir arc → fs arc = some a → holds a x → ∃ a', fs' arc = some a' ∧ holds a' x) →
      (fs' flow = fs flow ∨ ∃ x, fs' flow = some (unlines ls ++ x)) →
      Packing o holds file pkt base cnode.echomailPri ls d fs fs' := by
    intro fs' h1 h2 h3 h4
    exact ⟨fun g hg => h1 g (fun h => hg ((fw g).2 h)), h2, h3, by rw [hfl]; exact h4⟩
  have start : Packing o holds file pkt base cnode.echomailPri ls d fs fs :=
    mk fs (fun _ _ => rfl) (.inl hd) (fun _ a _ _ h h' => ⟨a, h, h'⟩) (.inl rfl)
  -- states before the packer has run: only `file`, `pkt` and the index differ
  have early : ∀ fs' : FS, (∀ g, g ≠ file → g ≠ pkt → g ≠ indexName o → fs' g = fs g) →
      (fs' file = some d ∨ fs' pkt = some d) → Packing o holds file pkt base cnode.echomailPri ls d fs fs' := by
    intro fs' h1 h2
    refine mk fs' (fun g hg => h1 g (fun e => hg (.inl e)) (fun e => hg (.inr (.inl e))) (fun e => hg (.inr (.inr (.inl e))))) ?_ ?_ ?_
    · rcases h2 with h | h
      · exact .inl h
      · exact .inr (.inl h)
    · intro arc a x ha h h'
      exact ⟨a, by rw [h1 arc (Ne.symm (bf arc ha)) (Ne.symm (bp arc ha)) (Ne.symm (bi arc ha)), h], h'⟩
    · exact .inl (h1 _ (Ne.symm nfl) (Ne.symm npl) (Ne.symm nil'))
  unfold packEcho
  simp only [Prog.bind_eq, Prog.pure_eq]
  refine Through.bind (newArcName_through w _ o st i (k + 1) fs hwd hst start (fun v => ?_)) ?_
  · exact early _ (fun g _ _ h => FS.put_ne _ h _) (.inl (by rw [FS.put_ne _ nfi, hd]))
  rintro ⟨name, st1⟩ gs _ ⟨⟨b, d', k', hbn⟩, hst1, hio, hgs⟩
  dsimp only at hbn hst1 hio ⊢
  have harc : IsBundle o.cfg.packetDir (makeFullPath o.cfg.packetDir name 200) := ⟨name, b, d', k', hbn, rfl⟩
  generalize makeFullPath o.cfg.packetDir name 200 = arc at *
  obtain ⟨hfit, hal, -⟩ := harc.form hdir
  rw [hpkt]
  have g1 : ∀ g, g ≠ file → g ≠ pkt → g ≠ indexName o → gs g = fs g := fun g _ _ h => hgs g h
  have gf : gs file = some d := by rw [hgs file nfi, hd]
  have gp : gs pkt = none := by rw [hgs pkt npi, hfree]
  have gl : gs flow = fs flow := hgs flow (Ne.symm nil')
  simp only [liftUB, Prog.bind, osRename]
  -- putting the packet back
  have back : ∀ fs1 : FS, (∀ g, g ≠ file → g ≠ pkt → g ≠ arc → g ≠ indexName o → fs1 g = fs g) →
      (∀ a x, fs arc = some a → holds a x → ∃ a', fs1 arc = some a' ∧ holds a' x) →
      ((fs1 file = none ∧ fs1 pkt = some d) ∨ (w.renameFails ∧ fs1 file = some d ∧ fs1 pkt = none)) →
      Through w (Packing o holds file pkt base cnode.echomailPri ls d fs)
      (fun r fs' => StOK r.2 k ∧ r.2.io = st.io ∧
        (r.1 = true → fs' file = none) ∧
        (r.1 = true → ∃ arc a, IsBundle o.cfg.packetDir arc ∧ fs' arc = some a ∧ holds a d ∧
          (¬ w.writeFails → ¬ w.openFails → ∃ new, fs' flow = some (unlines (ls ++ new)) ∧
            (∀ l ∈ ls ++ new, FlowText l) ∧ ∃ l ∈ ls ++ new, Lists l arc)) ∧
        (r.1 = false → ¬ w.renameFails → fs' file = some d ∧ fs' pkt = none ∧ fs' flow = fs flow) ∧
        (¬ w.renameFails → ¬ w.deleteFails → fs' pkt = none))
        (Prog.rename pkt file fun _ => .ret (false, st1)) fs1 := by
    intro fs1 h1 h2 h3
    have inv : ∀ fs2 : FS, (∀ g, g ≠ file → g ≠ pkt → fs2 g = fs1 g) → (fs2 file = some d ∨ fs2 pkt = some d) →
        Packing o holds file pkt base cnode.echomailPri ls d fs fs2 := by
      intro fs2 e1 e2
      refine mk fs2 ?_ ?_ ?_ ?_
      · intro g hg
        have q : ∀ x, x = file ∨ x = pkt ∨ x = indexName o ∨ x = flow → g ≠ x := by
          rintro x hx rfl
          exact hg (by rcases hx with h | h | h | h <;> simp [h])
        have q' : g ≠ arc := by rintro rfl; exact hg (.inr (.inr (.inr (.inr ⟨g, harc, .inl rfl⟩))))
        rw [e1 g (q _ (by simp)) (q _ (by simp)), h1 g (q _ (by simp)) (q _ (by simp)) q' (q _ (by simp))]
      · rcases e2 with h | h
        · exact .inl h
        · exact .inr (.inl h)
      · intro arc' a x ha h h'
        have e3 : fs2 arc' = fs1 arc' := e1 _ (Ne.symm (bf _ ha)) (Ne.symm (bp _ ha))
        by_cases e : arc' = arc
        · subst e; rw [e3]; exact h2 a x h h'
        · exact ⟨a, by rw [e3, h1 _ (Ne.symm (bf _ ha)) (Ne.symm (bp _ ha)) e (Ne.symm (bi _ ha)), h], h'⟩
      · left
        rw [e1 _ (Ne.symm nfl) (Ne.symm npl), h1 _ (Ne.symm nfl) (Ne.symm npl) (bl _ harc) (Ne.symm nil')]
    have i1 : Packing o holds file pkt base cnode.echomailPri ls d fs fs1 :=
      inv fs1 (fun _ _ _ => rfl) (by rcases h3 with h | h <;> simp [h])
    have stk : StOK st1 k := ⟨hst1.last, hst1.arcs, by have := hst1.few; omega⟩
    refine .rename i1 ?_ ?_
    · intro x hx
      rcases h3 with ⟨h4, h5⟩ | ⟨_, _, h5⟩
      · rw [h5] at hx
        cases hx
        refine .ret (inv _ (fun g e1 e2 => by rw [FS.put_ne _ e1, FS.put_ne _ e2]) (.inl (FS.put_self _ _ _))) ?_
        refine ⟨stk, hio, by simp, by simp, fun _ _ => ⟨FS.put_self _ _ _, by rw [FS.put_ne _ (Ne.symm nfp), FS.put_self], ?_⟩,
          fun _ _ => by rw [FS.put_ne _ (Ne.symm nfp), FS.put_self]⟩
        rw [FS.put_ne _ (Ne.symm nfl), FS.put_ne _ (Ne.symm npl), h1 _ (Ne.symm nfl) (Ne.symm npl) (bl _ harc) (Ne.symm nil')]
      · rw [h5] at hx; cases hx
    · intro hf
      refine .ret i1 ⟨stk, hio, by simp, by simp, ?_, ?_⟩
      · intro _ hr
        rcases h3 with ⟨h4, h5⟩ | ⟨h, _, _⟩
        · rcases hf with hf | hf
          · rw [h5] at hf; cases hf
          · exact absurd hf hr
        · exact absurd h hr
      · intro hr _
        rcases h3 with ⟨h4, h5⟩ | ⟨h, _, _⟩
        · rcases hf with hf | hf
          · rw [h5] at hf; cases hf
          · exact absurd hf hr
        · exact absurd h hr
  -- running the packer and what follows
  have run : ∀ fs1 : FS, (∀ g, g ≠ file → g ≠ pkt → g ≠ indexName o → fs1 g = fs g) →
      ((fs1 file = none ∧ fs1 pkt = some d) ∨ (w.renameFails ∧ fs1 file = some d ∧ fs1 pkt = none)) →
      Through w (Packing o holds file pkt base cnode.echomailPri ls d fs)
      (fun r fs' => StOK r.2 k ∧ r.2.io = st.io ∧
        (r.1 = true → fs' file = none) ∧
        (r.1 = true → ∃ arc a, IsBundle o.cfg.packetDir arc ∧ fs' arc = some a ∧ holds a d ∧
          (¬ w.writeFails → ¬ w.openFails → ∃ new, fs' flow = some (unlines (ls ++ new)) ∧
            (∀ l ∈ ls ++ new, FlowText l) ∧ ∃ l ∈ ls ++ new, Lists l arc)) ∧
        (r.1 = false → ¬ w.renameFails → fs' file = some d ∧ fs' pkt = none ∧ fs' flow = fs flow) ∧
        (¬ w.renameFails → ¬ w.deleteFails → fs' pkt = none))
        ((liftUB (expandPacker 200 arc pkt cmd [])).bind fun c => Prog.bind (osExecute c) fun res =>
          if res ≠ 0 then Prog.bind (osRename pkt file) fun _ => .ret (false, st1)
          else (updateFile st1 arc).bind fun st => (osDelete pkt).bind fun _ =>
            (flowOrOrphan o arc base n cnode.echomailPri).bind fun _ => .ret (true, st)) fs1 := by
    intro fs1 h1 h3
    obtain ⟨c, hc, hp⟩ := hpack arc harc
    rw [hc]
    have i1 : Packing o holds file pkt base cnode.echomailPri ls d fs fs1 :=
      early fs1 h1 (by rcases h3 with h | h <;> simp [h])
    have arc1 : fs1 arc = fs arc := h1 _ (Ne.symm (bf _ harc)) (Ne.symm (bp _ harc)) (Ne.symm (bi _ harc))
    simp only [liftUB, Prog.bind, osExecute]
    refine .exec i1 ?_ ?_
    · intro fs2 h2
      obtain ⟨e1, e2⟩ := hp.during _ _ h2
      refine mk fs2 ?_ ?_ ?_ ?_
      · intro g hg
        have q : ∀ x, x = file ∨ x = pkt ∨ x = indexName o ∨ x = flow → g ≠ x := by
          rintro x hx rfl
          exact hg (by rcases hx with h | h | h | h <;> simp [h])
        have q' : g ≠ arc := by rintro rfl; exact hg (.inr (.inr (.inr (.inr ⟨g, harc, .inl rfl⟩))))
        rw [e1 g q', h1 g (q _ (by simp)) (q _ (by simp)) (q _ (by simp))]
      · rw [e1 _ (bf _ harc), e1 _ (bp _ harc)]
        rcases h3 with h | h
        · exact .inr (.inl h.2)
        · exact .inl h.2.1
      · intro arc' a x ha h h'
        by_cases e : arc' = arc
        · subst e; rw [← arc1] at h; exact e2 a x h h'
        · exact ⟨a, by rw [e1 _ e, h1 _ (Ne.symm (bf _ ha)) (Ne.symm (bp _ ha)) (Ne.symm (bi _ ha)), h], h'⟩
      · left
        rw [e1 _ (bl _ harc), h1 _ (Ne.symm nfl) (Ne.symm npl) (Ne.symm nil')]
    · intro res fs2 h2
      obtain ⟨e1, e2, e3⟩ := hp.exec _ _ _ h2
      have arcs2 : ∀ a x, fs arc = some a → holds a x → ∃ a', fs2 arc = some a' ∧ holds a' x := by
        intro a x h h'
        rw [← arc1] at h
        exact e2 a x h h'
      have o2 : ∀ g, g ≠ file → g ≠ pkt → g ≠ arc → g ≠ indexName o → fs2 g = fs g := fun g q1 q2 q3 q4 => by
        rw [e1 g q3, h1 g q1 q2 q4]
      by_cases hr : res = 0
      · subst hr
        obtain ⟨d2, a, p1, p2, p3⟩ := e3 rfl
        have hd2 : d2 = d ∧ fs1 file = none := by
          rcases h3 with ⟨q1, q2⟩ | ⟨_, _, q2⟩
          · rw [q2] at p1; cases p1; exact ⟨rfl, q1⟩
          · rw [q2] at p1; cases p1
        obtain ⟨rfl, hfn⟩ := hd2
        simp only [ne_eq, not_true_eq_false, if_false]
        -- after success the packet is in the archive, so every further state is fine
        have late : ∀ fs3 : FS, (∀ g, g ≠ pkt → g ≠ flow → g ≠ arc ++ b!".orphan" → fs3 g = fs2 g) →
            (fs3 flow = fs flow ∨ ∃ x, fs3 flow = some (unlines ls ++ x)) →
            Packing o holds file pkt base cnode.echomailPri ls d2 fs fs3 := by
          intro fs3 q1 q2
          have keep : ∀ arc', IsBundle o.cfg.packetDir arc' → fs3 arc' = fs2 arc' := fun arc' ha =>
            q1 _ (Ne.symm (bp _ ha)) (Ne.symm (bl _ ha)) (Ne.symm (bo _ _ ha))
          refine mk fs3 ?_ ?_ ?_ q2
          · intro g hg
            have q : ∀ x, x = file ∨ x = pkt ∨ x = indexName o ∨ x = flow → g ≠ x := by
              rintro x hx rfl
              exact hg (by rcases hx with h | h | h | h <;> simp [h])
            have q' : g ≠ arc := by rintro rfl; exact hg (.inr (.inr (.inr (.inr ⟨g, harc, .inl rfl⟩))))
            have q'' : g ≠ arc ++ b!".orphan" := by rintro rfl; exact hg (.inr (.inr (.inr (.inr ⟨arc, harc, .inr rfl⟩))))
            rw [q1 g (q _ (by simp)) (q _ (by simp)) q'', o2 g (q _ (by simp)) (q _ (by simp)) q' (q _ (by simp))]
          · exact .inr (.inr ⟨arc, a, harc, by rw [keep _ harc, p2], p3⟩)
          · intro arc' a' x ha h h'
            rw [keep _ ha]
            by_cases e : arc' = arc
            · subst e; exact arcs2 a' x h h'
            · exact ⟨a', by rw [o2 _ (Ne.symm (bf _ ha)) (Ne.symm (bp _ ha)) e (Ne.symm (bi _ ha)), h], h'⟩
        have fl2 : fs2 flow = fs flow := o2 _ (Ne.symm nfl) (Ne.symm npl) (bl _ harc) (Ne.symm nil')
        have file2 : fs2 file = none := by rw [e1 _ (bf _ harc), hfn]
        refine Through.bind (updateFile_through w _ st1 o.cfg.packetDir arc k fs2 hst1 harc hdir.short
          (late fs2 (fun _ _ _ _ => rfl) (.inl fl2))) ?_
        rintro st2 fs3 _ ⟨rfl, hst2, hio2⟩
        simp only [osDelete, Prog.bind]
        have after : ∀ fs4 : FS, (∀ g, g ≠ pkt → fs4 g = fs3 g) → (¬ w.deleteFails → fs4 pkt = none) →
            Through w (Packing o holds file pkt base cnode.echomailPri ls d2 fs)
            (fun r fs' => StOK r.2 k ∧ r.2.io = st.io ∧
              (r.1 = true → fs' file = none) ∧
              (r.1 = true → ∃ arc a, IsBundle o.cfg.packetDir arc ∧ fs' arc = some a ∧ holds a d2 ∧
                (¬ w.writeFails → ¬ w.openFails → ∃ new, fs' flow = some (unlines (ls ++ new)) ∧
                  (∀ l ∈ ls ++ new, FlowText l) ∧ ∃ l ∈ ls ++ new, Lists l arc)) ∧
              (r.1 = false → ¬ w.renameFails → fs' file = some d2 ∧ fs' pkt = none ∧ fs' flow = fs flow) ∧
              (¬ w.renameFails → ¬ w.deleteFails → fs' pkt = none))
              ((flowOrOrphan o arc base n cnode.echomailPri).bind fun _ => .ret (true, st2)) fs4 := by
          intro fs4 q1 q2
          have fl4 : fs4 flow = fs flow := by rw [q1 _ (Ne.symm npl), fl2]
          have inv4 := late fs4 (fun g h _ _ => q1 g h) (.inl fl4)
          have := flowOrOrphan_through w
            (fun fs5 => (∀ g, g ≠ pkt → g ≠ flow → g ≠ arc ++ b!".orphan" → fs5 g = fs3 g) ∧
              (fs5 flow = fs flow ∨ ∃ x, fs5 flow = some (unlines ls ++ x)))
            o fs4 arc base n cnode.echomailPri ls hb hfit (by omega) hpri (by rw [hfl, fl4]; exact hls) hl
            ⟨fun g h _ _ => q1 g h, .inl fl4⟩
            (by
              intro x
              rw [hfl]
              exact ⟨fun g h1 h2 _ => by rw [FS.put_ne _ h2, q1 g h1], .inr ⟨x, FS.put_self _ _ _⟩⟩)
            (by
              rintro fs5 v ⟨r1, r2⟩
              refine ⟨fun g h1 h2 h3 => by rw [FS.put_ne _ h3, r1 g h1 h2 h3], ?_⟩
              rw [FS.put_ne _ (op arc).2.2]
              exact r2)
          refine Through.bind (this.mono (fun fs5 h => late fs5 h.1 h.2) (fun a fs5 h q => And.intro h q)) ?_
          rintro u fs5 hi ⟨⟨r1, r2⟩, r3, r4⟩
          rw [hfl] at r3 r4
          have pk : fs5 pkt = fs4 pkt := r3 _ npl (op arc).2.1
          refine .ret hi ⟨hst2, by rw [hio2, hio], fun _ => ?_, fun _ => ⟨arc, a, harc, ?_, p3, r4⟩, by simp, fun _ h => by rw [pk, q2 h]⟩
          · rw [r1 _ nfp nfl (op arc).1, file2]
          · rw [r1 _ (Ne.symm (bp _ harc)) (Ne.symm (bl _ harc)) (Ne.symm (bo _ _ harc)), p2]
        refine .delete (late _ (fun _ _ _ _ => rfl) (.inl fl2)) ?_ ?_
        · intro x _
          exact after _ (fun g h => FS.put_ne _ h _) (fun _ => FS.put_self _ _ _)
        · intro hf
          refine after _ (fun _ _ => rfl) (fun h => ?_)
          rcases hf with hf | hf
          · exact hf
          · exact absurd hf h
      · simp only [ne_eq, hr, not_false_iff, if_true, osRename, Prog.bind]
        refine back fs2 o2 arcs2 ?_
        rw [e1 _ (bf _ harc), e1 _ (bp _ harc)]
        exact h3
  -- the command before the packer
  have before : ∀ fs1 : FS, (∀ g, g ≠ file → g ≠ pkt → g ≠ indexName o → fs1 g = fs g) →
      ((fs1 file = none ∧ fs1 pkt = some d) ∨ (w.renameFails ∧ fs1 file = some d ∧ fs1 pkt = none)) →
      Through w (Packing o holds file pkt base cnode.echomailPri ls d fs)
      (fun r fs' => StOK r.2 k ∧ r.2.io = st.io ∧
        (r.1 = true → fs' file = none) ∧
        (r.1 = true → ∃ arc a, IsBundle o.cfg.packetDir arc ∧ fs' arc = some a ∧ holds a d ∧
          (¬ w.writeFails → ¬ w.openFails → ∃ new, fs' flow = some (unlines (ls ++ new)) ∧
            (∀ l ∈ ls ++ new, FlowText l) ∧ ∃ l ∈ ls ++ new, Lists l arc)) ∧
        (r.1 = false → ¬ w.renameFails → fs' file = some d ∧ fs' pkt = none ∧ fs' flow = fs flow) ∧
        (¬ w.renameFails → ¬ w.deleteFails → fs' pkt = none))
        ((if o.beforePack ≠ [] then (liftUB (expandPacker 200 arc pkt o.beforePack [])).bind fun c => osExecute c
          else Prog.ret 0).bind fun before => if before ≠ 0 then Prog.bind (osRename pkt file) fun _ => .ret (false, st1) else
        (liftUB (expandPacker 200 arc pkt cmd [])).bind fun c => Prog.bind (osExecute c) fun res =>
          if res ≠ 0 then Prog.bind (osRename pkt file) fun _ => .ret (false, st1)
          else (updateFile st1 arc).bind fun st => (osDelete pkt).bind fun _ =>
            (flowOrOrphan o arc base n cnode.echomailPri).bind fun _ => .ret (true, st)) fs1 := by
    intro fs1 h1 h3
    have i1 : Packing o holds file pkt base cnode.echomailPri ls d fs fs1 :=
      early fs1 h1 (by rcases h3 with h | h <;> simp [h])
    by_cases hbp : o.beforePack = []
    · rw [if_neg (by simp [hbp])]
      simp only [Prog.bind, ne_eq, not_true_eq_false, if_false]
      exact run fs1 h1 h3
    · rw [if_pos hbp]
      obtain ⟨c, hc, q1, q2⟩ := (hbef.resolve_left hbp) arc harc
      rw [hc]
      simp only [liftUB, Prog.bind, osExecute]
      refine .exec i1 (fun fs2 h => by rw [q1 _ _ h]; exact i1) ?_
      intro res fs2 h
      have := q2 _ _ _ h
      subst this
      by_cases hr : res = 0
      · subst hr
        simp only [ne_eq, not_true_eq_false, if_false]
        exact run fs2 h1 h3
      · simp only [ne_eq, hr, not_false_iff, if_true, osRename, Prog.bind]
        refine back fs2 (fun g a b _ c => h1 g a b c) ?_ h3
        intro a x h h'
        exact ⟨a, by rw [h1 _ (Ne.symm (bf _ harc)) (Ne.symm (bp _ harc)) (Ne.symm (bi _ harc)), h], h'⟩
  refine .rename (early gs g1 (.inl gf)) ?_ ?_
  · intro x hx
    rw [gf] at hx
    cases hx
    refine before _ ?_ (.inl ⟨by rw [FS.put_ne _ nfp, FS.put_self], FS.put_self _ _ _⟩)
    intro g a b c
    rw [FS.put_ne _ b, FS.put_ne _ a, g1 g a b c]
  · intro hf
    refine before _ g1 (.inr ⟨?_, gf, gp⟩)
    rcases hf with hf | hf
    · rw [gf] at hf; cases hf
    · exact hf

/-- **C67.** Sending an echomail packet without packing: at every moment the packet is complete under its
old or its new name, the flow file keeps its lines, and no other file is touched. If the function reports
success, the packet has its new name and is listed in the flow file of the node (unless writing or
opening fails); otherwise it still has its old name.

Missing: the entry in the flow file if writing fails (`Ex.flow_unlisted`). -/
theorem echo_moved_partial (w : World) (o : OutCfg) (st : PackSt) (file base pkt : Str) (n : Node4D) (cnode : ConfigNode) (fs : FS)
    (d : Data) (ls : List Str) (hfile : IsWaiting file)
    (hpkt : shortPktName (makeFullPath o.cfg.packetDir (getFilePart file) 200) = .ok pkt) (hfit : FlowFits pkt) (hpl : pkt.length ≤ 192)
    (hd : fs file = some d) (hb : base.length < 196) (hpri : cnode.echomailPri.toNat < 5)
    (hls : (fs (flowFile base cnode.echomailPri) = none ∧ ls = []) ∨ fs (flowFile base cnode.echomailPri) = some (unlines ls))
    (hl : ∀ l ∈ ls, FlowText l) :
    Through w (fun fs' => (∀ g, g ≠ file → g ≠ pkt → g ≠ flowFile base cnode.echomailPri → g ≠ pkt ++ b!".orphan" → fs' g = fs g) ∧
        (fs' file = some d ∨ fs' pkt = some d) ∧
        (fs' (flowFile base cnode.echomailPri) = fs (flowFile base cnode.echomailPri) ∨
          ∃ x, fs' (flowFile base cnode.echomailPri) = some (unlines ls ++ x)))
      (fun r fs' => (r.1 = true → fs' pkt = some d ∧
          (¬ w.writeFails → ¬ w.openFails → ∃ new, fs' (flowFile base cnode.echomailPri) = some (unlines (ls ++ new)) ∧
            (∀ l ∈ ls ++ new, FlowText l) ∧ ∃ l ∈ ls ++ new, Lists l pkt)) ∧
        (r.1 = false → fs' file = some d ∧ fs' (flowFile base cnode.echomailPri) = fs (flowFile base cnode.echomailPri)) ∧
        (¬ w.renameFails → r = (true, st) ∧ fs' file = none))
      (moveEcho o st file base n (some cnode)) fs := by
  have tf := hfile.tail
  have tl := flowFile_tail base cnode.echomailPri
  have tp := shortPkt_tail hpkt
  have nfp : file ≠ pkt := ne_tail4 (by rw [tp]; rcases tf with h | h <;> rw [h] <;> decide)
  have nfl : file ≠ flowFile base cnode.echomailPri := ne_tail4 (by rw [tl]; rcases tf with h | h <;> rw [h] <;> simp)
  have npl : pkt ≠ flowFile base cnode.echomailPri := ne_tail4 (by rw [tl, tp]; simp)
  have nfo : file ≠ pkt ++ b!".orphan" := ne_tail4 (by rw [orphan_tail]; rcases tf with h | h <;> rw [h] <;> decide)
  have npo : pkt ≠ pkt ++ b!".orphan" := ne_tail4 (by rw [orphan_tail, tp]; decide)
  have nlo : flowFile base cnode.echomailPri ≠ pkt ++ b!".orphan" := ne_tail4 (by rw [orphan_tail, tl]; simp)
  unfold moveEcho
  rw [hpkt]
  simp only [Prog.bind_eq, Prog.pure_eq, liftUB, Prog.bind]
  have mv := movefile_through w st.io fs file pkt d hd nfp
  refine Through.bind (mv.mono (J := fun fs' => (∀ g, g ≠ file → g ≠ pkt → g ≠ flowFile base cnode.echomailPri → g ≠ pkt ++ b!".orphan" → fs' g = fs g) ∧
        (fs' file = some d ∨ fs' pkt = some d) ∧
        (fs' (flowFile base cnode.echomailPri) = fs (flowFile base cnode.echomailPri) ∨
          ∃ x, fs' (flowFile base cnode.echomailPri) = some (unlines ls ++ x)))
      (fun fs5 h => ⟨fun g a b _ _ => h.1 g a b, h.2, .inl (h.1 _ (Ne.symm nfl) (Ne.symm npl))⟩) (fun a fs5 h q => And.intro h q)) ?_
  rintro ⟨ok, io⟩ gs hi ⟨⟨m1, -⟩, m2, m3, m4, -⟩
  dsimp only at m2 m3 m4 ⊢
  have gl := m1 _ (Ne.symm nfl) (Ne.symm npl)
  cases ok with
  | false =>
    simp only [Bool.not_false, if_true]
    refine .ret hi ⟨by simp, fun _ => ⟨m3 rfl, gl⟩, fun h => ?_⟩
    have := (m4 h).1
    cases this
  | true =>
    simp only [Bool.not_true, Bool.false_eq_true, if_false]
    have gp := m2 rfl
    have := flowOrOrphan_through w (fun fs5 => (∀ g, g ≠ flowFile base cnode.echomailPri → g ≠ pkt ++ b!".orphan" → fs5 g = gs g) ∧
          (fs5 (flowFile base cnode.echomailPri) = fs (flowFile base cnode.echomailPri) ∨
          ∃ x, fs5 (flowFile base cnode.echomailPri) = some (unlines ls ++ x)))
      o gs pkt base n cnode.echomailPri ls hb hfit hpl hpri (by rw [gl]; exact hls) hl
      ⟨fun _ _ _ => rfl, .inl gl⟩
      (fun x => ⟨fun g h1 _ => FS.put_ne _ h1 _, .inr ⟨x, FS.put_self _ _ _⟩⟩)
      (by
        rintro fs5 v ⟨r1, r2⟩
        refine ⟨fun g h1 h3 => by rw [FS.put_ne _ h3, r1 g h1 h3], ?_⟩
        rw [FS.put_ne _ nlo]
        exact r2)
    refine Through.bind (this.mono (fun fs5 h => ⟨fun g a b c e => ?_, .inr ?_, h.2⟩) (fun a fs5 h q => And.intro h q)) ?_
    · rw [h.1 g c e, m1 g a b]
    · rw [h.1 _ npl npo, gp]
    · rintro u fs5 hi5 ⟨-, r3, r4⟩
      refine .ret hi5 ⟨fun _ => ⟨by rw [r3 _ npl npo, gp], r4⟩, by simp, fun h => ?_⟩
      obtain ⟨e1, e2⟩ := m4 h
      cases e1
      exact ⟨rfl, by rw [r3 _ nfl nfo, e2]⟩

namespace Ex

/-- The temporary name of a packet. -/
def tmpPkt : Str := b!"/create/1234abcd.pkt"

/-- A packer that appends the packet to the archive and never fails. -/
def packerWorld : World where
  exec := fun cmd fs n fs' => ∃ arc d, cmd = arc ++ 32 :: tmpPkt ∧ n = 0 ∧ fs tmpPkt = some d ∧
    fs' = fs.put arc (some ((fs arc).getD [] ++ d))

/-- The configuration. -/
def outCfg : OutCfg :=
  { cfg := { Ex.cfg [] with packetDir := b!"/out" }, outbound := b!"/out", packetCreate := b!"/create", wday := fun _ => 3, sort := id }

theorem packer_packs (arc : Str) (h : IsBundle b!"/out" arc) : ∃ c, expandPacker 200 arc tmpPkt b!"%a %f" [] = .ok c ∧
    Packs packerWorld (fun a d => d <:+: a) c arc tmpPkt := by
  have hd : DirOK b!"/out" := ⟨by decide, by decide, by decide, by decide⟩
  obtain ⟨-, hl, -⟩ := h.form hd
  have ht : tmpPkt.length = 20 := by decide
  refine ⟨arc ++ 32 :: tmpPkt, ?_, ?_, ?_⟩
  · have e1 : arc.take 199 = arc := List.take_of_length_le (by omega)
    have e2 : (arc ++ 32 :: tmpPkt).take 199 = arc ++ 32 :: tmpPkt := List.take_of_length_le (by simp; omega)
    have d1 : ¬ 200 ≤ arc.length := by omega
    have d2 : ¬ 200 ≤ arc.length + 1 := by omega
    have d3 : arc.length + (tmpPkt.length + 1) < 200 := by omega
    have o1 : (97 : UInt8) ||| 32 = 97 := by decide
    have o2 : ¬ (102 : UInt8) ||| 32 = 97 := by decide
    have o3 : (102 : UInt8) ||| 32 = 102 := by decide
    simp [expandPacker, e1, e2, d1, d2, d3, o1, o2, o3]
  · rintro fs fs' rfl
    exact ⟨fun _ _ => rfl, fun a d h h' => ⟨a, h, h'⟩⟩
  · rintro fs n fs' ⟨arc', d, e, rfl, e2, rfl⟩
    have : arc' = arc := (List.append_cancel_right e).symm
    subst this
    refine ⟨fun g hg => FS.put_ne _ hg _, fun a x h h' => ⟨_, FS.put_self _ _ _, ?_⟩, fun _ => ⟨d, _, e2, FS.put_self _ _ _, ?_⟩⟩
    · rw [h]; exact h'.trans (List.infix_append [] a d)
    · exact (List.suffix_append _ _).isInfix

/-- All hypotheses of `echo_packed_partial` can be met. -/
example : DirOK outCfg.cfg.packetDir ∧ (∀ t, (outCfg.wday t).toNat < 7) ∧
    StOK { last := [(⟨1, 2, 3, 0⟩, b!"0123abcd.we1"), (⟨1, 2, 4, 0⟩, [])] } 6 ∧
    IsWaiting b!"/create/1234abcd_Echomail_1_2_3_0.newpkt" ∧
    shortPktName (mystrncpy b!"/create/1234abcd_Echomail_1_2_3_0.newpkt" 200) = .ok tmpPkt ∧
    (∀ arc, IsBundle outCfg.cfg.packetDir arc → ∃ c, expandPacker 200 arc tmpPkt b!"%a %f" [] = .ok c ∧
      Packs packerWorld (fun a d => d <:+: a) c arc tmpPkt) := by
  refine ⟨⟨by decide, by decide, by decide, by decide⟩, fun _ => (by decide : (3 : UInt32).toNat < 7), ⟨?_, by simp, by decide⟩, .inl ⟨b!"/create/1234abcd_Echomail_1_2_3_0", by decide⟩,
    by decide +kernel, packer_packs⟩
  intro p hp
  simp at hp
  rcases hp with rfl | rfl
  · exact .inr ⟨0x123abcd, 3, 1, (bundleName_iff _ _ _ _).2 ⟨0x123abcd, by decide, by decide, by decide, by decide +kernel⟩⟩
  · exact .inl rfl

/-- C59 (violated). The disk is full: nothing of the new netmail has been added, and its file is removed. -/
theorem netmail_lost : ∃ fs', Reach {} (packNetmail {} b!"n.newpkt" b!"/out/00010002" PKTS_NORMAL)
    (fun f => if f = b!"n.newpkt" then some (List.replicate 60 0) else none) (.ret (true, { io := true })) fs' ∧
    fs' b!"n.newpkt" = none ∧ fs' b!"/out/00010002.out" = some [] := by
  exact ⟨_, .step (.readOk _ _ _ (List.replicate 60 0) rfl) (.step (.exist _ _ _) (.step (.openOk _ _ _ _ _)
    (.step (.writeFail _ _ _ _ _ _ _ [] trivial) (.step (.deleteOk _ _ _ (List.replicate 60 0) rfl) (.here _ _))))), rfl, rfl⟩

/-- C67 (violated). The disk is full: the entry is not written to the flow file, but adding it succeeds. -/
theorem flow_unlisted : ∃ fs', Reach {} (flowOrOrphan outCfg b!"/out/0123abcd.we1" b!"/out/00010002" ⟨1, 2, 3, 0⟩ PKTS_NORMAL)
    (fun _ => none) (.ret ()) fs' ∧ fs' b!"/out/00010002.flo" = some [] ∧ fs' b!"/out/0123abcd.we1.orphan" = none := by
  exact ⟨_, .step (.exist _ _ _) (.step (.openOk _ _ _ _ _) (.step (.writeFail _ _ _ _ _ _ _ [] trivial) (.here _ _))), rfl, rfl⟩

end Ex

end CM
