import Verif.Lemmas.Bundle
/-! # C91, C92: bundles are recognised and not lost -/

set_option linter.unusedSimpArgs false

namespace CM

/-! ## C91 -/

/-- **C91 (partial).** If every recognition pattern is well-formed and for at most 40 bytes, and the bundle is not
shorter than any of them, the packer for a bundle is the first one in the order of the configuration
whose pattern the beginning of the bundle fits. For shorter bundles, the same is true if nothing beyond
the end of the bundle is looked at. Missing: a bundle that ends while it still fits a pattern is compared with memory that was
never set (`Ex.detect_short`), and patterns for more than 40 bytes read behind the buffer (`Ex.detect_long`). -/
theorem packer_first_partial (d : Data) (packers : List Packer) (hp : ∀ p ∈ packers, ∃ n, FilePattern p.recog n) :
    (∀ r, detectPacker d packers = .ok r → FirstFit d packers r) ∧
    ((∀ p ∈ packers, ∀ n, FilePattern p.recog n → n ≤ 40 ∧ n ≤ d.length) → ∃ r, detectPacker d packers = .ok r) :=
  ⟨fun r h => detect_sound packers hp r h,
   fun h => detect_total packers fun p hm => (hp p hm).imp fun n hn => ⟨hn, (h p hm n hn).1, (h p hm n hn).2⟩⟩

/-- There is only one first fit. -/
theorem FirstFit.unique {d : Data} {ps : List Packer} {a b : Option Packer} (h : FirstFit d ps a) (h' : FirstFit d ps b) : a = b := by
  induction h generalizing b with
  | none => cases h'; rfl
  | here hf =>
    cases h' with
    | here => rfl
    | later hn => exact absurd hf hn
  | later hn _ ih =>
    cases h' with
    | here hf => exact absurd hf hn
    | later _ h => exact ih h

/-! ## C92 -/

/-- **C92, part 1.** While a bundle that is not empty is unpacked and its packets are tossed, the bundle is complete under its name or
with the bad files, and no bad file is lost, whatever fails and wherever the program is stopped. -/
theorem bundle_safe {σ : Type} {w : World} {t : InCfg σ} {file : Str} {N K : Nat} {fs : FS} (C : TossConds w t file N K fs)
    (d : Data) (hf : fs file = some d)
    (hpat : ∀ p ∈ t.packers, ∃ n, FilePattern p.recog n ∧ n ≤ 40 ∧ n ≤ d.length)
    (s : σ) (io chdir : Bool) (size : Nat) (hsize : size ≠ 0) :
    Through w (fun f => (f file = some d ∨ SavedAsBad t.inbound file d f) ∧
        ∀ g, BadPlace t.inbound g → ∀ x, fs g = some x → f g = some x)
      (fun _ _ => True) (tossBundleD t s io chdir file size) fs := by
  refine (tossBundleD_through C d hf hpat s io chdir size hsize).mono ?_ (fun _ _ _ _ => trivial)
  rintro f ⟨h1, h2⟩
  refine ⟨h1, ?_⟩
  rintro g ⟨g', n, rfl⟩ x hx
  exact h2 g' n x hx

/-- **C92, part 2 (partial).** A bundle that is not empty disappears only after the first packer that recognises it has unpacked it and
said that it succeeded, and then Ctrl-C was not pressed and every packet that was unpacked has been handled to the end or is with the bad files; otherwise
the bundle is still there under its name or with the bad files. No bad file is lost.

Assumed (`TossConds` and below): the configured commands leave the bundle and bad files alone; the unpacking and BEFORETOSS commands
fit their buffers; names are not too long; there are free names for bad files; the patterns are as in C91; no
BEFORETOSS command; and that files can be moved and opened. Missing: if a bad bundle cannot be moved it is deleted (`Ex.bundle_lost`), a packet that
cannot be opened is deleted with the bundle (`Ex.packet_lost`), and a packer killed by a signal counts as successful
(`Ex.killed_lost`). -/
theorem bundle_kept_partial {σ : Type} {w : World} {t : InCfg σ} {file : Str} {N K : Nat} {fs : FS} (C : TossConds w t file N K fs)
    (d : Data) (hf : fs file = some d)
    (hpat : ∀ p ∈ t.packers, ∃ n, FilePattern p.recog n ∧ n ≤ 40 ∧ n ≤ d.length)
    (hbefore : t.beforeToss = []) (hmove : CanMove w) (hopen : ¬ w.openFails)
    (s : σ) (chdir : Bool) (size : Nat) (hsize : size ≠ 0) :
    Through w (fun _ => True)
      (fun r f => (∀ g, BadPlace t.inbound g → ∀ x, fs g = some x → f g = some x) ∧
        ((f file = some d ∨ SavedAsBad t.inbound file d f) ∨
          ∃ p c log f1, r.ok = true ∧ t.ctrlc r.st = false ∧ r.how = .unpacked p 0 log ∧ FirstFit d t.packers (some p) ∧
            expandPacker 100 file [] p.unpacker [] = .ok c ∧ w.exec c fs 0 f1 ∧ PacketsDone t f1 log f))
      (tossOne t s false chdir file size) fs := by
  unfold tossOne
  simp only [Prog.bind_eq]
  refine Through.bind (Q := fun r f => BundleSafe t.inbound file d fs f ∧ BundleAfter w t file size false chdir d fs r f) ?_ ?_
  · exact (tossBundleD_through C d hf hpat s false chdir size hsize).mono (fun _ _ => trivial) (fun r f h1 h2 => ⟨h1, h2⟩)
  · rintro r f - ⟨⟨h1, h2⟩, h3⟩
    have hbad : ∀ g, BadPlace t.inbound g → ∀ x, fs g = some x → f g = some x := by
      rintro g ⟨g', n, rfl⟩ x hx
      exact h2 g' n x hx
    cases hok : r.ok with
    | false =>
      simp only [Bool.false_eq_true, if_false]
      exact .ret trivial ⟨hbad, .inl h1⟩
    | true =>
      simp only [if_true, osDelete, Prog.bind]
      have e : mystrncpy file 100 = file := List.take_of_length_le (by have := C.short; omega)
      rw [e]
      have goal : ∀ f', (∀ g, g ≠ file → f' g = f g) →
          (∀ g, BadPlace t.inbound g → ∀ x, fs g = some x → f' g = some x) ∧
          ((f' file = some d ∨ SavedAsBad t.inbound file d f') ∨
            ∃ p c log f1, r.ok = true ∧ t.ctrlc r.st = false ∧ r.how = .unpacked p 0 log ∧ FirstFit d t.packers (some p) ∧
              expandPacker 100 file [] p.unpacker [] = .ok c ∧ w.exec c fs 0 f1 ∧ PacketsDone t f1 log f') := by
        intro f' hf'
        have hb' : ∀ g, BadPlace t.inbound g → f' g = f g := fun g hg => hf' g (by rintro rfl; exact C.notBad hg)
        have hsv : ∀ q x, SavedAsBad t.inbound q x f → SavedAsBad t.inbound q x f' := by
          rintro q x ⟨m, hm⟩
          exact ⟨m, by rw [hb' _ ⟨q, m, rfl⟩]; exact hm⟩
        refine ⟨fun g hg x hx => by rw [hb' g hg]; exact hbad g hg x hx, ?_⟩
        unfold BundleAfter at h3
        cases hh : r.how with
        | empty => rw [hh] at h3; exact absurd h3.1 hsize
        | unknown => rw [hh] at h3; exact .inl (.inr (hsv _ _ (h3.2.2 hmove rfl)))
        | noDir => rw [hh, hok] at h3; cases h3.1
        | unpacked p n log =>
          rw [hh] at h3
          obtain ⟨a1, c, f1, a2, a3, a4, a6, a5⟩ := h3
          by_cases hn : n = 0
          · subst hn
            refine .inr ⟨p, c, log, f1, hok, a6 hok, rfl, a1, a2, a3, ?_⟩
            intro m hm hp x hx hd
            rcases a5 hok hmove rfl hopen hbefore m hm hp x hx hd with h | h
            · exact .inl h
            · exact .inr (hsv _ _ h)
          · exact .inl (.inr (hsv _ _ (a4 hn hmove rfl)))
      refine .delete trivial (fun x hx => ?_) (fun _ => ?_)
      · exact .ret trivial (goal _ fun g hg => FS.put_ne _ hg _)
      · exact .ret trivial (goal _ fun _ _ => rfl)

namespace Ex

/-! ### C91 -/

/-- Packers as in the example configuration. -/
def bundlePackers : List Packer :=
  [⟨b!"ZIP", b!"zip -j %a %f", b!"unzip -j %a", b!"PK$03?"⟩, ⟨b!"ARJ", b!"arj a %a %f", b!"arj e %a", b!"$60$eA"⟩]

theorem bundlePackers_ok : ∀ p ∈ bundlePackers, ∃ n, FilePattern p.recog n ∧ n ≤ 4 := by
  have h0 : HexIs 48 0 := ⟨by decide, .inl (by decide)⟩
  have h3 : HexIs 51 3 := ⟨by decide, .inl (by decide)⟩
  have h6 : HexIs 54 6 := ⟨by decide, .inl (by decide)⟩
  have hA : HexIs 65 10 := ⟨by decide, .inr (.inl (by decide))⟩
  have he : HexIs 101 14 := ⟨by decide, .inr (.inr (by decide))⟩
  intro p hp
  rcases List.mem_cons.1 hp with rfl | hp
  · exact ⟨4, .lit (by decide) (by decide) (.lit (by decide) (by decide) (.hex 0 3 h0 h3 (.any .nil))), by decide⟩
  · rcases List.mem_cons.1 hp with rfl | hp
    · exact ⟨2, .hex 6 0 h6 h0 (.hex 14 10 he hA .nil), by decide⟩
    · cases hp

/-- Bundles of both kinds, and one of neither. -/
example : detectPacker b!"PK\x03\x04rest" bundlePackers = .ok bundlePackers[0]? ∧
    detectPacker [0x60, 0xea, 1, 2, 3] bundlePackers = .ok bundlePackers[1]? ∧
    detectPacker b!"Rar!" bundlePackers = .ok none := by decide +kernel

/-- The first packer wins. -/
example : detectPacker b!"PKzip" [⟨b!"X", [], [], b!"P"⟩, ⟨b!"ZIP", [], [], b!"PK"⟩] = .ok (some ⟨b!"X", [], [], b!"P"⟩) := by decide +kernel

/-- C91 (violated). A bundle of one byte that begins like an archive: what is compared then was never read. -/
theorem detect_short : detectPacker b!"P" bundlePackers = .error .uninit := by decide +kernel

/-- A pattern for 41 bytes. -/
def longRecog : Str := List.replicate 41 63

/-- C91 (violated). A pattern for 41 bytes reads behind the buffer. -/
theorem detect_long : FilePattern longRecog 41 ∧ longRecog.length < 80 ∧
    detectPacker (List.replicate 100 1) [⟨b!"X", [], [], longRecog⟩] = .error .oobRead := by
  refine ⟨?_, by decide, by decide +kernel⟩
  have : ∀ n, FilePattern (List.replicate n 63) n := by
    intro n
    induction n with
    | zero => exact .nil
    | succ n ih => exact .any ih
  exact this 41

/-! ### C92 -/

/-- Handling a packet: those that begin with `x` are bad. -/
def bundleCfg : InCfg (List Data) where
  inbound := b!"/in"
  tempDir := b!"/tmp"
  packers := bundlePackers
  sort := isort dateCompareFE
  ctrlc := fun _ => false
  handle := fun s d => .ok (s ++ [d], if d.head? = some 120 then .bad .notType2 else .done)

/-- A disk with a bundle. -/
def bundleDisk (d : Data) : FS := fun f => if f = b!"/in/0000ff3a.mo0" then some d else none

/-- A packer that works: there is a packet in the bundle. Everything else works, too. -/
def bundleWorld : World where
  openFails := False
  writeFails := False
  renameFails := False
  deleteFails := False
  listFails := False
  exec := fun c fs n fs' => c = b!"unzip -j /in/0000ff3a.mo0" ∧ n = 0 ∧ fs' = fs.put b!"/tmp/00000001.pkt" (some b!"mail")

theorem onePacket {fs : FS} {dir name : Str} (hd : dir.length ≤ 99) {es : List FileEntry} (h : DirList fs dir isPkt es)
    (hone : ∀ n, isPkt n = true → fs (dirPart dir ++ n) ≠ none → n = name) : es.length ≤ 1 := by
  obtain ⟨h1, h2, -⟩ := dirList_pkts h
  have : ∀ e ∈ es, e.name = name := by
    intro e he
    obtain ⟨n, x, a1, a2, a3, a4, a5, -⟩ := h.1 e he
    have hc : n.take 99 = n := List.take_of_length_le (by rw [isPkt_length a4]; omega)
    rw [a1, hc]
    refine hone n a4 ?_
    rw [← tempPath_eq hd a4, a5]
    simp
  match es, h2, this with
  | [], _, _ => simp
  | [_], _, _ => simp
  | a :: b :: r, h2, this =>
    rw [List.map_cons, List.map_cons, List.nodup_cons] at h2
    exact absurd (by rw [this a (by simp), this b (by simp)]; simp) h2.1

theorem bundle_notBad : ¬ BadPlace b!"/in" b!"/in/0000ff3a.mo0" := by
  rintro ⟨g, n, h⟩
  have h1 := badName_tail b!"/in" g n
  rw [← h] at h1
  have e : (b!"/in/0000ff3a.mo0" : Str).reverse.takeWhile isDigit = [48] := by decide
  rw [e] at h1
  by_cases hn : n = 0
  · rw [if_pos hn] at h1; cases h1
  · rw [if_neg hn] at h1
    have hd : dec n = [48] := by
      have := congrArg List.reverse h1
      simpa using this.symm
    exact hn (dec_inj (hd.trans (by decide : [48] = dec 0)))

/-- The assumptions of `bundle_kept_partial` can be met. -/
theorem bundle_conds (d : Data) : TossConds bundleWorld bundleCfg b!"/in/0000ff3a.mo0" 0 1 (bundleDisk d) where
  temp := by decide
  short := by decide
  notPkt := by decide
  notBad := bundle_notBad
  cmds := by
    rintro c fs fs' (rfl | ⟨n, -, -, rfl⟩) f hf
    · rfl
    · refine FS.put_ne _ ?_ _
      rintro rfl
      rcases hf with hf | ⟨g, n, hf⟩
      · revert hf; decide
      · obtain ⟨c, h1, h2⟩ := badName_last b!"/in" g n
        rw [← (show b!"/tmp/00000001.pkt" = badName b!"/in" g n from hf)] at h1
        cases h1
        revert h2; decide
  free := by
    intro g n _
    unfold bundleDisk
    rw [if_neg]
    intro e
    exact bundle_notBad ⟨g, n, e.symm⟩
  few := by
    rintro c n fs' es ⟨-, -, rfl⟩ h
    refine onePacket (name := b!"00000001.pkt") (by decide) h ?_
    intro n hn hx
    have hdir : dirPart bundleCfg.tempDir = b!"/tmp/" := by decide
    rw [hdir] at hx
    unfold FS.put bundleDisk at hx
    split at hx
    · rename_i he
      exact List.append_cancel_left (as := b!"/tmp/") he
    · split at hx
      · rename_i he
        exact absurd (congrArg (fun l : Str => l[1]?) he) (by simp)
      · exact absurd rfl hx
  room := by decide
  fuel := by decide
  handles := fun s d => ⟨_, rfl⟩
  sorts := isort_sortsFE
  before := fun _ _ _ h => absurd rfl h
  unpack := by
    intro p hp
    rcases List.mem_cons.1 hp with rfl | hp
    · exact ⟨b!"unzip -j /in/0000ff3a.mo0", by decide +kernel⟩
    · rcases List.mem_cons.1 hp with rfl | hp
      · exact ⟨b!"arj e /in/0000ff3a.mo0", by decide +kernel⟩
      · cases hp

theorem det_zip : detectPacker b!"PK\x03\x04rest" bundlePackers = .ok (some ⟨b!"ZIP", b!"zip -j %a %f", b!"unzip -j %a", b!"PK$03?"⟩) := by
  decide +kernel

theorem det_rar : detectPacker b!"Rar!" bundlePackers = .ok none := by decide +kernel

theorem unzip_cmd : expandPacker 100 b!"/in/0000ff3a.mo0" [] b!"unzip -j %a" [] = .ok b!"unzip -j /in/0000ff3a.mo0" := by decide +kernel

/-- The packet in the directory. -/
theorem tmp_list : DirList ((bundleDisk b!"PK\x03\x04rest").put b!"/tmp/00000001.pkt" (some b!"mail")) b!"/tmp" isPkt [⟨b!"00000001.pkt", 4, 0⟩] := by
  have hdir : dirPart b!"/tmp" = b!"/tmp/" := by decide
  refine ⟨?_, ?_, by simp⟩
  · intro e he
    rw [List.mem_singleton.1 he]
    exact ⟨b!"00000001.pkt", b!"mail", by decide, by decide, by decide, by decide +kernel, by decide +kernel, rfl⟩
  · intro n h1 h2 h3 h4
    refine ⟨_, List.mem_singleton.2 rfl, ?_⟩
    rw [tempPath_eq (by decide) h3, hdir] at h4
    have : n = b!"00000001.pkt" := by
      unfold FS.put bundleDisk at h4
      split at h4
      · rename_i he
        exact List.append_cancel_left (as := b!"/tmp/") he
      · split at h4
        · rename_i he
          exact absurd (congrArg (fun l : Str => l[1]?) he) (by simp)
        · exact absurd rfl h4
    subst this
    decide

/-- There is no packet in the directory. -/
theorem tmp_none : DirList (bundleDisk b!"PK\x03\x04rest") b!"/tmp" isPkt [] := by
  have hdir : dirPart b!"/tmp" = b!"/tmp/" := by decide
  refine ⟨by simp, ?_, by simp⟩
  intro n h1 h2 h3 h4
  rw [tempPath_eq (by decide) h3, hdir] at h4
  unfold bundleDisk at h4
  split at h4
  · rename_i he
    exact absurd (congrArg (fun l : Str => l[1]?) he) (by simp)
  · exact absurd rfl h4

theorem tmp_path : tempPath bundleCfg ⟨b!"00000001.pkt", 4, 0⟩ = b!"/tmp/00000001.pkt" := by decide +kernel

theorem det_zip' : detectPacker b!"PK\x03\x04rest" bundleCfg.packers = .ok (some ⟨b!"ZIP", b!"zip -j %a %f", b!"unzip -j %a", b!"PK$03?"⟩) := det_zip

theorem det_rar' : detectPacker b!"Rar!" bundleCfg.packers = .ok none := det_rar

theorem sort_one (e : FileEntry) : bundleCfg.sort [e] = [e] := rfl

theorem sort_nil : bundleCfg.sort [] = [] := rfl

/-- A bundle of one packet goes away, and the packet has been handled. -/
theorem bundle_tossed : ∃ fs', Reach bundleWorld (tossOne bundleCfg [] false true b!"/in/0000ff3a.mo0" 8) (bundleDisk b!"PK\x03\x04rest")
    (.ret ⟨[b!"mail"], false, true, .unpacked ⟨b!"ZIP", b!"zip -j %a %f", b!"unzip -j %a", b!"PK$03?"⟩ 0
      [(b!"/tmp/00000001.pkt", some (b!"mail", .done))]⟩) fs' ∧ ∀ g, fs' g = none := by
  refine ⟨(((bundleDisk b!"PK\x03\x04rest").put b!"/tmp/00000001.pkt" (some b!"mail")).put b!"/tmp/00000001.pkt" none).put b!"/in/0000ff3a.mo0" none, ?_, ?_⟩
  · unfold tossOne tossBundleD detectFile
    rw [if_neg (by decide)]
    simp only [Prog.bind_eq, readFile, Prog.bind]
    refine .step (.readOk _ _ _ b!"PK\x03\x04rest" rfl) ?_
    simp only [det_zip', liftUB, Prog.bind, unzip_cmd, Bool.not_true, Bool.false_eq_true, if_false, osExecute]
    refine .step (.execStart _ _ _) (.step (.execEnd _ _ _ _ 0 _ ⟨rfl, rfl, rfl⟩) ?_)
    simp only [ne_eq, not_true_eq_false, if_false, Prog.pure_eq, Prog.bind, osReadDir]
    refine .step (.listOk _ _ _ _ _ tmp_list) ?_
    simp only [sort_one, unpackedLoop, tmp_path, readPktFile, beforeTossRun]
    exact .step (.readOk _ _ _ b!"mail" rfl) (.step (.deleteOk _ _ _ b!"mail" rfl) (.step (.deleteOk _ _ _ b!"PK\x03\x04rest" rfl) (.here _ _)))
  · intro g
    unfold FS.put bundleDisk
    split
    · rfl
    · split <;> simp_all

/-- C92 (violated). No packer recognises the bundle, the disk is full, and files cannot be renamed: the bundle is deleted. -/
theorem bundle_lost : ∃ r fs', Reach {} (tossOne bundleCfg [] false true b!"/in/0000ff3a.mo0" 4) (bundleDisk b!"Rar!") (.ret r) fs' ∧
    r.ok = true ∧ ∀ g, fs' g = none := by
  refine ⟨⟨[], false, true, .unknown⟩, (bundleDisk b!"Rar!").put b!"/in/0000ff3a.mo0" none, ?_, rfl, ?_⟩
  · unfold tossOne tossBundleD detectFile
    rw [if_neg (by decide)]
    simp only [Prog.bind_eq, readFile, Prog.bind]
    refine .step (.readOk _ _ _ b!"Rar!" rfl) ?_
    simp only [det_rar', liftUB, Prog.bind]
    exact .step (.exist _ _ _) (.step (.renameFail _ _ _ _ (.inr trivial))
      (.step (.readOk _ _ _ b!"Rar!" rfl) (.step (.openFail _ _ _ _ _ trivial) (.step (.deleteOk _ _ _ b!"Rar!" rfl) (.here _ _)))))
  · intro g
    unfold FS.put bundleDisk
    split <;> simp_all

/-- A world in which files cannot be opened all the time. -/
def openWorld : World := { bundleWorld with openFails := True }

/-- C92 (violated). The packer has unpacked a packet, which cannot be opened: it is deleted, and so is the bundle. -/
theorem packet_lost : ∃ r fs', Reach openWorld (tossOne bundleCfg [] false true b!"/in/0000ff3a.mo0" 8) (bundleDisk b!"PK\x03\x04rest") (.ret r) fs' ∧
    r.ok = true ∧ r.st = [] ∧ ∀ g, fs' g = none := by
  refine ⟨⟨[], false, true, .unpacked ⟨b!"ZIP", b!"zip -j %a %f", b!"unzip -j %a", b!"PK$03?"⟩ 0
      [(b!"/tmp/00000001.pkt", none)]⟩, (((bundleDisk b!"PK\x03\x04rest").put b!"/tmp/00000001.pkt" (some b!"mail")).put b!"/tmp/00000001.pkt" none).put b!"/in/0000ff3a.mo0" none, ?_, rfl, rfl, ?_⟩
  · unfold tossOne tossBundleD detectFile
    rw [if_neg (by decide)]
    simp only [Prog.bind_eq, readFile, Prog.bind]
    refine .step (.readOk _ _ _ b!"PK\x03\x04rest" rfl) ?_
    simp only [det_zip', liftUB, Prog.bind, unzip_cmd, Bool.not_true, Bool.false_eq_true, if_false, osExecute]
    refine .step (.execStart _ _ _) (.step (.execEnd _ _ _ _ 0 _ ⟨rfl, rfl, rfl⟩) ?_)
    simp only [ne_eq, not_true_eq_false, if_false, Prog.pure_eq, Prog.bind, osReadDir]
    refine .step (.listOk _ _ _ _ _ tmp_list) ?_
    simp only [sort_one, unpackedLoop, tmp_path, readPktFile, beforeTossRun]
    exact .step (.readFail _ _ _ (.inr trivial)) (.step (.deleteOk _ _ _ b!"mail" rfl) (.step (.deleteOk _ _ _ b!"PK\x03\x04rest" rfl) (.here _ _)))
  · intro g
    unfold FS.put bundleDisk
    split
    · rfl
    · split <;> simp_all

/-- A world in which nothing fails, but the packer is killed by a signal (status 9 of `system`) before it has done anything. -/
def killWorld : World := { bundleWorld with exec := fun _ fs n fs' => n = wExitStatus 9 ∧ fs' = fs }

/-- C92 (violated). The packer is killed by a signal: this counts as success, and the bundle is deleted. -/
theorem killed_lost : ∃ r fs', Reach killWorld (tossOne bundleCfg [] false true b!"/in/0000ff3a.mo0" 8) (bundleDisk b!"PK\x03\x04rest") (.ret r) fs' ∧
    r.ok = true ∧ r.st = [] ∧ ∀ g, fs' g = none := by
  refine ⟨⟨[], false, true, .unpacked ⟨b!"ZIP", b!"zip -j %a %f", b!"unzip -j %a", b!"PK$03?"⟩ 0 []⟩,
    (bundleDisk b!"PK\x03\x04rest").put b!"/in/0000ff3a.mo0" none, ?_, rfl, rfl, ?_⟩
  · unfold tossOne tossBundleD detectFile
    rw [if_neg (by decide)]
    simp only [Prog.bind_eq, readFile, Prog.bind]
    refine .step (.readOk _ _ _ b!"PK\x03\x04rest" rfl) ?_
    simp only [det_zip', liftUB, Prog.bind, unzip_cmd, Bool.not_true, Bool.false_eq_true, if_false, osExecute]
    refine .step (.execStart _ _ _) (.step (.execEnd _ _ _ _ 0 _ ⟨rfl, rfl⟩) ?_)
    simp only [ne_eq, not_true_eq_false, if_false, Prog.pure_eq, Prog.bind, osReadDir]
    refine .step (.listOk _ _ _ _ _ tmp_none) ?_
    simp only [sort_nil, unpackedLoop]
    exact .step (.deleteOk _ _ _ b!"PK\x03\x04rest" rfl) (.here _ _)
  · intro g
    unfold FS.put bundleDisk
    split <;> simp_all

end Ex

end CM
