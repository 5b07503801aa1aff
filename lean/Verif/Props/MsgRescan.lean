import Verif.Lemmas.MsgRescan
import Verif.Props.MsgMaint
import Verif.Props.Rescan
/-! # Sending messages of a *.msg area again: the theorems -/

set_option linter.unusedSimpArgs false

namespace CM

/-- What a run may know about an area from before: the lowest and highest numbers, as they are. -/
def MsgKnown (st : MsgSt) (i : Nat) (fs : FS) (dir : Str) (H : Nat) : Prop :=
  ∀ r, st i = some r → r.high.toNat = H ∧ 2 ≤ r.low.toNat ∧ r.low.toNat ≤ H + 1 ∧ ∀ n, 2 ≤ n → fs (msgFile dir n) ≠ none → r.low.toNat ≤ n

/-- The record of an area, made when its directory is read. -/
theorem scanRec_exact {fs : FS} {dir : Str} {es : List FileEntry} {H : Nat} (hd : DirName dir) (hl : DirList fs dir isMsgName es) (hp : ProperNames fs dir) (hH : HighMsg fs dir H) (hb : H + 1 < 2 ^ 32)
    (hbig : ∀ n, 2 ^ 32 ≤ n → fs (msgFile dir n) = none) : MsgKnown (fun _ => some (scanRec (es.map (·.name)))) 0 fs dir H := by
  have hname : ∀ f ∈ es.map (·.name), 2 ≤ atol f → ∃ n, n < 2 ^ 32 ∧ f = dec n ++ b!".msg" ∧ atol f = n ∧ fs (msgFile dir n) ≠ none := by
    intro f hf h2
    obtain ⟨e, he, rfl⟩ := List.mem_map.1 hf
    obtain ⟨g, d, e1, e2, e3, e4, e5, -⟩ := hl.1 e he
    obtain ⟨n, hn, rfl⟩ := hp g e2 e4 (by rw [e5]; simp) (.inr (by rw [← e1]; exact h2))
    have hlen : (dec n ++ b!".msg").length ≤ 99 := by
      have := dec_length_le (n := n) (k := 10) (by omega) (by omega)
      have l4 : (b!".msg").length = 4 := rfl
      rw [List.length_append, l4]; omega
    rw [List.take_of_length_le hlen] at e1
    refine ⟨n, hn, e1, ?_, ?_⟩
    · rw [e1, atol_of_atoi (by rw [atoi_msgName]; omega) (by rw [atoi_msgName]; omega), atoi_msgName]
    · rw [msgFile_fits hd n hn, e5]; simp
  have hall : ∀ n, 2 ≤ n → fs (msgFile dir n) ≠ none → ∃ f ∈ es.map (·.name), atol f = n := by
    intro n h2 hf
    have hn : n < 2 ^ 32 := Classical.byContradiction fun h => hf (hbig n (by omega))
    obtain ⟨en, he, hname⟩ := hl.2.1 (dec n ++ b!".msg") (no_slash_dec n) (by simp) (isMsgName_dec n) (by rw [← msgFile_fits hd n hn]; exact hf)
    have hlen : (dec n ++ b!".msg").length ≤ 99 := by
      have := dec_length_le (n := n) (k := 10) (by omega) (by omega)
      have l4 : (b!".msg").length = 4 := rfl
      rw [List.length_append, l4]; omega
    rw [List.take_of_length_le hlen] at hname
    exact ⟨en.name, List.mem_map.2 ⟨en, he, rfl⟩, by rw [hname, atol_of_atoi (by rw [atoi_msgName]; omega) (by rw [atoi_msgName]; omega), atoi_msgName]⟩
  have hpos := hH.pos
  have hlt : ∀ f ∈ es.map (·.name), atol f < ((H + 1 : Nat) : Int) := by
    intro f hf
    by_cases h2 : 2 ≤ atol f
    · obtain ⟨n, _, _, e3, e4⟩ := hname f hf h2
      have := hH.all n (by omega) e4
      omega
    · omega
  intro r hr
  cases hr
  obtain ⟨s1, s2, s3, -, -, s6⟩ := scanRec_spec (es.map (·.name)) (H + 1) (by omega) (by omega) hlt
  have s := scanned (es.map (·.name)) fun f hf => by have := hlt f hf; omega
  have hhigh : (scanRec (es.map (·.name))).high.toNat = H := by
    by_cases h2 : 2 ≤ H
    · obtain ⟨f, hf, e⟩ := hall H h2 (hH.there h2)
      have := s6 f hf (by omega)
      omega
    · omega
  refine ⟨hhigh, s3, ?_, ?_⟩
  · by_cases h2 : 2 ≤ H
    · obtain ⟨f, hf, e⟩ := hall H h2 (hH.there h2)
      have := s6 f hf (by omega)
      omega
    · unfold scanRec
      dsimp only
      split
      · show 2 ≤ _; omega
      · next e =>
        rcases s.lowIs with c | ⟨c, f, hf, c2⟩
        · exact absurd (.inl c) e
        · have := hlt f hf; omega
  · intro n h2 hn
    obtain ⟨f, hf, e⟩ := hall n h2 hn
    have := s6 f hf (by omega)
    omega

theorem msgRescan_start {low high max : UInt32} (h1 : 2 ≤ low.toNat) (h2 : low.toNat ≤ high.toNat + 1) (h3 : high.toNat + 1 < 2 ^ 32) :
    (if max ≠ 0 ∧ high - low + 1 > max then high - max + 1 else low).toNat = if max ≠ 0 ∧ max.toNat < high.toNat + 1 - low.toNat then high.toNat + 1 - max.toNat else low.toNat := by
  have e : (high - low + 1).toNat = high.toNat + 1 - low.toNat := by
    rw [UInt32.toNat_add, UInt32.toNat_sub]
    show ((2 ^ 32 - low.toNat + high.toNat) % 2 ^ 32 + 1) % 2 ^ 32 = _
    have := low.toNat_lt
    omega
  by_cases hm : max = 0
  · rw [if_neg (by simp [hm]), if_neg (by simp [hm])]
  · by_cases hg : high - low + 1 > max
    · have hg' := UInt32.lt_iff_toNat_lt.1 hg
      rw [e] at hg'
      rw [if_pos ⟨hm, hg⟩, if_pos ⟨hm, hg'⟩, UInt32.toNat_add, UInt32.toNat_sub]
      show ((2 ^ 32 - max.toNat + high.toNat) % 2 ^ 32 + 1) % 2 ^ 32 = _
      omega
    · have hg' : ¬ max.toNat < high.toNat + 1 - low.toNat := by rw [← e]; exact fun h => hg (UInt32.lt_iff_toNat_lt.2 h)
      rw [if_neg (by simp [hg]), if_neg (by simp [hg'])]

/-- Sending messages of a *.msg area again. Of the `max` numbers, all if it is zero, up to the highest number of a message, those that belong to a message are handed over, in their order and each once,
whether they were sent before or not; after a failure or Ctrl-C, those before some number. At every moment the messages in the area are as they were. -/
theorem msg_rescan {w : World} (hw : ¬ w.openFails) (o : MsgOpt) (junk : Nat → UInt8) {handle : MsgHandler} (fuel : Nat) (io : Bool) (st : MsgSt) (i : Nat) (a : Area) (aka : Node4D) (max : UInt32)
    (hh : KeepsArea w handle i a.path) (hd : DirName a.path) (fs : FS) {H : Nat} (hH : HighMsg fs a.path H) (hb : H + 1 < 2 ^ 32) (hbig : ∀ n, 2 ^ 32 ≤ n → fs (msgFile a.path n) = none)
    (hp : st i = none → ProperNames fs a.path) (hst : MsgKnown st i fs a.path H) (hf : H < fuel)
    (hload : ∀ (num : UInt32) f, 2 ≤ num.toNat → fs (msgFile a.path num.toNat) = some f → 190 ≤ f.length → ∃ mm, msgLoads o a aka num f mm) :
    Sure w (fun fs' => ∀ n, fs' (msgFile a.path n) = fs (msgFile a.path n))
      (fun x _ => ∃ stop, stop ≤ H + 1 ∧ (x.ok = true → stop = H + 1) ∧ MsgResent (msgLoads o a aka) fs a.path (if max = 0 then 0 else H + 1 - max.toNat) stop x.sent)
      (msgRescan o junk handle fuel io st i a aka max) fs := by
  have main : ∀ st2 r, st2 i = some r → MsgKnown st2 i fs a.path H → Sure w (fun fs' => ∀ n, fs' (msgFile a.path n) = fs (msgFile a.path n))
      (fun x _ => ∃ stop, stop ≤ H + 1 ∧ (x.ok = true → stop = H + 1) ∧ MsgResent (msgLoads o a aka) fs a.path (if max = 0 then 0 else H + 1 - max.toNat) stop x.sent)
      (msgLoop o junk handle i a aka true fuel io st2 (if max ≠ 0 ∧ r.high - r.low + 1 > max then r.high - max + 1 else r.low) []) fs := by
    intro st2 r hr hk
    obtain ⟨k1, k2, k3, k4⟩ := hk r hr
    have hs := msgRescan_start (max := max) k2 (by omega) (by omega : r.high.toNat + 1 < 2 ^ 32)
    generalize (if max ≠ 0 ∧ r.high - r.low + 1 > max then r.high - max + 1 else r.low) = start at hs ⊢
    have hz : max = 0 ∨ max.toNat ≠ 0 := by
      by_cases h : max = 0
      · exact .inl h
      · exact .inr fun e => h (UInt32.toNat_inj.1 e)
    have hstart : 2 ≤ start.toNat ∧ (if max = 0 then 0 else H + 1 - max.toNat) ≤ start.toNat ∧ start.toNat ≤ H + 1 ∧
        ∀ n, 2 ≤ n → (if max = 0 then 0 else H + 1 - max.toNat) ≤ n → n < start.toNat → fs (msgFile a.path n) = none := by
      by_cases hm : max = 0
      · rw [if_neg (by simp [hm])] at hs
        simp only [hm, if_true]
        refine ⟨by omega, by omega, by omega, fun n n1 _ n2 => ?_⟩
        apply Classical.byContradiction
        intro hn
        have := k4 n n1 hn
        omega
      · simp only [hm, if_false]
        by_cases hg : max.toNat < r.high.toNat + 1 - r.low.toNat
        · rw [if_pos ⟨hm, hg⟩] at hs
          refine ⟨by omega, by omega, by omega, fun n n1 n2 n3 => by omega⟩
        · rw [if_neg (by simp [hg])] at hs
          refine ⟨by omega, by omega, by omega, fun n n1 _ n2 => ?_⟩
          apply Classical.byContradiction
          intro hn
          have := k4 n n1 hn
          omega
    obtain ⟨t1, t2, t3, t4⟩ := hstart
    refine (msgReloop_sure (o := o) (junk := junk) (aka := aka) hw hd hh (by omega) hload fuel io st2 start [] fs hr t1 t2 (by omega) (by omega) ?_ fun _ => rfl).mono (fun _ h => h) ?_
    · refine ⟨by simp, fun n => ?_, by simp⟩
      simp only [List.map_nil, List.not_mem_nil, false_iff]
      rintro ⟨e1, e2, e3, d, e4, -⟩
      rw [t4 n e1 e2 e3] at e4
      cases e4
    · rintro x gs - ⟨-, stop, e1, e2, e3⟩
      rw [k1] at e1 e2
      exact ⟨stop, e1, e2, e3⟩
  unfold msgRescan msgGetArea
  cases hs : st i with
  | some r =>
    simp only [Prog.bind_eq, Prog.bind, Bool.not_true, Bool.false_eq_true, if_false, hs, Option.getD_some]
    exact main st r hs hst
  | none =>
    unfold osReadDir
    simp only [Prog.bind_eq, Prog.bind]
    refine .list (fun _ => rfl) ?_ ?_
    · intro es hl
      have hset : (st.set i (scanRec (es.map (·.name)))) i = some (scanRec (es.map (·.name))) := by unfold MsgSt.set; rw [if_pos rfl]
      simp only [Prog.bind, Pure.pure, Bool.not_true, Bool.false_eq_true, if_false, hset, Option.getD_some]
      refine main _ _ hset ?_
      have := scanRec_exact hd hl (hp hs) hH hb hbig
      intro r hr
      rw [hset] at hr
      exact this r hr
    · intro _
      simp only [Prog.bind, Pure.pure, Bool.not_false, if_true]
      refine .ret (fun _ => rfl) ⟨0, by omega, fun h => (by cases h), by simp, fun n => ?_, by simp⟩
      simp

/-- A message that the program has stored can be read, and comes back as it was (C85). -/
theorem stored_loads (o : MsgOpt) (junk : Nat → UInt8) (a : Area) (aka : Node4D) (num : UInt32) {m : MemMsg} {f : Data} (hty : a.type ≠ .netmail) (htag : a.tag ≠ [] ∧ a.tag.length ≤ 79)
    (hm : m.area ≠ []) (hok : StorableEcho m) (hf : msgData o junk m = .ok f) :
    ∃ m', EchoBack o true aka a.tag m m' ∧ msgLoads o a aka num f { m' with msgnum := num, flags := m'.flags ||| 1 } := by
  obtain ⟨-, m', e1, e2⟩ := msg_echo_back o junk a aka true hty htag hm hok hf
  exact ⟨m', e2, _, e1, rfl⟩

/-- A rescan does nothing to the area while it handles a message. -/
def msgIdle : MsgHandler := fun mm st => .ret (true, mm, st)

theorem msgIdle_keeps (w : World) (i : Nat) (dir : Str) : KeepsArea w msgIdle i dir := fun _ _ _ => .ret (fun _ => rfl) rfl

/-- The command for a *.msg area. What the area delivers is sent to the node that was named and to no other, each message once and in the order of the numbers, unless a packet cannot be written;
nothing else is done. -/
theorem rescan_msg {w : World} (hw : ¬ w.openFails) (env : Env) (o : MsgOpt) (junk : Nat → UInt8) (fuel : Nat) (io : Bool) (st : MsgSt) (tag addr : Str) (max : UInt32) (s : HSt) {k : Nat}
    {n : ConfigNode} {i : Nat} {a : Area} {aka : Aka} (hc : CanResend env s.cfg tag addr k n i a) (hk : a.aka.bind (s.cfg.akas[·]?) = some aka) (hd : DirName a.path) (fs : FS) {H : Nat}
    (hH : HighMsg fs a.path H) (hb : H + 1 < 2 ^ 32) (hbig : ∀ n, 2 ^ 32 ≤ n → fs (msgFile a.path n) = none) (hp : st i = none → ProperNames fs a.path) (hst : MsgKnown st i fs a.path H) (hf : H < fuel)
    (hload : ∀ (num : UInt32) f, 2 ≤ num.toNat → fs (msgFile a.path num.toNat) = some f → 190 ≤ f.length → ∃ mm, msgLoads o a aka.node num f mm) :
    Sure w (fun fs' => ∀ n, fs' (msgFile a.path n) = fs (msgFile a.path n))
      (fun x _ => (∃ stop, stop ≤ H + 1 ∧ (x.ok = true → stop = H + 1) ∧ MsgResent (msgLoads o a aka.node) fs a.path (if max = 0 then 0 else H + 1 - max.toNat) stop x.sent) ∧
        (env.rescan s.log i max = (x.sent.map (·.2), x.ok) → ∃ b cs, ((b = true ∧ rescanCmd env tag addr max s = .ok true { s with log := s.log ++ cs.map (.echo k aka.node) }) ∨
            (b = false ∧ rescanCmd env tag addr max s = .fail { s with log := s.log ++ cs.map (.echo k aka.node) })) ∧ ResentAll s.cfg aka.node n (x.sent.map (·.2)) cs b ∧
          ((∀ log m, env.echoOk log k m = true) → cs.length = x.sent.length ∧ b = x.ok)))
      (msgRescan o junk msgIdle fuel io st i a aka.node max) fs := by
  refine (msg_rescan hw o junk fuel io st i a aka.node max (msgIdle_keeps w i a.path) hd fs hH hb hbig hp hst hf hload).mono (fun _ h => h) ?_
  rintro x gs - ⟨stop, h1, h2, h3⟩
  refine ⟨⟨stop, h1, h2, h3⟩, fun he => ?_⟩
  obtain ⟨b, cs, g1, g2, g3⟩ := rescan_sends env tag addr max s hc hk (by
    rw [he]
    intro m hm
    obtain ⟨p, hp, rfl⟩ := List.mem_map.1 hm
    obtain ⟨d, _, hl⟩ := h3.what p hp
    obtain ⟨e1, e2⟩ := msgLoads_tag hl
    rw [if_neg (by rw [hc.echo]; decide)] at e1
    exact ⟨e1, e2⟩)
  rw [he] at g2 g3
  simp only [List.length_map] at g3
  exact ⟨b, cs, g1, g2, g3⟩

namespace Ex

/-- Messages 2 (sent), 3 (too short), 5 (not sent), and the mark. -/
def reFiles : List (FileEntry × Data) := [({ name := b!"5.msg", size := 197 }, msgBytes 0 0 1 (b!"hello" ++ [13, 0])), ({ name := b!"2.msg", size := 193 }, msgBytes 0 8 1 b!"old"),
  ({ name := b!"1.msg", size := 191 }, msgBytes 7 8 0 [0]), ({ name := b!"3.msg", size := 1 }, [3])]

theorem reFiles_list : DirList (dirDisk reFiles) b!"/m" isMsgName (reFiles.map (·.1)) := dirDisk_list (by decide +kernel) (by decide +kernel) (by decide +kernel) (by decide +kernel)

theorem reFiles_names : ProperNames (dirDisk reFiles) b!"/m" := fun f h1 _ h _ => by
  obtain ⟨x, hx, rfl⟩ := dirDisk_some (by decide +kernel) h
  simp only [reFiles, List.mem_cons, List.not_mem_nil, or_false] at hx
  rcases hx with rfl | rfl | rfl | rfl
  · exact ⟨5, by decide, by decide⟩
  · exact ⟨2, by decide, by decide⟩
  · exact ⟨1, by decide, by decide⟩
  · exact ⟨3, by decide, by decide⟩

/-- A rescan of this directory: numbers and texts. -/
def reRun (max : UInt32) : Option (Bool × List (UInt32 × Str)) :=
  match msgRescan {} (fun _ => 0) msgIdle 10 false (fun _ => none) 0 mArea ⟨1, 2, 3, 0⟩ max with
  | .list _ _ k => ((k (some (reFiles.map (·.1)))).play (dirDisk reFiles)).map fun r => (r.1.ok, r.1.sent.map fun p => (p.1, p.2.text.flatten))
  | _ => none

/-- All messages. -/
theorem msg_rescan_all : reRun 0 = some (true, [(2, 1 :: b!"RESCANNED 1:2/3.0\rold"), (5, 1 :: b!"RESCANNED 1:2/3.0\rhello\r")]) := by decide +kernel

/-- Of three numbers: there are two messages, and one is sent. -/
theorem msg_rescan_gap : reRun 3 = some (true, [(5, 1 :: b!"RESCANNED 1:2/3.0\rhello\r")]) := by decide +kernel

theorem dir_cases {n : Nat} {d : Data} (h : dirDisk reFiles (msgFile b!"/m" n) = some d) :
    (n = 1) ∨ (n = 2 ∧ d = msgBytes 0 8 1 b!"old") ∨ (n = 3 ∧ d = [3]) ∨ (n = 5 ∧ d = msgBytes 0 0 1 (b!"hello" ++ [13, 0])) := by
  unfold dirDisk at h
  cases hx : reFiles.find? (fun x => makeFullPath b!"/m" x.1.name 200 == msgFile b!"/m" n) with
  | none => rw [hx] at h; cases h
  | some x =>
    have e0 := List.find?_some hx
    have e := beq_iff_eq.1 e0
    have m := List.mem_of_find?_eq_some hx
    rw [hx] at h
    cases h
    simp only [reFiles, List.mem_cons, List.not_mem_nil, or_false] at m
    rcases m with rfl | rfl | rfl | rfl
    · exact .inr (.inr (.inr ⟨(msgFile_inj ((show msgFile b!"/m" 5 = makeFullPath b!"/m" b!"5.msg" 200 by decide +kernel).trans e)).symm, rfl⟩))
    · exact .inr (.inl ⟨(msgFile_inj ((show msgFile b!"/m" 2 = makeFullPath b!"/m" b!"2.msg" 200 by decide +kernel).trans e)).symm, rfl⟩)
    · exact .inl (msgFile_inj ((show msgFile b!"/m" 1 = makeFullPath b!"/m" b!"1.msg" 200 by decide +kernel).trans e)).symm
    · exact .inr (.inr (.inl ⟨(msgFile_inj ((show msgFile b!"/m" 3 = makeFullPath b!"/m" b!"3.msg" 200 by decide +kernel).trans e)).symm, rfl⟩))

theorem reLoads (f : Data) (h : (readMsg {} mArea ⟨1, 2, 3, 0⟩ true f).isSome = true) (num : UInt32) : ∃ mm, msgLoads {} mArea ⟨1, 2, 3, 0⟩ num f mm := by
  unfold readMsg at h
  split at h
  · next r e => exact ⟨_, r, e, rfl⟩
  · cases h

def reCfg : Config := { cfg [] with areas := [{ tag := b!"BAD", type := .bad, base := some 0 }, { mArea with base := some 1 }] }

/-- The hypotheses of `rescan_msg` are met by this directory and a configuration with it. -/
theorem msg_rescan_case : CanResend env reCfg b!"test" b!"1:2/5" 1 (node 5 0) 1 { mArea with base := some 1 } ∧ (mArea.aka.bind (reCfg.akas[·]?)).map (·.node) = some ⟨1, 2, 3, 0⟩ ∧ ¬ calm.openFails ∧
    DirName mArea.path ∧ HighMsg (dirDisk reFiles) mArea.path 5 ∧ (∀ n, 2 ^ 32 ≤ n → dirDisk reFiles (msgFile mArea.path n) = none) ∧ ProperNames (dirDisk reFiles) mArea.path ∧
    MsgKnown (fun _ => none) 1 (dirDisk reFiles) mArea.path 5 ∧
    ∀ (num : UInt32) f, 2 ≤ num.toNat → dirDisk reFiles (msgFile mArea.path num.toNat) = some f → 190 ≤ f.length → ∃ mm, msgLoads {} mArea ⟨1, 2, 3, 0⟩ num f mm := by
  have hsome : ∀ n, dirDisk reFiles (msgFile b!"/m" n) ≠ none → n ≤ 5 := by
    intro n hn
    obtain ⟨d, hd⟩ := Option.ne_none_iff_exists'.1 hn
    rcases dir_cases hd with rfl | ⟨rfl, -⟩ | ⟨rfl, -⟩ | ⟨rfl, -⟩ <;> decide
  refine ⟨⟨⟨⟨1, 2, 5, 0⟩, by decide +kernel, node 5 0, rfl, by decide, fun j x hj hx => ?_⟩, rfl, ⟨_, rfl, by decide, fun j x hj hx => ?_⟩, rfl, rfl, 1, rfl, rfl⟩, rfl, id, msgDir,
    ⟨by decide, fun n _ hn => hsome n hn, fun _ => by decide +kernel⟩, fun n hn => ?_, reFiles_names, fun r hr => (by cases hr), fun num f h2 hf hl => ?_⟩
  · match j, hj with
    | 0, _ => cases hx; decide
  · match j, hj with
    | 0, _ => cases hx; decide
  · apply Classical.byContradiction
    intro h
    have := hsome n h
    omega
  · rcases dir_cases hf with h | ⟨-, rfl⟩ | ⟨-, rfl⟩ | ⟨-, rfl⟩
    · omega
    · exact reLoads _ (by decide +kernel) num
    · exact absurd hl (by decide)
    · exact reLoads _ (by decide +kernel) num

end Ex

end CM
