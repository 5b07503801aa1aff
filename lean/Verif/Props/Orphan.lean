import Verif.Spec.Orphan
import Verif.Lemmas.Says
import Verif.Lemmas.Readdress
import Verif.Props.Pack
/-! # C111: files for nodes that were busy are sent later -/

set_option linter.unusedSimpArgs false

namespace CM

/-! ## What an orphan file says -/

theorem typeFlavour_name {t : UInt8} {fl : Flavour} (h : TypeFlavour t fl) : priNames[t.toNat]? = some fl.word := by
  cases h <;> decide

theorem typeFlavour_file {t : UInt8} {fl : Flavour} (h : TypeFlavour t fl) (base : Str) : flowFile base t = base ++ fl.ext := by
  cases h <;> rfl

theorem orphanFlavour_word {w : Str} {fl : Flavour} (h : Ci w fl.word) : ∃ t, orphanFlavour w = some t ∧ TypeFlavour t fl := by
  unfold orphanFlavour
  simp only [eqi_ci h]
  cases fl with
  | normal => exact ⟨PKTS_NORMAL, by decide, .normal⟩
  | hold => exact ⟨PKTS_HOLD, by decide, .hold⟩
  | direct => exact ⟨PKTS_DIRECT, by decide, .direct⟩
  | crash => exact ⟨PKTS_CRASH, by decide, .crash⟩

theorem length_quoted (w : Str) : w.length ≤ (Quoted w).length := by
  have : ∀ w : Str, w.length ≤ (w.flatMap fun c => if c = 34 ∨ c = 92 then [92, c] else [c]).length := by
    intro w
    induction w with
    | nil => simp
    | cons c w ih =>
      rw [List.flatMap_cons, List.length_append]
      have : 1 ≤ (if c = 34 ∨ c = 92 then [92, c] else [c] : Str).length := by split <;> simp
      simp only [List.length_cons]; omega
  have := this w
  unfold Quoted
  simp only [List.length_append, List.length_cons, List.length_nil]; omega

theorem written_word_short {ws : List Str} {l : Str} (h : WrittenLine ws l) : ∀ w ∈ ws, w.length ≤ l.length := by
  have wl : ∀ {w t : Str}, Written w t → w.length ≤ t.length := by
    intro w t h
    cases h with
    | bare => exact Nat.le_refl _
    | quoted => exact length_quoted w
  induction h with
  | nil b h => simp
  | last b w t hb hw =>
    intro x hx
    obtain rfl := List.mem_singleton.1 hx
    have := wl hw
    simp only [List.length_append]; omega
  | cons b w t c ws r hb hw hc hr ih =>
    intro x hx
    rcases List.mem_cons.1 hx with rfl | hx
    · have := wl hw
      simp only [List.length_append, List.length_cons]; omega
    · have := ih x hx
      simp only [List.length_append, List.length_cons]; omega

/-- The program understands what an orphan file says. -/
theorem parseOrphan_says {c : Data} {fl : Flavour} {n : Node4D} {mode : FlowMode} (h : OrphanSays c fl n mode) :
    ∃ line r t, osFGets 100 c = some (line, r) ∧ parseOrphan (cstr line) = some (t, n, mode) ∧ TypeFlavour t fl := by
  obtain ⟨l, w, a, ws, e, r, rfl, he, h13, h0, h10, hl, hw, hf, ha, hm⟩ := h
  have e1 : osFGets 100 (l ++ e ++ r) = some (l ++ [10], r) := by
    rcases he with rfl | rfl
    · have := osFGets_line l r 100 ⟨h0, h10, by omega⟩ (by omega)
      rw [if_neg h13] at this
      simpa using this
    · have := osFGets_line (l ++ [13]) r 100 ⟨by simpa [NoNul] using h0, by simpa using h10, by simp; omega⟩ (by simp; omega)
      rw [if_pos (by simp)] at this
      simpa using this
  have hlen := written_word_short hw
  have hr : Rest (w :: a :: ws) (l ++ [10]) := ⟨l, [10], rfl, .inr rfl, hw⟩
  obtain ⟨x1, r1, hr⟩ := hr.word (n := 100) (by have := hlen w (by simp); omega)
  obtain ⟨x2, r2, hr⟩ := hr.word (n := 100) (by have := hlen a (by simp); omega)
  obtain ⟨t, ht, htf⟩ := orphanFlavour_word hf
  have hp : parse4D a = some n := by
    obtain ⟨t, h1, h2, h3⟩ := ha
    exact (parse4D_iff a n).2 ⟨t, h1, h2, h3⟩
  refine ⟨l ++ [10], r, t, e1, ?_, htf⟩
  rw [cstr_all _ (by simpa [NoNul] using h0)]
  unfold parseOrphan
  dsimp only
  rw [r1]
  dsimp only
  rw [ht]
  dsimp only
  rw [r2]
  dsimp only
  rw [hp]
  dsimp only
  have hc3 : ∃ w3, (jbstrcpy 100 x2).1 = w3 ∧ ((mode = .none ∧ w3 = []) ∨ ∃ k, afterWord mode = [k] ∧ Ci w3 k) := by
    refine ⟨_, rfl, ?_⟩
    cases ws with
    | nil =>
      left
      obtain ⟨e, r3, _⟩ := hr.none 100
      rw [r3]
      refine ⟨?_, rfl⟩
      cases mode <;> simp [afterWord] at hm <;> rfl
    | cons v vs =>
      right
      obtain ⟨x3, r3, _⟩ := hr.word (n := 100) (by have := hlen v (by simp); omega)
      rw [r3]
      cases mode <;> simp [afterWord] at hm
      · exact ⟨_, rfl, by simpa [Ci] using hm.1⟩
      · exact ⟨_, rfl, by simpa [Ci] using hm.1⟩
  obtain ⟨w3, e3, h3⟩ := hc3
  rw [e3]
  congr 3
  rcases h3 with ⟨rfl, rfl⟩ | ⟨k, hk, hc⟩
  · decide
  · simp only [eqi_ci hc]
    cases mode <;> simp [afterWord] at hk <;> subst hk <;> decide

theorem addrSays_shown (n : Node4D) : AddrSays (shown n) n := by
  refine ⟨⟨some (dec n.zone.toNat), some (dec n.net.toNat), some (dec n.node.toNat), dec n.point.toNat⟩, ?_, ?_, ?_⟩
  · exact ⟨dec_digits _, dec_digits _, dec_digits _, dec_digits _⟩
  · simp [shown, AddrText.text, sec]
  · simp [AddrText.meaning, odig, compVal_dec]

/-- What is written in an orphan file. -/
def orphanText (fl : Flavour) (n : Node4D) (mode : FlowMode) : Data :=
  fl.word ++ [32] ++ shown n ++ (afterWord mode).flatMap (fun w => 32 :: w) ++ [10]

theorem shown_clean (n : Node4D) : ∀ c ∈ shown n, c ≠ 32 ∧ c ≠ 9 ∧ c ≠ 10 ∧ c ≠ 92 ∧ c ≠ 34 ∧ c ≠ 13 ∧ c ≠ 0 := by
  have d : ∀ (k : Nat) c, c ∈ dec k → c ≠ 32 ∧ c ≠ 9 ∧ c ≠ 10 ∧ c ≠ 92 ∧ c ≠ 34 ∧ c ≠ 13 ∧ c ≠ 0 := by
    intro k c hc
    have := dec_digits k c hc
    refine ⟨?_, ?_, ?_, ?_, ?_, ?_, ?_⟩ <;> (rintro rfl; exact absurd this (by decide))
  intro c hc
  simp only [shown, List.mem_append, List.mem_cons] at hc
  rcases hc with h | rfl | h | rfl | h | rfl | h
  · exact d _ _ h
  · decide
  · exact d _ _ h
  · decide
  · exact d _ _ h
  · decide
  · exact d _ _ h

theorem shown_short (n : Node4D) : (shown n).length ≤ 23 := by
  have d : ∀ k : UInt16, (dec k.toNat).length ≤ 5 := fun k => dec_length_le (by omega) (by have := k.toNat_lt; omega)
  have h1 := d n.zone
  have h2 := d n.net
  have h3 := d n.node
  have h4 := d n.point
  simp only [shown, List.length_append, List.length_cons]; omega

theorem flavour_bare (fl : Flavour) : Written fl.word fl.word := by
  cases fl <;> exact .bare _ (by decide) (by decide) (by decide)

theorem shown_bare (n : Node4D) : Written (shown n) (shown n) := by
  have hc := shown_clean n
  refine .bare _ ?_ ?_ fun c h => ⟨(hc c h).1, (hc c h).2.1, (hc c h).2.2.1, (hc c h).2.2.2.1⟩
  · simp [shown]
  · intro h
    exact (hc 34 (List.mem_of_head? h)).2.2.2.2.1 rfl

theorem orphanText_says (fl : Flavour) (n : Node4D) (mode : FlowMode) : OrphanSays (orphanText fl n mode) fl n mode := by
  have hn := shown_clean n
  have hs := shown_short n
  have blank : BlankStr [] := by simp [BlankStr]
  have fine : ∀ c ∈ fl.word ++ [32] ++ shown n ++ (afterWord mode).flatMap (fun w => 32 :: w), c ≠ 13 ∧ c ≠ 0 ∧ c ≠ 10 := by
    intro c hc
    simp only [List.mem_append, List.mem_singleton] at hc
    rcases hc with ((h | rfl) | h) | h
    · revert c; cases fl <;> decide
    · decide
    · exact ⟨(hn c h).2.2.2.2.2.1, (hn c h).2.2.2.2.2.2, (hn c h).2.2.1⟩
    · revert c; cases mode <;> decide
  refine ⟨fl.word ++ [32] ++ shown n ++ (afterWord mode).flatMap (fun w => 32 :: w), fl.word, shown n, afterWord mode, [10], [], ?_, .inl rfl, ?_, ?_, ?_, ?_, ?_, rfl, addrSays_shown n, rfl⟩
  · simp [orphanText]
  · intro h; exact (fine 13 (List.mem_of_getLast? h)).1 rfl
  · intro h; exact (fine 0 h).2.1 rfl
  · intro h; exact (fine 10 h).2.2 rfl
  · have h1 : fl.word.length ≤ 6 := by cases fl <;> decide
    have h2 : ((afterWord mode).flatMap (fun w => 32 :: w)).length ≤ 9 := by cases mode <;> decide
    simp only [List.length_append, List.length_singleton]; omega
  · have key : WrittenLine (shown n :: afterWord mode) (shown n ++ (afterWord mode).flatMap (fun w => 32 :: w)) := by
      cases mode with
      | none =>
        have := WrittenLine.last [] (shown n) (shown n) blank (shown_bare n)
        simpa [afterWord] using this
      | trunc =>
        have := WrittenLine.cons [] (shown n) (shown n) 32 _ _ blank (shown_bare n) (.inl rfl)
          (.last [] b!"Truncate" b!"Truncate" blank (.bare _ (by decide) (by decide) (by decide)))
        simpa [afterWord] using this
      | delete =>
        have := WrittenLine.cons [] (shown n) (shown n) 32 _ _ blank (shown_bare n) (.inl rfl)
          (.last [] b!"Delete" b!"Delete" blank (.bare _ (by decide) (by decide) (by decide)))
        simpa [afterWord] using this
    have := WrittenLine.cons [] fl.word fl.word 32 _ _ blank (flavour_bare fl) (.inl rfl) key
    simpa using this

/-- C111. A file that cannot be put into the flow file gets an orphan file, which says what was to be done with it. No other file
is changed. -/
theorem orphan_made (w : World) (fs : FS) {file : Str} (n : Node4D) {t : UInt8} {fl : Flavour} (mode : FlowMode) (ht : TypeFlavour t fl)
    (hl : file.length < 193) : Through w (fun fs' => ∀ g, g ≠ file ++ b!".orphan" → fs' g = fs g)
      (fun _ fs' => ¬ w.openFails → ¬ w.writeFails → ∃ c, fs' (file ++ b!".orphan") = some c ∧ OrphanSays c fl n mode)
      (makeOrphan file n t mode) fs := by
  have e : makeOrphan file n t mode = (writeFile (file ++ b!".orphan") .new (orphanText fl n mode)).bind fun _ => .ret () := by
    unfold makeOrphan
    rw [if_neg (by omega), typeFlavour_name ht]
    cases mode <;> simp [orphanText, shown, afterWord, Prog.bind_eq, Prog.pure_eq]
  rw [e]
  simp only [writeFile, Prog.bind]
  refine .write (fun _ _ => rfl) (fun d' t' _ g h => FS.put_ne _ h _) ?_ ?_ ?_
  · simp only [opened, overlay_new]
    exact .ret (fun g h => FS.put_ne _ h _) fun _ _ => ⟨_, FS.put_self _ _ _, orphanText_says fl n mode⟩
  · intro hw junk
    exact .ret (fun g h => FS.put_ne _ h _) fun _ h => absurd hw h
  · intro ho
    exact .ret (fun _ _ => rfl) fun h => absurd ho h

/-! ## Handling orphans -/

/-- Adding a file to a flow file with lines `ls`. -/
theorem doAddFlow_exact (w : World) (I : FS → Prop) (o : OutCfg) (fs : FS) (file base : Str) (type : UInt8) (mode : FlowMode)
    (ls : List Str) (hb : base.length < 196) (hf : FlowFits file)
    (hls : (fs (flowFile base type) = none ∧ ls = []) ∨ fs (flowFile base type) = some (unlines ls)) (hl : ∀ l ∈ ls, FlowText l)
    (h0 : I fs) (hI : ∀ x, I (fs.put (flowFile base type) (some (unlines ls ++ x)))) :
    Through w I (fun r fs' => (r = false → w.openFails ∧ fs' = fs) ∧
        (fs' = fs ∨ ∃ x, fs' = fs.put (flowFile base type) (some (unlines ls ++ x))) ∧
        (r = true → ¬ w.writeFails → ((∃ l ∈ ls, Lists l file) ∧ fs' = fs) ∨ ((∀ l ∈ ls, ¬ Lists l file) ∧
          fs' = fs.put (flowFile base type) (some (unlines (ls ++ [flowEntryOf (o.cfg.has CFG_FLOWCRLF) mode file]))))))
      (doAddFlow o file base type mode) fs := by
  have hlen : (flowFile base type).length = base.length + 4 := by simp [flowFile]
  have hent : unlines ls ++ flowLine (o.cfg.has CFG_FLOWCRLF) mode file = unlines (ls ++ [flowEntryOf (o.cfg.has CFG_FLOWCRLF) mode file]) := by
    rw [unlines_add]
    have : flowText (o.cfg.has CFG_FLOWCRLF) mode file = flowEntryOf (o.cfg.has CFG_FLOWCRLF) mode file := by cases mode <;> rfl
    rw [this]
  unfold doAddFlow
  rw [if_neg (by omega)]
  generalize flowFile base type = flow at *
  simp only [Prog.bind_eq, Prog.pure_eq, osExists, Prog.bind]
  refine .exist h0 ?_
  rcases hls with ⟨hn, rfl⟩ | hs
  · have hx : (fs flow).isSome = false := by rw [hn]; rfl
    have hu : ∀ x, unlines [] ++ x = x := fun x => rfl
    simp only [hx, Bool.false_eq_true, if_false, writeFile, Prog.bind]
    refine .write h0 ?_ ?_ ?_ ?_
    · intro d' t' e
      simp only [opened, overlay_new]
      exact hI d'
    · simp only [opened, overlay_new]
      refine .ret (hI _) ⟨by simp, .inr ⟨_, rfl⟩, fun _ _ => .inr ⟨by simp, ?_⟩⟩
      rw [← hent, hu]
    · intro hw junk
      exact .ret (hI _) ⟨by simp, .inr ⟨_, rfl⟩, fun _ h => absurd hw h⟩
    · intro ho
      exact .ret h0 ⟨fun _ => ⟨ho, rfl⟩, .inl rfl, by simp⟩
  · have hx : (fs flow).isSome = true := by rw [hs]; rfl
    simp only [hx, if_true, readFile, writeFile, Prog.bind]
    refine .read h0 ?_ ?_
    · intro d e
      rw [hs] at e
      cases e
      obtain ⟨r, hr, hrl⟩ := flowHas_lines file hf.toFlowName ls hl (unlines ls).length (length_unlines ls)
      dsimp only
      rw [hr]
      simp only [liftUB, Prog.bind]
      cases r with
      | true =>
        simp only [if_true]
        exact .ret h0 ⟨by simp, .inl rfl, fun _ _ => .inl ⟨hrl.1 rfl, rfl⟩⟩
      | false =>
        simp only [Bool.false_eq_true, if_false]
        have no : ∀ l ∈ ls, ¬ Lists l file := fun l h h' => by simpa using hrl.2 ⟨l, h, h'⟩
        have op : opened fs flow (.fromEnd 0) = (unlines ls, (unlines ls).length) := by simp [opened, hs]
        have ov : ∀ x, overlay (unlines ls) (unlines ls).length x = unlines ls ++ x := by intro x; simp [overlay]
        refine .write h0 ?_ ?_ ?_ ?_
        · intro d' t' e
          simp only [op, ov]
          exact hI d'
        · simp only [op, ov]
          exact .ret (hI _) ⟨by simp, .inr ⟨_, rfl⟩, fun _ _ => .inr ⟨no, by rw [← hent]⟩⟩
        · intro hw junk
          simp only [op, List.take_length]
          exact .ret (hI _) ⟨by simp, .inr ⟨_, rfl⟩, fun _ h => absurd hw h⟩
        · intro ho
          exact .ret h0 ⟨fun _ => ⟨ho, rfl⟩, .inl rfl, by simp⟩
    · intro h
      refine .ret h0 ⟨fun _ => ⟨?_, rfl⟩, .inl rfl, by simp⟩
      rcases h with h | h
      · rw [hs] at h; cases h
      · exact h

theorem lock_through (w : World) (I : FS → Prop) (fs : FS) (base : Str) (hb : base.length < 196) (h0 : I fs)
    (hI : ∀ v, I (fs.put (lockName base) (some v))) :
    Through w I (fun r fs' => (r = true → fs (lockName base) = none ∧ ∃ v, fs' = fs.put (lockName base) (some v)) ∧ (r = false → fs' = fs) ∧
        (fs (lockName base) = none → ¬ w.openFails → r = true)) (lockBasename base) fs := by
  have hlen : (lockName base).length = base.length + 4 := by simp [lockName]
  unfold lockBasename
  rw [if_neg (by omega)]
  generalize lockName base = lock at *
  simp only [Prog.bind_eq, Prog.pure_eq, osExists, Prog.bind]
  refine .exist h0 ?_
  cases hl : fs lock with
  | some d =>
    rw [if_pos (by rfl)]
    exact .ret h0 ⟨by simp, fun _ => rfl, by simp⟩
  | none =>
    rw [if_neg (by simp)]
    simp only [writeFile, Prog.bind]
    refine .write h0 (fun _ _ _ => hI _) ?_ ?_ ?_
    · exact .ret (hI _) ⟨fun _ => ⟨trivial, _, rfl⟩, by simp, fun _ _ => rfl⟩
    · intro _ junk
      exact .ret (hI _) ⟨fun _ => ⟨trivial, _, rfl⟩, by simp, fun _ _ => rfl⟩
    · intro ho
      exact .ret h0 ⟨by simp, fun _ => rfl, fun _ h => absurd ho h⟩

/-- A file is listed in a flow file. -/
def ListedIn (fs : FS) (flow file : Str) : Prop := ∃ ls, fs flow = some (unlines ls) ∧ (∀ l ∈ ls, FlowText l) ∧ ∃ l ∈ ls, Lists l file

theorem flowEntryOf_eq (crlf : Bool) (mode : FlowMode) (file : Str) : flowText crlf mode file = flowEntryOf crlf mode file := by
  cases mode <;> rfl

/-- C111. Handling an orphan file, for every disk and wherever the program is stopped. As long as the file is not listed in the
flow file of the node the orphan file stays (if writing does not fail); lines of the flow file are not lost; no other file but
the lock of the node is touched. If the node is busy nothing is done. Otherwise the file is listed in the end, and once
only, with the mark for what is to be done after it was sent; and the orphan file and the lock are gone. -/
theorem orphan_handled_partial (w : World) (o : OutCfg) (fs : FS) {file base : Str} {c : Data} {fl : Flavour} {n : Node4D} {mode : FlowMode} {ls : List Str}
    (hc : fs (file ++ b!".orphan") = some c) (hs : OrphanSays c fl n mode) (hf : FlowFits file) (hfl : file.length < 193)
    (hbase : makeBaseName o.cfg o.outbound n = .ok base) (hb : base.length < 196)
    (hls : (fs (base ++ fl.ext) = none ∧ ls = []) ∨ fs (base ++ fl.ext) = some (unlines ls)) (hl : ∀ l ∈ ls, FlowText l) :
    Through w (fun fs' => (∀ g, g ≠ base ++ fl.ext → g ≠ base ++ b!".bsy" → g ≠ file ++ b!".orphan" → fs' g = fs g) ∧
        (fs' (base ++ fl.ext) = fs (base ++ fl.ext) ∨ ∃ x, fs' (base ++ fl.ext) = some (unlines ls ++ x)) ∧
        (¬ w.writeFails → fs' (file ++ b!".orphan") = some c ∨ ListedIn fs' (base ++ fl.ext) file))
      (fun _ fs' => (fs (base ++ b!".bsy") ≠ none → fs' = fs) ∧
        (fs (base ++ b!".bsy") = none → ¬ w.openFails → ¬ w.writeFails → ¬ w.deleteFails →
          fs' (base ++ b!".bsy") = none ∧ fs' (file ++ b!".orphan") = none ∧
          (((∃ l ∈ ls, Lists l file) ∧ fs' (base ++ fl.ext) = fs (base ++ fl.ext)) ∨
            ((∀ l ∈ ls, ¬ Lists l file) ∧
              fs' (base ++ fl.ext) = some (unlines (ls ++ [flowEntryOf (o.cfg.has CFG_FLOWCRLF) mode file]))))))
      (handleOrphan o (file ++ b!".orphan")) fs := by
  obtain ⟨line, r, t, e1, e2, ht⟩ := parseOrphan_says hs
  have hname : (mystrncpy (file ++ b!".orphan") 200).take ((mystrncpy (file ++ b!".orphan") 200).length - 7) = file := by
    have h0 : mystrncpy (file ++ b!".orphan") 200 = file ++ b!".orphan" := by
      unfold mystrncpy
      rw [List.take_of_length_le (by simp; omega)]
    rw [h0]
    simp
  have hflow := typeFlavour_file ht base
  have last : ∀ {a b : Str}, a = b → a.getLast? = b.getLast? := fun h => by rw [h]
  have extl : fl.ext.getLast? = some 111 := by cases fl <;> rfl
  have exte : ∃ x, fl.ext = x ++ [111] := List.getLast?_eq_some_iff.1 extl
  have n1 : file ++ b!".orphan" ≠ base ++ fl.ext := by
    intro h
    obtain ⟨x, hx⟩ := exte
    have := last h
    rw [hx] at this
    simp at this
  have n2 : file ++ b!".orphan" ≠ base ++ b!".bsy" := by
    intro h
    have := last h
    simp at this
  have n3 : base ++ fl.ext ≠ base ++ b!".bsy" := by
    intro h
    obtain ⟨x, hx⟩ := exte
    have := last h
    rw [hx] at this
    simp at this
  have hlock : lockName base = base ++ b!".bsy" := rfl
  have ent := hf.text (o.cfg.has CFG_FLOWCRLF) mode
  have lis : Lists (flowText (o.cfg.has CFG_FLOWCRLF) mode file) file :=
    (flowText_lists _ mode file file hf.toFlowName hf.toFlowName).2 rfl
  rw [flowEntryOf_eq] at ent lis
  unfold handleOrphan
  simp only [Prog.bind_eq, Prog.pure_eq, readFile, Prog.bind]
  generalize hnm : file ++ b!".orphan" = name at *
  generalize hfw : base ++ fl.ext = flow at *
  generalize hlk : base ++ b!".bsy" = lock at *
  have start : (∀ g, g ≠ flow → g ≠ lock → g ≠ name → fs g = fs g) ∧ (fs flow = fs flow ∨ ∃ x, fs flow = some (unlines ls ++ x)) ∧
      (¬ w.writeFails → fs name = some c ∨ ListedIn fs flow file) := ⟨fun _ _ _ _ => rfl, .inl rfl, fun _ => .inl hc⟩
  refine .read start ?_ ?_
  · intro d hd
    rw [hc] at hd
    cases hd
    dsimp only
    rw [e1]
    dsimp only
    rw [e2]
    dsimp only
    rw [hbase]
    simp only [liftUB, Prog.bind]
    refine Through.bind (lock_through w _ fs base hb start ?_) ?_
    · intro v
      rw [hlock]
      refine ⟨fun g _ h _ => FS.put_ne _ h _, .inl (FS.put_ne _ n3 _), fun _ => .inl ?_⟩
      rw [FS.put_ne _ n2, hc]
    · rintro b gs hi ⟨k1, k2, k3⟩
      rw [hlock] at k1 k3
      cases b with
      | false =>
        obtain rfl := k2 rfl
        simp only [Bool.false_eq_true, if_false]
        exact .ret hi ⟨fun _ => rfl, fun h1 h2 => absurd (k3 h1 h2) (by simp)⟩
      | true =>
        obtain ⟨hn, v, rfl⟩ := k1 rfl
        simp only [if_true]
        rw [hname]
        have gfl : (fs.put lock (some v)) flow = fs flow := FS.put_ne _ n3 _
        have mid : ∀ x, (∀ g, g ≠ flow → g ≠ lock → g ≠ name → ((fs.put lock (some v)).put flow (some x)) g = fs g) ∧
            ((fs.put lock (some v)).put flow (some x)) name = some c ∧ ((fs.put lock (some v)).put flow (some x)) flow = some x :=
          fun x => ⟨fun g h1 h2 _ => by rw [FS.put_ne _ h1, FS.put_ne _ h2], by rw [FS.put_ne _ n1, FS.put_ne _ n2, hc], FS.put_self _ _ _⟩
        refine Through.bind (doAddFlow_exact w _ o _ file base t mode ls hb hf ?_ hl hi ?_) ?_
        · rw [hflow, gfl]; exact hls
        · intro x
          rw [hflow]
          exact ⟨(mid _).1, .inr ⟨x, (mid _).2.2⟩, fun _ => .inl (mid _).2.1⟩
        · rintro b gs hi' ⟨j1, j2, j3⟩
          rw [hflow] at j2 j3
          have gn : gs name = some c := by
            rcases j2 with rfl | ⟨x, rfl⟩
            · rw [FS.put_ne _ n2, hc]
            · exact (mid _).2.1
          -- the end: unlocking
          have fin : ∀ hs : FS, (hs = gs ∨ hs = gs.put name none) → (b = false → hs = gs) →
              (b = true → ¬ w.deleteFails → hs = gs.put name none) →
              ((∀ g, g ≠ flow → g ≠ lock → g ≠ name → hs g = fs g) ∧ (hs flow = fs flow ∨ ∃ x, hs flow = some (unlines ls ++ x)) ∧
                (¬ w.writeFails → hs name = some c ∨ ListedIn hs flow file)) →
              Through w (fun fs' => (∀ g, g ≠ flow → g ≠ lock → g ≠ name → fs' g = fs g) ∧ (fs' flow = fs flow ∨ ∃ x, fs' flow = some (unlines ls ++ x)) ∧
                  (¬ w.writeFails → fs' name = some c ∨ ListedIn fs' flow file))
                (fun _ fs' => (fs lock ≠ none → fs' = fs) ∧ (fs lock = none → ¬ w.openFails → ¬ w.writeFails → ¬ w.deleteFails →
                  fs' lock = none ∧ fs' name = none ∧ (((∃ l ∈ ls, Lists l file) ∧ fs' flow = fs flow) ∨
                    ((∀ l ∈ ls, ¬ Lists l file) ∧ fs' flow = some (unlines (ls ++ [flowEntryOf (o.cfg.has CFG_FLOWCRLF) mode file]))))))
                (unlockBasename base) hs := by
            intro hs h1 h1f h2 h3
            unfold unlockBasename
            rw [hlock]
            simp only [Prog.bind_eq, Prog.pure_eq, osDelete, Prog.bind]
            refine .delete h3 ?_ ?_
            · intro d hd
              have p1 : (hs.put lock none) flow = hs flow := FS.put_ne _ n3 _
              have p2 : (hs.put lock none) name = hs name := FS.put_ne _ n2 _
              refine .ret ⟨fun g g1 g2 g3 => by rw [FS.put_ne _ g2]; exact h3.1 g g1 g2 g3, by rw [p1]; exact h3.2.1, fun hw => ?_⟩ ⟨fun h => absurd hn h, fun _ ho hw hd => ?_⟩
              · rcases h3.2.2 hw with h | ⟨l1, l2, l3⟩
                · exact .inl (by rw [p2, h])
                · exact .inr ⟨l1, by rw [p1]; exact l2, l3⟩
              · have hb : b = true := by
                  cases b with
                  | true => rfl
                  | false => exact absurd (j1 rfl).1 ho
                subst hb
                obtain rfl := h2 rfl hd
                refine ⟨FS.put_self _ _ _, by rw [p2, FS.put_self], ?_⟩
                rw [p1, FS.put_ne _ n1.symm]
                rcases j3 rfl hw with ⟨q1, rfl⟩ | ⟨q1, rfl⟩
                · exact .inl ⟨q1, gfl⟩
                · exact .inr ⟨q1, FS.put_self _ _ _⟩
            · intro hx
              refine .ret h3 ⟨fun h => absurd hn h, fun _ ho hw hd => ?_⟩
              rcases hx with hx | hx
              · exfalso
                have gl : gs lock = some v := by
                  rcases j2 with rfl | ⟨x, rfl⟩
                  · exact FS.put_self _ _ _
                  · rw [FS.put_ne _ n3.symm, FS.put_self]
                rcases h1 with rfl | rfl
                · rw [gl] at hx; cases hx
                · rw [FS.put_ne _ n2.symm, gl] at hx; cases hx
              · exact absurd hx hd
          cases b with
          | false =>
            simp only [Bool.false_eq_true, if_false]
            exact fin gs (.inl rfl) (fun _ => rfl) (by simp) hi'
          | true =>
            simp only [if_true, osDelete, Prog.bind]
            refine .delete hi' ?_ ?_
            · intro d hd
              refine fin _ (.inr rfl) (by simp) (fun _ _ => rfl) ⟨fun g g1 g2 g3 => by rw [FS.put_ne _ g3]; exact hi'.1 g g1 g2 g3,
                by rw [FS.put_ne _ n1.symm]; exact hi'.2.1, fun hw => .inr ?_⟩
              rcases j3 rfl hw with ⟨⟨l, q1, q2⟩, rfl⟩ | ⟨q1, rfl⟩
              · refine ⟨ls, ?_, hl, l, q1, q2⟩
                rw [FS.put_ne _ n1.symm, gfl]
                rcases hls with ⟨_, rfl⟩ | h
                · cases q1
                · exact h
              · refine ⟨_, by rw [FS.put_ne _ n1.symm, FS.put_self], ?_, _, List.mem_append_right _ (List.mem_singleton.2 rfl), lis⟩
                intro l hm
                rcases List.mem_append.1 hm with hm | hm
                · exact hl l hm
                · rw [List.mem_singleton.1 hm]; exact ent
            · intro hx
              refine fin gs (.inl rfl) (fun _ => rfl) (fun _ hd => ?_) hi'
              rcases hx with hx | hx
              · rw [gn] at hx; cases hx
              · exact absurd hx hd
  · intro h
    refine .ret start ⟨fun _ => rfl, fun _ ho => ?_⟩
    rcases h with h | h
    · rw [hc] at h; cases h
    · exact absurd h ho

/-! ## What goes wrong -/

/-- C111. Violated: when the entry cannot be written because the disk is full, the orphan file is removed all the same. -/
theorem orphan_lost (w : World) (hw : w.writeFails) (o : OutCfg) (fs : FS) {file base : Str} {c : Data} {fl : Flavour} {n : Node4D} {mode : FlowMode}
    (hc : fs (file ++ b!".orphan") = some c) (hs : OrphanSays c fl n mode) (hfl : file.length < 193)
    (hbase : makeBaseName o.cfg o.outbound n = .ok base) (hb : base.length < 196) (h1 : fs (base ++ fl.ext) = none) (h2 : fs (base ++ b!".bsy") = none) :
    ∃ fs', Reach w (handleOrphan o (file ++ b!".orphan")) fs (.ret ()) fs' ∧ fs' (file ++ b!".orphan") = none ∧ fs' (base ++ fl.ext) = some [] := by
  obtain ⟨line, r, t, e1, e2, ht⟩ := parseOrphan_says hs
  have hflow := typeFlavour_file ht base
  have hlen : (flowFile base t).length = base.length + 4 := by simp [flowFile]
  have hlen2 : (lockName base).length = base.length + 4 := by simp [lockName]
  have hlock : lockName base = base ++ b!".bsy" := rfl
  have last : ∀ {a b : Str}, a = b → a.getLast? = b.getLast? := fun h => by rw [h]
  have extl : fl.ext.getLast? = some 111 := by cases fl <;> rfl
  obtain ⟨x, hx⟩ : ∃ x, fl.ext = x ++ [111] := List.getLast?_eq_some_iff.1 extl
  have n1 : file ++ b!".orphan" ≠ base ++ fl.ext := by
    intro h
    have := last h
    rw [hx] at this
    simp at this
  have n2 : file ++ b!".orphan" ≠ base ++ b!".bsy" := by
    intro h
    have := last h
    simp at this
  have n3 : base ++ fl.ext ≠ base ++ b!".bsy" := by
    intro h
    have := last h
    rw [hx] at this
    simp at this
  unfold handleOrphan
  simp only [Prog.bind_eq, Prog.pure_eq, readFile, Prog.bind]
  generalize file ++ b!".orphan" = name at *
  generalize base ++ fl.ext = flow at *
  generalize base ++ b!".bsy" = lock at *
  refine ⟨((((fs.put lock (some [])).put flow (some [])).put flow (some [])).put name none).put lock none, .step (.readOk _ _ _ c hc) ?_, ?_⟩
  · dsimp only
    rw [e1]
    dsimp only
    rw [e2]
    dsimp only
    rw [hbase]
    simp only [liftUB, Prog.bind]
    unfold lockBasename
    rw [if_neg (by omega), hlock]
    simp only [Prog.bind_eq, Prog.pure_eq, osExists, Prog.bind]
    refine .step (.exist _ _ _) ?_
    rw [h2]
    simp only [Option.isSome_none, Bool.false_eq_true, if_false, writeFile, Prog.bind]
    refine .step (.openOk _ _ _ _ _) (.step (.writeDone _ _ _ _ _ _) ?_)
    simp only [if_true, opened]
    unfold doAddFlow
    rw [if_neg (by omega), hflow]
    simp only [Prog.bind_eq, Prog.pure_eq, osExists, Prog.bind]
    refine .step (.exist _ _ _) ?_
    rw [FS.put_ne _ n3, h1]
    simp only [Option.isSome_none, Bool.false_eq_true, if_false, writeFile, Prog.bind]
    refine .step (.openOk _ _ _ _ _) (.step (.writeFail _ _ _ _ _ _ _ [] hw) ?_)
    simp only [if_true, opened, osDelete, Prog.bind, unlockBasename, Prog.bind_eq, Prog.pure_eq, hlock]
    refine .step (.deleteOk _ _ _ c ?_) (.step (.deleteOk _ _ _ [] ?_) (.here _ _))
    · rw [FS.put_ne _ n1, FS.put_ne _ n1, FS.put_ne _ n2, hc]
    · rw [FS.put_ne _ n2.symm, FS.put_ne _ n3.symm, FS.put_ne _ n3.symm, FS.put_self]
  · constructor
    · rw [FS.put_ne _ n2, FS.put_self]
    · rw [FS.put_ne _ n3, FS.put_ne _ n1.symm, FS.put_self]

/-! ## Concrete cases -/

namespace Ex

/-- The configuration: 2:200/207, its outbound in /out. -/
def orphanCfg : OutCfg :=
  { cfg := { Ex.cfg [] with akas := [{ node := ⟨2, 200, 207, 0⟩ }], packetDir := b!"/pkt" }, outbound := b!"/out", packetCreate := b!"/new", wday := fun _ => 0, sort := id }

/-- A disk with an orphan file for 2:200/108.7, and a flow file with one line for that point. -/
def orphanDisk : FS := fun f =>
  if f = b!"/pkt/0123abcd.mo1.orphan" then some b!"hold 2:200/108.7 DELETE\r\n"
  else if f = b!"/out/00c8006c.pnt/00000007.hlo" then some b!"#/pkt/x.mo0\n"
  else none

theorem orphan_file_says : OrphanSays b!"hold 2:200/108.7 DELETE\r\n" .hold ⟨2, 200, 108, 7⟩ .delete := by
  refine ⟨b!"hold 2:200/108.7 DELETE", b!"hold", b!"2:200/108.7", [b!"DELETE"], b!"\r\n", [], by decide, .inr rfl, by decide, by decide, by decide, by decide, ?_, by unfold Ci; decide, ?_, by decide⟩
  · exact .cons [] b!"hold" b!"hold" 32 _ _ (by simp [BlankStr]) (.bare _ (by decide) (by decide) (by decide)) (.inl rfl)
      (.cons [] b!"2:200/108.7" b!"2:200/108.7" 32 _ _ (by simp [BlankStr]) (.bare _ (by decide) (by decide) (by decide)) (.inl rfl)
        (.last [] b!"DELETE" b!"DELETE" (by simp [BlankStr]) (.bare _ (by decide) (by decide) (by decide))))
  · exact addrSays_shown ⟨2, 200, 108, 7⟩

/-- C111. The conditions hold for this disk: the archive is added with the mark for deleting, after the line that was there. -/
theorem orphan_example (w : World) (h1 : ¬ w.openFails) (h2 : ¬ w.writeFails) (h3 : ¬ w.deleteFails) :
    Through w (fun _ => True) (fun _ fs' => fs' b!"/pkt/0123abcd.mo1.orphan" = none ∧
        fs' b!"/out/00c8006c.pnt/00000007.hlo" = some b!"#/pkt/x.mo0\n^/pkt/0123abcd.mo1\n")
      (handleOrphan orphanCfg b!"/pkt/0123abcd.mo1.orphan") orphanDisk := by
  have := orphan_handled_partial w orphanCfg orphanDisk (file := b!"/pkt/0123abcd.mo1") (base := b!"/out/00c8006c.pnt/00000007") (ls := [b!"#/pkt/x.mo0"])
    (c := b!"hold 2:200/108.7 DELETE\r\n") (by decide) orphan_file_says ⟨⟨by decide, by decide, by decide⟩, by decide, by decide, by decide⟩ (by decide)
    (by rfl) (by decide) (.inr (by decide)) (by
      intro l hl
      obtain rfl := List.mem_singleton.1 hl
      exact ⟨by decide, by decide, by decide, by decide⟩)
  refine this.mono (fun _ _ => trivial) ?_
  rintro _ fs' _ ⟨-, h⟩
  obtain ⟨-, e1, e2⟩ := h (by decide) h1 h2 h3
  refine ⟨e1, ?_⟩
  rcases e2 with ⟨⟨l, q1, q2⟩, -⟩ | ⟨-, e⟩
  · obtain rfl := List.mem_singleton.1 q1
    have := (flowText_lists false .trunc b!"/pkt/x.mo0" b!"/pkt/0123abcd.mo1" ⟨by decide, by decide, by decide⟩ ⟨by decide, by decide, by decide⟩).1 q2
    exact absurd this (by decide)
  · exact e

end Ex

end CM
