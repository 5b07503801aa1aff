import Verif.Lemmas.Says
/-!
# C108: what is written in the configuration file is what is configured
-/

set_option linter.unusedSimpArgs false
namespace CM

/-- **C108.** A configuration file is read as it says: names, sizes, switches, patterns, routes, changes of flavours,
packers, addresses, nodes, area lists, filters and areas are what their lines say, whatever the other lines are, in
upper or lower case, with blanks before and between the words, with words in quotes or without, with comments and empty
lines between them, and with LF or CR LF at the ends of the lines. -/
theorem config_says {nl : Nodelist} {chk : Node4D → Bool} {file : Str} {t : RdSt} (h : FileSays (rdInit nl chk) file t) : readConfig nl chk file = .ok t := by
  obtain ⟨h1, h2⟩ := fileSays_rd h
  unfold readConfig
  rw [fileLines_text file h1]
  exact h2

/-- **C108.** Each line does this, wherever it stands. -/
theorem line_says {s t : RdSt} {l : Str} (h : LineSays s l t) : rdLine s (l ++ [10]) = .ok t := lineSays_rd h (.inr rfl)

/-- A file says one thing only. -/
theorem says_one {s t u : RdSt} {f : Str} (h : FileSays s f t) (k : FileSays s f u) : t = u := by
  have h1 := (fileSays_rd h).2
  rw [(fileSays_rd k).2] at h1
  exact (Except.ok.inj h1).symm

theorem rdKw_unknown {k : Str} (h : ∀ kw ∈ keywords, ¬ Ci k kw) (h1 : k ≠ []) (h2 : k.head? ≠ some 59) (s : RdSt) (rest : Str) :
    rdKw s k rest = .error .invalid := by
  have e : ∀ w ∈ keywords, eqi k w = false := by
    intro w hw
    cases he : eqi k w with
    | false => rfl
    | true => exact absurd (show Ci k w by simpa only [eqi, Ci, beq_iff_eq] using he) (h w hw)
  have a : ∀ l : List Str, (∀ w ∈ l, w ∈ keywords) → l.any (eqi k) = false := by
    intro l hl
    rw [List.any_eq_false]
    intro w hw
    simp [e w (hl w hw)]
  have g : ∀ l : List (Str × UInt32), (∀ p ∈ l, p.1 ∈ keywords) → switchOf l k = none := by
    intro l hl
    unfold switchOf
    rw [List.find?_eq_none.2]
    · rfl
    · intro p hp
      simp [e p.1 (hl p hp)]
  have i1 : isAreaWord k = false := by
    simp only [isAreaWord]
    rw [e _ (by decide), e _ (by decide), e _ (by decide)]; rfl
  have p1 : pathSettings.find? (fun p => eqi k p.1) = none := by
    have hall : ∀ w ∈ pathSettings.map (·.1), w ∈ keywords := by decide
    rw [List.find?_eq_none]
    intro p hp
    simp [e p.1 (hall _ (List.mem_map.2 ⟨p, hp, rfl⟩))]
  have o1 : rdOther s k rest = none := by
    unfold rdOther
    iterate 19 rw [e _ (by decide)]
    simp
  unfold rdKw rdRest
  rw [i1, a areaCmdWords (by decide), a nodeCmdWords (by decide), a akaCmdWords (by decide), a filterCmdWords (by decide),
    g cfgSwitches (by decide), g msgSwitches (by decide), g jamSwitches (by decide), p1, o1, e _ (by decide), e _ (by decide)]
  simp [h1, h2]

/-- **C108.** A file with a line that begins with another word is refused. -/
theorem unknown_refused {s u : RdSt} {l : Str} {k : Str} {ws : List Str} {a b : List Str} (ha : rdLines s a = .ok u) (hl : WrittenLine (k :: ws) l)
    (h : ∀ kw ∈ keywords, ¬ Ci k kw) (h1 : k ≠ []) (h2 : k.head? ≠ some 59) (h3 : k.length < 30) :
    rdLines s (a ++ (l ++ [10]) :: b) = .error .invalid := by
  obtain ⟨r, e1, _⟩ := Rest.word ⟨l, [10], rfl, .inr rfl, hl⟩ h3
  have e2 : rdLine u (l ++ [10]) = .error .invalid := by
    rw [rdLine_kw, e1]
    exact rdKw_unknown h h1 h2 u _
  unfold rdLines at *
  rw [List.foldlM_append, ha]
  show List.foldlM rdLine u ((l ++ [10]) :: b) = _
  rw [List.foldlM_cons, e2]
  rfl

/-- C108, violated. The documentation allows 36 characters for the name of the sysop, but only 34 are kept; nothing is said
about the rest. -/
theorem sysop_cut (s : RdSt) (x : Str) (h10 : 10 ∉ x) :
    rdLine s (b!"SYSOP " ++ Quoted x ++ [10]) = .ok { s with cfg := { s.cfg with sysop := x.take 34 } } := by
  have e1 : jbstrcpy 30 (b!"SYSOP " ++ Quoted x ++ [10]) = (b!"SYSOP", Quoted x ++ [10], true) := by
    have := jbstrcpy_plain 30 b!"SYSOP" 32 (Quoted x ++ [10]) ⟨by decide, by decide, by decide⟩ (by decide) (by decide)
    have e2 : skipSep (32 :: (Quoted x ++ [10])) = Quoted x ++ [10] := by simp [skipSep]
    rw [e2] at this
    rw [← this]
    rfl
  have e2 : rdArg 35 (Quoted x ++ [10]) = .ok (x.take 34, [10]) := by
    have := jbstrcpy_quoted 35 x [10] [] h10 (by simp)
    rw [List.nil_append] at this
    simp only [rdArg, this]
    rfl
  rw [rdLine_kw, e1]
  show (do let t ← rdArg 35 (Quoted x ++ [10]); return { s with cfg := { s.cfg with sysop := t.1 } } : Except RdErr RdSt) = _
  simp only [e2, bind, Except.bind]
  rfl

/-- C108, violated: a name of 36 characters. -/
theorem sysop_not_kept : ∃ (x : Str), x.length = 36 ∧ ∀ s, rdLine s (b!"SYSOP " ++ Quoted x ++ [10]) ≠ .ok { s with cfg := { s.cfg with sysop := x } } := by
  refine ⟨List.replicate 36 65, by simp, fun s h => ?_⟩
  rw [sysop_cut s _ (by decide)] at h
  have := congrArg (fun r => match r with | .ok t => t.cfg.sysop.length | .error _ => 0) h
  simp at this

/-! ## The example of the documentation for abbreviated addresses -/

namespace Ex

def at_ (z n f p : UInt16) : ConfigNode := { node := ⟨z, n, f, p⟩ }

/-- The nodes of the example. -/
def abbrNodes : List ConfigNode := [at_ 2 2 2 0, at_ 2 2 1 0, at_ 2 2 1 5, at_ 2 3 2 0, at_ 2 3 2 22, at_ 2 3 3 0, at_ 2 3 3 33]

/-- `EXPORT 2:2/2 1 .5 3/2 .22 3 .33` is for 2:2/2, 2:2/1, 2:2/1.5, 2:3/2, 2:3/2.22, 2:3/3 and 2:3/3.33, as the
documentation says. -/
theorem abbreviated : LinksSay abbrNodes ⟨0, 0, 0, 0⟩ [b!"2:2/2", b!"1", b!".5", b!"3/2", b!".22", b!"3", b!".33"]
    [⟨0, 0⟩, ⟨1, 0⟩, ⟨2, 0⟩, ⟨3, 0⟩, ⟨4, 0⟩, ⟨5, 0⟩, ⟨6, 0⟩] := by
  refine .cons _ [] 0 ⟨some b!"2", some b!"2", none, b!"2"⟩ 0 _ _ (.inl ⟨rfl, rfl⟩) (by unfold AddrText.Digits; decide) (by decide) (by decide) ?_
  refine .cons _ [] 0 ⟨none, none, none, b!"1"⟩ 1 _ _ (.inl ⟨rfl, rfl⟩) (by unfold AddrText.Digits; decide) (by decide) (by decide) ?_
  refine .cons _ [] 0 ⟨none, none, some b!"", b!"5"⟩ 2 _ _ (.inl ⟨rfl, rfl⟩) (by unfold AddrText.Digits; decide) (by decide) (by decide) ?_
  refine .cons _ [] 0 ⟨none, some b!"3", none, b!"2"⟩ 3 _ _ (.inl ⟨rfl, rfl⟩) (by unfold AddrText.Digits; decide) (by decide) (by decide) ?_
  refine .cons _ [] 0 ⟨none, none, some b!"", b!"22"⟩ 4 _ _ (.inl ⟨rfl, rfl⟩) (by unfold AddrText.Digits; decide) (by decide) (by decide) ?_
  refine .cons _ [] 0 ⟨none, none, none, b!"3"⟩ 5 _ _ (.inl ⟨rfl, rfl⟩) (by unfold AddrText.Digits; decide) (by decide) (by decide) ?_
  refine .cons _ [] 0 ⟨none, none, some b!"", b!"33"⟩ 6 _ _ (.inl ⟨rfl, rfl⟩) (by unfold AddrText.Digits; decide) (by decide) (by decide) ?_
  exact .nil _

/-- Words with blanks between them, in quotes or without. -/
def lineOf : List (Bool × Str) → Str
  | [] => []
  | [w] => if w.1 then Quoted w.2 else w.2
  | w :: ws => (if w.1 then Quoted w.2 else w.2) ++ 32 :: lineOf ws

/-- Can the word be written so? -/
def writable (w : Bool × Str) : Bool :=
  if w.1 then w.2.all (· != 10) else w.2 != [] && w.2.head? != some 34 && w.2.all fun c => c != 32 && c != 9 && c != 10 && c != 92

theorem writable_written {w : Bool × Str} (h : writable w = true) : Written w.2 (if w.1 then Quoted w.2 else w.2) := by
  obtain ⟨q, w⟩ := w
  cases q with
  | true =>
    refine .quoted _ fun hw => ?_
    simp [writable] at h
    exact h 10 hw rfl
  | false =>
    simp [writable] at h
    exact .bare _ h.1.1 h.1.2 fun c hc => by
      obtain ⟨⟨⟨h1, h2⟩, h3⟩, h4⟩ := h.2 c hc
      exact ⟨h1, h2, h3, h4⟩

theorem lineOf_written : ∀ (ws : List (Bool × Str)), ws.all writable = true → WrittenLine (ws.map (·.2)) (lineOf ws)
  | [], _ => .nil [] (by simp [BlankStr])
  | [w], h => by
    have := WrittenLine.last [] w.2 _ (by simp [BlankStr]) (writable_written (w := w) (by simpa using h))
    simpa [lineOf] using this
  | w :: v :: ws, h => by
    simp only [List.all_cons, Bool.and_eq_true] at h
    have := WrittenLine.cons [] w.2 _ 32 _ _ (by simp [BlankStr]) (writable_written h.1) (.inl rfl) (lineOf_written (v :: ws) (by simp [h.2]))
    simpa [lineOf] using this

theorem lineOf_says {s t : RdSt} (ws : List (Bool × Str)) (h : ws.all writable = true) (k : Says s (ws.map (·.2)) t) : LineSays s (lineOf ws) t :=
  .words _ _ _ (lineOf_written ws h) k

/-- A line of a file. -/
def fine (l : Str) : Bool := l.all (fun c => c != 0 && c != 10) && l.getLast? != some 13 && decide (l.length < 3998)

theorem fine_says {P : RdSt → Prop} {s u : RdSt} {t e r : Str} (h : LineSays s t u) (hf : fine t = true) (he : e = [10] ∨ e = [13, 10])
    (k : ∃ v, FileSays u r v ∧ P v) : ∃ v, FileSays s (t ++ e ++ r) v ∧ P v := by
  simp only [fine, Bool.and_eq_true, List.all_eq_true, bne_iff_ne, ne_eq, decide_eq_true_eq] at hf
  obtain ⟨v, k, hv⟩ := k
  exact ⟨v, .line _ _ _ _ _ _ h (fun h => (hf.1.1 0 h).1 rfl) (fun h => (hf.1.1 10 h).2 rfl) hf.1.2 hf.2 he k, hv⟩

/-- A configuration file. -/
def prefs : Str :=
  b!"; Our system" ++ [13, 10] ++ (b!"SYSOP \"Johan Billing\"" ++ [10] ++ (b!"" ++ [10] ++ (b!"LogLevel 5" ++ [10] ++ (b!"DUPEMODE bad" ++ [10] ++ (
  b!"STRIPRE" ++ [10] ++ (b!"CHANGE Normal,Direct 2:200/*.* Crash" ++ [10] ++ (b!"PACKER ZIP \"zip %a %f\" \"unzip %a\" PK" ++ [10] ++ (
  b!"AKA 2:200/207.6" ++ [10] ++ (b!"DOMAIN FidoNet" ++ [10] ++ (b!"NODE 2:200/100.0 \"zip\" \"\" PACKNETMAIL AutoAdd" ++ [10] ++ (
  b!"DEFAULTGROUP a" ++ [10] ++ (b!"AREALIST 2:200/100 list.txt GROUP B FORWARD" ++ [10] ++ (b!"ROUTE 2:200/*.* 2:200/100.0 2:200/207.6" ++ [10] ++ (
  b!"AREA R20_CHAT 2:200/207.6 JAM chat" ++ [10] ++ (b!"EXPORT %2:200/100" ++ [10] ++ (b!"FILTER from=\"Twit\"" ++ [10] ++ (b!"KILL" ++ [10] ++ (
  b!"BOUNCE \"ZONE 2\"" ++ [10] ++ []))))))))))))))))))

/-- What it says. -/
theorem prefs_say (nl : Nodelist) (chk : Node4D → Bool) : ∃ t, FileSays (rdInit nl chk) prefs t ∧
    t.cfg.sysop = b!"Johan Billing" ∧ t.set.logLevel = 5 ∧ t.cfg.dupeMode = 1 ∧ t.cfg.flags = CFG_STRIPRE ∧
    t.cfg.changes = [⟨⟨.pattern, b!"2", b!"200", b!"*", b!"*"⟩, true, false, true, false, .crash⟩] ∧
    t.cfg.akas = [{ node := ⟨2, 200, 207, 6⟩, domain := b!"FidoNet" }] ∧
    t.cfg.nodes = [{ node := ⟨2, 200, 100, 0⟩, packer := some 0, flags := NODE_PACKNETMAIL ||| NODE_AUTOADD, defaultGroup := 65 }] ∧
    t.cfg.arealists = [⟨0, b!"list.txt", AREALIST_FORWARD, 66⟩] ∧
    t.cfg.routes = [⟨⟨.pattern, b!"2", b!"200", b!"*", b!"*"⟩, ⟨.pattern, b!"2", b!"200", b!"100", b!"0"⟩, ⟨2, 200, 207, 6⟩⟩] ∧
    t.cfg.areas = [{ tag := b!"R20_CHAT", aka := some 0, base := some 1, path := b!"chat", type := .echomail, tossNodes := [⟨0, TOSSNODE_FEED⟩] }] ∧
    t.cfg.filters = [⟨b!"from=\"Twit\"", [.kill]⟩] ∧ t.cfg.bounceList = [⟨.zone, b!"2", [], [], []⟩] := by
  have adr : ∀ t : AddrText, t.Digits → AddrSays t.text (t.meaning ⟨0, 0, 0, 0⟩) := fun t h => ⟨t, h, rfl, rfl⟩
  have own : AddrSays b!"2:200/207.6" ⟨2, 200, 207, 6⟩ := adr ⟨some b!"2", some b!"200", some b!"207", b!"6"⟩ (by unfold AddrText.Digits; decide)
  have boss : AddrSays b!"2:200/100.0" ⟨2, 200, 100, 0⟩ := adr ⟨some b!"2", some b!"200", some b!"100", b!"0"⟩ (by unfold AddrText.Digits; decide)
  have boss2 : AddrSays b!"2:200/100" ⟨2, 200, 100, 0⟩ := adr ⟨some b!"2", some b!"200", none, b!"100"⟩ (by unfold AddrText.Digits; decide)
  have star : StarSays b!"2:200/*.*" ⟨.pattern, b!"2", b!"200", b!"*", b!"*"⟩ :=
    .parts ⟨some b!"2", some b!"200", some b!"*", b!"*"⟩ (by unfold AddrText.PatChars; simp; decide) (by decide)
  have dest : StarSays b!"2:200/100.0" ⟨.pattern, b!"2", b!"200", b!"100", b!"0"⟩ :=
    .parts ⟨some b!"2", some b!"200", some b!"100", b!"0"⟩ (by unfold AddrText.PatChars; simp; decide) (by decide)
  refine fine_says (.comment [] b!" Our system" (by simp [BlankStr]) (by decide)) (by decide) (.inr rfl) ?_
  refine fine_says (lineOf_says [(false, b!"SYSOP"), (true, b!"Johan Billing")] (by decide) (.name _ _ _ _ _ rfl .sysop (by decide))) (by decide) (.inl rfl) ?_
  refine fine_says (lineOf_says [] rfl .empty) (by decide) (.inl rfl) ?_
  refine fine_says (lineOf_says [(false, b!"LogLevel"), (false, b!"5")] (by decide) (.loglevel _ 5 rfl (by decide) (by decide))) (by decide) (.inl rfl) ?_
  refine fine_says (lineOf_says [(false, b!"DUPEMODE"), (false, b!"bad")] (by decide) (.dupemode _ _ 1 rfl (.inr (.inl ⟨rfl, rfl⟩)))) (by decide) (.inl rfl) ?_
  refine fine_says (lineOf_says [(false, b!"STRIPRE")] (by decide) (.switch _ _ _ rfl .stripre)) (by decide) (.inl rfl) ?_
  refine fine_says (lineOf_says [(false, b!"CHANGE"), (false, b!"Normal,Direct"), (false, b!"2:200/*.*"), (false, b!"Crash")] (by decide)
    (.change _ _ _ _ ⟨⟨.pattern, b!"2", b!"200", b!"*", b!"*"⟩, true, false, true, false, .crash⟩ rfl (by decide)
      (.inr ⟨[.normal, .direct], .more b!"Normal" _ b!"Direct" _ (.normal _ rfl) (.one _ _ (.direct _ rfl)), by decide, by decide, by decide, by decide⟩)
      (by decide) (.parts _ _ star) (.crash _ rfl))) (by decide) (.inl rfl) ?_
  refine fine_says (lineOf_says [(false, b!"PACKER"), (false, b!"ZIP"), (true, b!"zip %a %f"), (true, b!"unzip %a"), (false, b!"PK")] (by decide)
    (.packer _ _ _ _ _ rfl (by decide) (by decide) (by decide) (by decide))) (by decide) (.inl rfl) ?_
  refine fine_says (lineOf_says [(false, b!"AKA"), (false, b!"2:200/207.6")] (by decide) (.aka _ _ _ rfl own (by decide))) (by decide) (.inl rfl) ?_
  refine fine_says (lineOf_says [(false, b!"DOMAIN"), (false, b!"FidoNet")] (by decide) (.ofAka _ [] _ _ rfl (.domain _ _ _ rfl (by decide)))) (by decide) (.inl rfl) ?_
  refine fine_says (lineOf_says [(false, b!"NODE"), (false, b!"2:200/100.0"), (true, b!"zip"), (true, b!""), (false, b!"PACKNETMAIL"), (false, b!"AutoAdd")] (by decide)
    (.node _ _ _ _ _ _ (some 0) _ rfl boss (by decide) (by decide) (by decide) (.inr ⟨by decide, 0, by rfl, rfl⟩)
      (.cons _ _ _ _ _ _ rfl .packnetmail (.cons _ b!"AUTOADD" _ _ _ _ rfl .autoadd (.nil _))))) (by decide) (.inl rfl) ?_
  refine fine_says (lineOf_says [(false, b!"DEFAULTGROUP"), (false, b!"a")] (by decide)
    (.ofNode _ [] _ _ rfl (.group _ _ _ _ rfl (.letter 97 (by decide) (by decide))))) (by decide) (.inl rfl) ?_
  refine fine_says (lineOf_says [(false, b!"AREALIST"), (false, b!"2:200/100"), (false, b!"list.txt"), (false, b!"GROUP"), (false, b!"B"), (false, b!"FORWARD")] (by decide)
    (.arealist _ _ _ _ _ 0 true false _ rfl boss2 (by decide) (by rfl) (by decide)
      (.group _ _ _ _ _ _ _ rfl (.letter 66 (by decide) (by decide)) (by decide) (.forward _ _ _ _ _ rfl .nil)))) (by decide) (.inl rfl) ?_
  refine fine_says (lineOf_says [(false, b!"ROUTE"), (false, b!"2:200/*.*"), (false, b!"2:200/100.0"), (false, b!"2:200/207.6")] (by decide)
    (.route _ _ _ _ _ _ _ _ rfl (by decide) (.parts _ _ star) (by decide) (.parts _ _ dest) (by decide) own (by rfl))) (by decide) (.inl rfl) ?_
  refine fine_says (lineOf_says [(false, b!"AREA"), (false, b!"R20_CHAT"), (false, b!"2:200/207.6"), (false, b!"JAM"), (false, b!"chat")] (by decide)
    (.area _ _ _ _ _ _ 0 _ _ (.echomail _ _ rfl (by unfold Ci; decide) (by unfold Ci; decide) (by
      rintro ⟨p, g, h, hp⟩
      have h8 : p.length = 8 := ci_length hp
      have := congrArg (fun x => (x.take 8).map lower) h
      simp only [List.take_append_of_le_length (Nat.le_of_eq h8.symm), List.take_of_length_le (Nat.le_of_eq h8)] at this
      rw [show p.map lower = _ from hp] at this
      revert this; decide)) (by decide) own (by decide) (by rfl) (.jam _ rfl) (by decide) (by decide))) (by decide) (.inl rfl) ?_
  refine fine_says (lineOf_says [(false, b!"EXPORT"), (false, b!"%2:200/100")] (by decide)
    (.ofArea _ [] _ _ rfl (.exports _ _ _ _ rfl (.inl rfl)
      (.cons _ b!"%" _ ⟨some b!"2", some b!"200", none, b!"100"⟩ 0 _ _ (.inr (.inr (.inr ⟨rfl, rfl⟩))) (by unfold AddrText.Digits; decide) (by decide) (by rfl)
        (.nil _))))) (by decide) (.inl rfl) ?_
  refine fine_says (.filter [] b!"FILTER" b!" " b!"from=\"Twit\"" (by simp [BlankStr]) rfl (by simp [BlankStr]) (by decide) (by decide) (by decide) (by decide) (by decide)
    (by decide)) (by decide) (.inl rfl) ?_
  refine fine_says (lineOf_says [(false, b!"KILL")] (by decide) (.command _ [] _ _ rfl (.kill _ rfl))) (by decide) (.inl rfl) ?_
  refine fine_says (lineOf_says [(false, b!"BOUNCE"), (true, b!"ZONE 2")] (by decide)
    (.bounce _ [(_, _)] rfl (by
      intro x hx
      simp only [List.mem_singleton] at hx
      subst hx
      exact ⟨.zone b!"2" (by unfold PartOk; decide), by decide⟩))) (by decide) (.inl rfl) ?_
  exact ⟨_, .nil _, rfl, rfl, rfl, (show 0 ||| CFG_STRIPRE = CFG_STRIPRE by decide), rfl, rfl, rfl, rfl, rfl, rfl, rfl, rfl⟩

/-- A system without a nodelist. -/
def noList : Nodelist := ⟨false, fun _ => -1, fun _ => -1⟩

/-- So it is read, and a netmail for 2:200/5 goes to 2:200/100. -/
theorem prefs_read : ∃ t, readConfig noList (fun _ => true) prefs = .ok t ∧
    routeNetmail noList t.cfg.routes t.cfg.changes ⟨2, 200, 5, 0⟩ .normal = some (⟨2, 200, 100, 0⟩, .crash, ⟨2, 200, 207, 6⟩) := by
  obtain ⟨t, h, _, _, _, _, k1, _, _, _, k2, _⟩ := prefs_say noList fun _ => true
  exact ⟨t, config_says h, by rw [k1, k2]; decide⟩

end Ex

end CM
