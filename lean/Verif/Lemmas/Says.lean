import Verif.Spec.Says
import Verif.Lemmas.ReadItem
import Verif.Props.Pattern
import Verif.Lemmas.Neat
import Verif.Props.ConfigFile
/-! # Reading what a configuration file says -/
set_option linter.unusedSimpArgs false

namespace CM

/-! ## Words -/

theorem eqi_ci {k kw : Str} (h : Ci k kw) (x : Str) : eqi k x = eqi kw x := by
  unfold eqi; rw [h]

theorem eqi_self_ci {k kw : Str} (h : Ci k kw) : eqi k kw = true := by
  rw [eqi_ci h]; simp [eqi]

theorem ci_length {k kw : Str} (h : Ci k kw) : k.length = kw.length := by
  have := congrArg List.length h
  simpa using this

theorem blanks_dropWhile {b : Str} (h : BlankStr b) (r : Str) : (b ++ r).dropWhile isBlank = r.dropWhile isBlank :=
  dropWhile_append_of_all _ _ _ (by intro c hc; rcases h c hc with rfl | rfl <;> decide)

theorem jbstrcpy_blankStr {b : Str} (h : BlankStr b) (n : Nat) (r : Str) : jbstrcpy n (b ++ r) = jbstrcpy n r := by
  unfold jbstrcpy
  rw [blanks_dropWhile h]

/-- The end of a line. -/
def EolEnd (e : Str) : Prop := e = [] ∨ e = [10]

theorem jbstrcpy_end {e : Str} (h : EolEnd e) (n : Nat) : jbstrcpy n e = ([], e, false) := by
  rcases h with rfl | rfl
  · simp [jbstrcpy, tokLoop, skipSep]
  · exact jbstrcpy_lf n []

theorem tokLoop_bare_end (maxlen : Nat) : ∀ (w : Str) (d : Nat), (∀ c ∈ w, c ≠ 32 ∧ c ≠ 9 ∧ c ≠ 10 ∧ c ≠ 92) → d + w.length < maxlen →
    tokLoop false maxlen d w = (w, []) := by
  intro w
  induction w with
  | nil => intro d _ _; rfl
  | cons c w ih =>
    intro d h hl
    obtain ⟨h1, h2, h3, h4⟩ := h c (by simp)
    simp only [List.length_cons] at hl
    have hs : tokStop false c = false := by simp [tokStop, h1, h2, h3]
    rw [tokLoop.eq_def]
    dsimp only
    rw [if_neg (by rw [hs]; decide), if_neg h4, if_pos (by omega), ih (d + 1) (fun c hc => h c (by simp [hc])) (by omega)]

theorem jbstrcpy_bare_end {w : Str} (h1 : w ≠ []) (h2 : w.head? ≠ some 34) (h3 : ∀ c ∈ w, c ≠ 32 ∧ c ≠ 9 ∧ c ≠ 10 ∧ c ≠ 92) {n : Nat} (hl : w.length < n)
    {e : Str} (he : EolEnd e) : jbstrcpy n (w ++ e) = (w, e, true) := by
  rcases he with rfl | rfl
  · rw [List.append_nil]
    cases w with
    | nil => exact absurd rfl h1
    | cons c w =>
      have hc := h3 c (by simp)
      have hb : isBlank c = false := by simp [isBlank, hc.1, hc.2.1]
      have hq : c ≠ 34 := by simpa using h2
      have e1 : (c :: w).dropWhile isBlank = c :: w := by rw [List.dropWhile_cons, if_neg (by rw [hb]; decide)]
      have e2 : ((c :: w).head? == some 34) = false := by simp [hq]
      unfold jbstrcpy
      dsimp only
      rw [e1, e2]
      simp only [Bool.false_eq_true, if_false]
      rw [tokLoop_bare_end n (c :: w) 0 h3 (by omega)]
      simp [skipSep]
  · exact jbstrcpy_word_lf n w [] ⟨h1, h2, h3⟩ hl

/-- The words of a line are read one after the other. -/
theorem jbstrcpy_written {w : Str} {ws : List Str} {l e : Str} (h : WrittenLine (w :: ws) l) (he : EolEnd e) {n : Nat} (hl : w.length < n) :
    ∃ r, jbstrcpy n (l ++ e) = (w, r ++ e, true) ∧ WrittenLine ws r := by
  cases h with
  | last b _ t hb hw =>
    rw [List.append_assoc, jbstrcpy_blankStr hb]
    refine ⟨[], ?_, .nil [] (by simp [BlankStr])⟩
    cases hw with
    | bare h1 h2 h3 => rw [jbstrcpy_bare_end h1 h2 h3 hl he]; rfl
    | quoted h1 =>
      have := jbstrcpy_quoted n w e [] h1 (by simp)
      rw [List.nil_append] at this
      rw [this, List.take_of_length_le (by omega)]; rfl
  | cons b _ t c _ r hb hw hc hr =>
    rw [List.append_assoc, List.append_assoc, jbstrcpy_blankStr hb]
    cases hw with
    | bare h1 h2 h3 =>
      refine ⟨r, ?_, hr⟩
      rw [List.cons_append, jbstrcpy_plain n w c (r ++ e) ⟨h1, h2, h3⟩ hl (by rcases hc with rfl | rfl <;> decide)]
      have : skipSep (c :: (r ++ e)) = r ++ e := by rcases hc with rfl | rfl <;> simp [skipSep]
      rw [this]
    | quoted h1 =>
      have hb1 : BlankStr [c] := by intro x hx; simp only [List.mem_singleton] at hx; subst hx; exact hc
      refine ⟨c :: r, ?_, ?_⟩
      · have := jbstrcpy_quoted n w (c :: r ++ e) [] h1 (by simp)
        rw [List.nil_append] at this
        rw [this, List.take_of_length_le (by omega)]
      · cases hr with
        | nil b2 h2 => exact .nil _ (by intro x hx; rcases List.mem_cons.1 hx with rfl | hx; exact hc; exact h2 x hx)
        | last b2 w2 t2 h2 h3 =>
          rw [← List.cons_append]
          exact .last _ _ _ (by intro x hx; rcases List.mem_cons.1 hx with rfl | hx; exact hc; exact h2 x hx) h3
        | cons b2 w2 t2 c2 ws2 r2 h2 h3 h4 h5 =>
          rw [← List.cons_append, ← List.cons_append]
          exact .cons _ _ _ _ _ _ (by intro x hx; rcases List.mem_cons.1 hx with rfl | hx; exact hc; exact h2 x hx) h3 h4 h5

theorem jbstrcpy_nothing {l e : Str} (h : WrittenLine [] l) (he : EolEnd e) (n : Nat) : jbstrcpy n (l ++ e) = ([], e, false) := by
  cases h with
  | nil _ hb => rw [jbstrcpy_blankStr hb, jbstrcpy_end he]

/-- A rest of a line with these words. -/
def Rest (ws : List Str) (x : Str) : Prop := ∃ l e, x = l ++ e ∧ EolEnd e ∧ WrittenLine ws l

theorem Rest.word {w : Str} {ws : List Str} {x : Str} (h : Rest (w :: ws) x) {n : Nat} (hl : w.length < n) :
    ∃ r, jbstrcpy n x = (w, r, true) ∧ Rest ws r := by
  obtain ⟨l, e, rfl, he, h⟩ := h
  obtain ⟨r, h1, h2⟩ := jbstrcpy_written h he hl
  exact ⟨_, h1, r, e, rfl, he, h2⟩

theorem Rest.none {x : Str} (h : Rest [] x) (n : Nat) : ∃ e, jbstrcpy n x = ([], e, false) ∧ EolEnd e := by
  obtain ⟨l, e, rfl, he, h⟩ := h
  exact ⟨e, jbstrcpy_nothing h he n, he⟩

theorem Rest.arg {w : Str} {ws : List Str} {x : Str} (h : Rest (w :: ws) x) {n : Nat} (hl : w.length < n) :
    ∃ r, rdArg n x = .ok (w, r) ∧ Rest ws r := by
  obtain ⟨r, h1, h2⟩ := h.word hl
  refine ⟨r, ?_, h2⟩
  unfold rdArg
  rw [h1]; rfl

theorem written_length {w t : Str} (h : Written w t) : 1 ≤ t.length := by
  cases h with
  | bare h1 _ _ => exact List.length_pos_iff.2 h1
  | quoted _ => simp [Quoted]

theorem writtenLine_length {ws : List Str} {l : Str} (h : WrittenLine ws l) : ws.length ≤ l.length := by
  induction h with
  | nil _ _ => simp
  | last b w t _ hw => have := written_length hw; simp; omega
  | cons b w t c ws r _ hw _ _ ih => have := written_length hw; simp; omega

theorem Rest.wordsLoop {n : Nat} : ∀ (ws : List Str) (f : Nat) (x : Str), Rest ws x → (∀ w ∈ ws, w.length < n) → ws.length < f →
    wordsLoop n f x = ws := by
  intro ws
  induction ws with
  | nil =>
    intro f x h _ hf
    cases f with
    | zero => rfl
    | succ f =>
      obtain ⟨e, h1, _⟩ := h.none n
      simp [CM.wordsLoop, h1]
  | cons w ws ih =>
    intro f x h hl hf
    cases f with
    | zero => simp at hf
    | succ f =>
      obtain ⟨r, h1, h2⟩ := h.word (hl w (by simp))
      simp only [List.length_cons] at hf
      simp only [CM.wordsLoop, h1, if_true, ih f r h2 (fun v hv => hl v (by simp [hv])) (by omega)]

theorem Rest.words {n : Nat} {ws : List Str} {x : Str} (h : Rest ws x) (hl : ∀ w ∈ ws, w.length < n) : rdWords n x = ws := by
  refine h.wordsLoop ws _ x hl ?_
  obtain ⟨l, e, rfl, _, h⟩ := h
  have := writtenLine_length h
  simp; omega

/-! ## Values -/

theorem addrSays_rd {w : Str} {n : Node4D} (h : AddrSays w n) : rdNode w = .ok n := by
  obtain ⟨t, h1, h2, h3⟩ := h
  have : parse4D w = some n := (parse4DTemplate_iff w ⟨0, 0, 0, 0⟩ n).2 ⟨t, h1, h2, h3⟩
  unfold rdNode
  rw [this]

theorem starSays_raw {w : Str} {p : Pat4} (h : StarSays w p) : rawParse4DPat .pattern w = .ok (some p) := by
  cases h with
  | star => decide
  | parts t h1 h2 => exact rawParse4DPat_text .pattern t h1 h2

/-- A text whose first character is no letter. -/
theorem starSays_head {w : Str} {p : Pat4} (h : StarSays w p) : ∃ c r, w = c :: r ∧ isPatChar c = true := by
  cases h with
  | star => exact ⟨42, [], rfl, by decide⟩
  | parts t h1 h2 =>
    obtain ⟨z, n, f, l⟩ := t
    obtain ⟨hz, hn, hf, hl, hlc⟩ := h1
    simp only at hz hn hf hl hlc
    have key : ∀ (d : Str) (y : Str), d ≠ [] → (∀ c ∈ d, isPatChar c = true) → ∃ c r, d ++ y = c :: r ∧ isPatChar c = true := by
      intro d y h1 h2
      cases d with
      | nil => exact absurd rfl h1
      | cons c d => exact ⟨c, d ++ y, rfl, h2 c (by simp)⟩
    simp only [AddrText.text]
    cases z with
    | some z => obtain ⟨a, b⟩ := hz z rfl; simp only [sec, List.append_assoc]; exact key z _ a b
    | none =>
      cases n with
      | some n => obtain ⟨a, b⟩ := hn n rfl; simp only [sec, List.append_assoc, List.nil_append]; exact key n _ a b
      | none =>
        cases f with
        | some f => obtain ⟨a, b⟩ := hf f rfl; simp only [sec, List.append_assoc, List.nil_append]; exact key f _ a b
        | none =>
          have := key l [] hl hlc
          simpa [sec] using this

theorem patChar_letter {c : UInt8} (h : isPatChar c = true) : lower c ≠ 122 ∧ lower c ≠ 114 ∧ lower c ≠ 110 ∧ lower c ≠ 104 := by
  revert h
  have : ∀ c : UInt8, isPatChar c = true → lower c ≠ 122 ∧ lower c ≠ 114 ∧ lower c ≠ 110 ∧ lower c ≠ 104 := by decide +kernel
  exact this c

theorem patSays_rd {w : Str} {p : Pat4} (h : PatSays w p) : rdPat (parse4DPat w) = .ok p := by
  have key : parse4DPat w = .ok (some p) := by
    cases h with
    | parts =>
      rename_i h
      obtain ⟨c, r, rfl, hc⟩ := starSays_head h
      have h1 := starSays_raw h
      obtain ⟨a1, a2, a3, a4⟩ := patChar_letter hc
      have e1 : ∀ (x : UInt8) (y : Str) (n : Nat), lower c ≠ lower x → eqin (c :: r) (x :: y) (n + 1) = false := by
        intro x y n hx
        simp [eqin, hx]
      unfold parse4DPat
      rw [if_neg (by rw [e1 90 _ 4 (by simpa [lower] using a1)]; decide), if_neg (by rw [e1 82 _ 6 (by simpa [lower] using a2)]; decide),
        if_neg (by rw [e1 78 _ 3 (by simpa [lower] using a3)]; decide), if_neg (by rw [e1 72 _ 3 (by simpa [lower] using a4)]; decide),
        if_neg (by rw [e1 78 _ 4 (by simpa [lower] using a3)]; decide), h1]
    | zone z h1 => exact parse4DPat_print4DPat ⟨.zone, z, [], [], []⟩ ⟨h1, rfl, rfl, rfl⟩
    | region z n h1 h2 => exact parse4DPat_print4DPat ⟨.region, z, n, [], []⟩ ⟨h1, h2, rfl, rfl⟩
    | net z n h1 h2 => exact parse4DPat_print4DPat ⟨.net, z, n, [], []⟩ ⟨h1, h2, rfl, rfl⟩
    | hub z n f h1 h2 h3 => exact parse4DPat_print4DPat ⟨.hub, z, n, f, []⟩ ⟨h1, h2, h3, rfl⟩
    | node z n f h1 h2 h3 => exact parse4DPat_print4DPat ⟨.node, z, n, f, []⟩ ⟨h1, h2, h3, rfl⟩
  rw [key]; rfl

theorem destSays_rd {w : Str} {p : Pat4} (h : DestSays w p) : rdPat (parse4DDestPat w) = .ok p := by
  have key : parse4DDestPat w = .ok (some p) := by
    cases h with
    | parts =>
      rename_i h
      obtain ⟨c, r, rfl, hc⟩ := starSays_head h
      have h1 := starSays_raw h
      obtain ⟨a1, a2, a3, a4⟩ := patChar_letter hc
      have e1 : ∀ (x : UInt8) (y : Str), lower c ≠ lower x → eqi (c :: r) (x :: y) = false := by
        intro x y hx
        simp [eqi, hx]
      unfold parse4DDestPat
      rw [if_neg (by rw [e1 90 _ (by simpa [lower] using a1)]; decide), if_neg (by rw [e1 82 _ (by simpa [lower] using a2)]; decide),
        if_neg (by rw [e1 78 _ (by simpa [lower] using a3)]; decide), if_neg (by rw [e1 72 _ (by simpa [lower] using a4)]; decide),
        if_neg (by rw [e1 78 _ (by simpa [lower] using a3)]; decide), h1]
    | zone => rename_i h; unfold parse4DDestPat; simp only [eqi_ci h]; rfl
    | region => rename_i h; unfold parse4DDestPat; simp only [eqi_ci h]; rfl
    | net => rename_i h; unfold parse4DDestPat; simp only [eqi_ci h]; rfl
    | hub => rename_i h; unfold parse4DDestPat; simp only [eqi_ci h]; rfl
    | node => rename_i h; unfold parse4DDestPat; simp only [eqi_ci h]; rfl
  rw [key]; rfl

theorem groupSays_rd {w : Str} {c : UInt8} (h : GroupSays w c) : rdGroup w = .ok c ∧ w.length = 1 ∧ c ≠ 0 := by
  cases h with
  | letter c h1 h2 =>
    have hn : ¬ (upper c < 65 ∨ upper c > 90) := by
      intro h
      rcases h with h | h
      · exact absurd h (by rw [UInt8.not_lt]; exact h1)
      · exact absurd h (by rw [gt_iff_lt, UInt8.not_lt]; exact h2)
    refine ⟨?_, rfl, ?_⟩
    · simp only [rdGroup, correctFlags, if_neg hn]
      rfl
    · intro h0
      rw [h0] at h1
      exact absurd h1 (by decide)

/-! ## Lines -/

/-- What `rdLine` does with the first word and the rest. -/
def rdKw (s : RdSt) (w rest : Str) : Except RdErr RdSt :=
  if isAreaWord w then do
    let a ← rdArea s.cfg.akas w rest
    return { s with cfg := { s.cfg with areas := s.cfg.areas ++ [a] } }
  else if areaCmdWords.any (eqi w) then
    match s.cfg.areas.getLast? with
    | none => .error .invalid
    | some a => do
      let a ← rdAreaCmd s.cfg.nodes w rest a
      return { s with cfg := { s.cfg with areas := s.cfg.areas.dropLast ++ [a] } }
  else if eqi w b!"NODE" then do
    let n ← rdNodeLine s.cfg.packers rest
    return { s with cfg := { s.cfg with nodes := s.cfg.nodes ++ [n] } }
  else if nodeCmdWords.any (eqi w) then
    match s.cfg.nodes.getLast? with
    | none => .error .invalid
    | some n => do
      let n ← rdNodeCmd w rest n
      return { s with cfg := { s.cfg with nodes := s.cfg.nodes.dropLast ++ [n] } }
  else rdRest s w rest

theorem rdLine_kw (s : RdSt) (x : Str) : rdLine s x = rdKw s (jbstrcpy 30 x).1 (jbstrcpy 30 x).2.1 := rfl

theorem rdKw_ci {k kw : Str} (h : Ci k kw) (s : RdSt) (rest : Str) : rdKw s k rest = rdKw s kw rest := by
  have e : eqi k = eqi kw := funext (eqi_ci h)
  have h1 : (k ≠ [] ∧ k.head? ≠ some 59) = (kw ≠ [] ∧ kw.head? ≠ some 59) := by
    have hl : ∀ c : UInt8, lower c = 59 ↔ c = 59 := by decide +kernel
    unfold Ci at h
    cases k with
    | nil =>
      cases kw with
      | nil => rfl
      | cons d l => simp at h
    | cons c k =>
      cases kw with
      | nil => simp at h
      | cons d l =>
        simp only [List.map_cons, List.cons.injEq] at h
        have h2 : c = 59 ↔ d = 59 := by rw [← hl c, ← hl d, h.1]
        simp [h2]
  simp only [rdKw, isAreaWord, rdArea, rdAreaType, rdAreaCmd, rdNodeCmd, rdRest, rdAkaCmd, rdFilterCmd, switchOf, rdOther, e, h1]


theorem dec_atoiC {v : Nat} (h : v < 2 ^ 31) : atoiC (dec v) = (v : Int) := by
  have h1 : atoi (dec v) = (v : Int) := by
    have := atoi_dec v [] (by simp)
    rwa [List.append_nil] at this
  unfold atoiC
  rw [atol_of_atoi (by omega) (by omega), h1]
  have h2 : ((UInt32.ofInt (v : Int)).toNat : Int) = v := u32_ofInt (by omega) (by omega)
  have h3 : (UInt32.ofInt (v : Int)).toNat = v := by omega
  unfold UInt32.toInt32 Int32.toInt
  rw [BitVec.toInt_eq_toNat_of_lt]
  · exact_mod_cast h3
  · show 2 * (UInt32.ofInt (v : Int)).toNat < 2 ^ 32
    rw [h3]; omega

theorem ofInt_nat {v : Nat} (h : v < 2 ^ 32) : UInt32.ofInt (v : Int) = UInt32.ofNat v := by
  apply UInt32.toNat_inj.1
  have h2 : ((UInt32.ofInt (v : Int)).toNat : Int) = v := u32_ofInt (by omega) (by omega)
  have h3 : (UInt32.ofNat v).toNat = v := by simp; omega
  omega

theorem dec_short {v : Nat} (h : v < 2 ^ 32) : (dec v).length ≤ 10 := dec_length_le (by omega) (by omega)

theorem Rest.num {v : Nat} {ws : List Str} {x : Str} (h : Rest (dec v :: ws) x) (hv : v < 2 ^ 31) : rdNum x = .ok (UInt32.ofNat v) := by
  obtain ⟨r, h1, _⟩ := h.arg (n := 200) (by have := dec_short (v := v) (by omega); omega)
  simp only [rdNum, h1, bind, Except.bind, pure, Except.pure, dec_atoiC hv, ofInt_nat (v := v) (by omega)]

theorem Rest.size {v : Nat} {ws : List Str} {x : Str} (h : Rest (dec v :: ws) x) (hv : v < 2 ^ 21) : rdSize x = .ok (UInt32.ofNat (v * 1024)) := by
  obtain ⟨r, h1, _⟩ := h.arg (n := 200) (by have := dec_short (v := v) (by omega); omega)
  simp only [rdSize, h1, bind, Except.bind, dec_atoiC (v := v) (by omega)]
  rw [if_pos (by omega)]
  have : ((v : Int) * 1024) = ((v * 1024 : Nat) : Int) := by omega
  rw [this, ofInt_nat (by omega)]
  rfl

theorem map_ok {α β ε : Type} (f : α → Except ε β) (ws : List (α × β)) (h : ∀ x ∈ ws, f x.1 = .ok x.2) :
    (ws.map (·.1)).mapM f = .ok (ws.map (·.2)) := by
  induction ws with
  | nil => rfl
  | cons x ws ih =>
    rw [List.map_cons, List.mapM_cons, h x (by simp), ih fun y hy => h y (by simp [hy])]
    rfl

/-! ### Filters -/

theorem commandSays_rd {k : Str} {ws : List Str} {c : Command} (h : CommandSays (k :: ws) c) {rest : Str} (hr : Rest ws rest) :
    ∃ kw, Ci k kw ∧ kw.length < 30 ∧ (∀ (s : RdSt) (l : List Filter) (f : Filter), s.cfg.filters = l ++ [f] →
      rdKw s kw rest = .ok { s with cfg := { s.cfg with filters := l ++ [{ f with commands := f.commands ++ [c] }] } }) := by
  have fin : ∀ (kw : Str), (∀ s : RdSt, rdKw s kw rest = (match s.cfg.filters.getLast? with
      | none => .error .invalid
      | some f => do
        let c ← rdFilterCmd kw rest
        return { s with cfg := { s.cfg with filters := s.cfg.filters.dropLast ++ [{ f with commands := f.commands ++ [c] }] } })) →
      rdFilterCmd kw rest = .ok c → ∀ (s : RdSt) (l : List Filter) (f : Filter), s.cfg.filters = l ++ [f] →
      rdKw s kw rest = .ok { s with cfg := { s.cfg with filters := l ++ [{ f with commands := f.commands ++ [c] }] } } := by
    intro kw h1 h2 s l f hs
    rw [h1, hs]
    simp [h2, bind, Except.bind, pure, Except.pure]
  cases h with
  | kill _ h => exact ⟨_, h, by decide, fin _ (fun _ => rfl) rfl⟩
  | twit _ h => exact ⟨_, h, by decide, fin _ (fun _ => rfl) rfl⟩
  | copy _ x h hl =>
    obtain ⟨r, h1, _⟩ := hr.arg hl
    exact ⟨_, h, by decide, fin _ (fun _ => rfl) (by simp only [rdFilterCmd, h1, bind, Except.bind]; rfl)⟩
  | execute _ x h hl =>
    obtain ⟨r, h1, _⟩ := hr.arg hl
    exact ⟨_, h, by decide, fin _ (fun _ => rfl) (by simp only [rdFilterCmd, h1, bind, Except.bind]; rfl)⟩
  | writeLog _ x h hl =>
    obtain ⟨r, h1, _⟩ := hr.arg hl
    exact ⟨_, h, by decide, fin _ (fun _ => rfl) (by simp only [rdFilterCmd, h1, bind, Except.bind]; rfl)⟩
  | writeBad _ x h hl =>
    obtain ⟨r, h1, _⟩ := hr.arg hl
    exact ⟨_, h, by decide, fin _ (fun _ => rfl) (by simp only [rdFilterCmd, h1, bind, Except.bind]; rfl)⟩
  | bounce _ x h hl =>
    obtain ⟨r, h1, _⟩ := hr.arg hl
    exact ⟨_, h, by decide, fin _ (fun _ => rfl) (by simp only [rdFilterCmd, h1, bind, Except.bind]; rfl)⟩
  | bounceHead _ x h hl =>
    obtain ⟨r, h1, _⟩ := hr.arg hl
    exact ⟨_, h, by decide, fin _ (fun _ => rfl) (by simp only [rdFilterCmd, h1, bind, Except.bind]; rfl)⟩
  | remap _ x d p h hl hd hp =>
    obtain ⟨r, h1, h2⟩ := hr.arg hl
    obtain ⟨r2, h3, _⟩ := h2.arg hd
    exact ⟨_, h, by decide, fin _ (fun _ => rfl) (by simp only [rdFilterCmd, h1, h3, bind, Except.bind, destSays_rd hp]; rfl)⟩
  | masquerade _ x d p h hl hd hp =>
    obtain ⟨r, h1, h2⟩ := hr.arg hl
    obtain ⟨r2, h3, _⟩ := h2.arg hd
    exact ⟨_, h, by decide, fin _ (fun _ => rfl) (by simp only [rdFilterCmd, h1, h3, bind, Except.bind, destSays_rd hp]; rfl)⟩

/-! ### Own addresses -/

theorem partOk_loop : ∀ (w : Str) (t : Str) (pat : Pat2) (g : Bool) (r : Str), (∀ x ∈ w, isPatChar x = true) → t.length + w.length ≤ 9 → w ≠ [] ∨ t ≠ [] →
    p2Loop { pat := pat, temp := if t = [] then none else some t, tempc := t.length, gotNet := g } (w ++ r) =
      p2Loop { pat := pat, temp := some (t ++ w), tempc := t.length + w.length, gotNet := g } r := by
  intro w
  induction w with
  | nil =>
    intro t pat g r _ _ h
    have ht : t ≠ [] := by simpa using h
    simp [ht]
  | cons c w ih =>
    intro t pat g r hw hl _
    have hc : isPatChar c = true := hw c (by simp)
    have hc2 : c ≠ 47 := by intro h; subst h; exact absurd hc (by decide)
    simp only [List.length_cons] at hl
    rw [List.cons_append]
    conv => lhs; rw [p2Loop.eq_def]
    simp only
    rw [if_neg hc2, if_pos hc, if_pos (by omega)]
    have e : ((if t = [] then none else some t).getD []).take t.length ++ [c] = t ++ [c] := by
      by_cases ht : t = []
      · simp [ht]
      · simp [ht]
    rw [e]
    have := ih (t ++ [c]) pat g r (fun x hx => hw x (by simp [hx])) (by simp; omega) (.inr (by simp))
    rw [if_neg (by simp)] at this
    simp only [List.length_append, List.length_cons, List.length_nil, List.append_assoc, List.cons_append, List.nil_append, Nat.zero_add] at this
    rw [this]
    have : t.length + (w.length + 1) = t.length + 1 + w.length := by omega
    rw [List.length_cons, this]

theorem second_loop : ∀ (w : Str) (o t : Str) (pat : Pat2) (g : Bool), (∀ x ∈ w, isPatChar x = true) → t.length + w.length ≤ 9 →
    o.take t.length = t → w ≠ [] ∨ o = t →
    p2Loop { pat := pat, temp := some o, tempc := t.length, gotNet := g } w =
      .ok (some { pat := pat, temp := some (t ++ w), tempc := t.length + w.length, gotNet := g }) := by
  intro w
  induction w with
  | nil =>
    intro o t pat g _ _ _ h
    have : o = t := by simpa using h
    subst this
    simp [p2Loop]
  | cons c w ih =>
    intro o t pat g hw hl ho _
    have hc : isPatChar c = true := hw c (by simp)
    have hc2 : c ≠ 47 := by intro h; subst h; exact absurd hc (by decide)
    simp only [List.length_cons] at hl
    rw [p2Loop.eq_def]
    simp only
    rw [if_neg hc2, if_pos hc, if_pos (by omega)]
    simp only [Option.getD_some, ho]
    have := ih (t ++ [c]) (t ++ [c]) pat g (fun x hx => hw x (by simp [hx])) (by simp; omega) (List.take_of_length_le (by simp)) (.inr rfl)
    simp only [List.length_append, List.length_cons, List.length_nil, List.append_assoc, List.cons_append, List.nil_append, Nat.zero_add] at this
    rw [this]
    have : t.length + (w.length + 1) = t.length + 1 + w.length := by omega
    rw [List.length_cons, this]

theorem pat2Says_rd {w : Str} {p : Pat2} (h : Pat2Says w p) : rdPat (parse2DPat w) = .ok p := by
  have key : parse2DPat w = .ok (some p) := by
    cases h with
    | star => rfl
    | parts n f hn hf =>
      have hne : n ++ b!"/" ++ f ≠ b!"*" := by
        intro h
        have := congrArg List.length h
        have h1 := List.length_pos_iff.2 hn.1
        have h2 := List.length_pos_iff.2 hf.1
        simp at this
        omega
      unfold parse2DPat
      rw [if_neg hne]
      have h1 := partOk_loop n [] ⟨b!"*", b!"*"⟩ false (47 :: f) hn.2.2 (by simpa using hn.2.1) (.inl hn.1)
      simp only [if_true, List.length_nil, List.nil_append, Nat.zero_add] at h1
      have h2 : p2Loop { pat := ⟨b!"*", b!"*"⟩, temp := some n, tempc := n.length, gotNet := false } (47 :: f) =
          p2Loop { pat := ⟨n, b!"*"⟩, temp := some n, tempc := 0, gotNet := true } f := by
        conv => lhs; rw [p2Loop.eq_def]
        simp
      have h3 := second_loop f n [] ⟨n, b!"*"⟩ true hf.2.2 (by simpa using hf.2.1) (by simp) (.inl hf.1)
      simp only [List.length_nil, List.nil_append, Nat.zero_add] at h3
      have e : n ++ b!"/" ++ f = n ++ 47 :: f := by simp
      rw [e, h1, h2, h3]
  rw [key]; rfl

theorem akaSays_rd {k : Str} {ws : List Str} {a b : Aka} (h : AkaSays (k :: ws) a b) {rest : Str} (hr : Rest ws rest) :
    ∃ kw, Ci k kw ∧ kw.length < 30 ∧ (∀ (s : RdSt) (l : List Aka), s.cfg.akas = l ++ [a] →
      rdKw s kw rest = .ok { s with cfg := { s.cfg with akas := l ++ [b] } }) := by
  have fin : ∀ (kw : Str), (∀ s : RdSt, rdKw s kw rest = (match s.cfg.akas.getLast? with
      | none => .error .invalid
      | some k => do
        let k ← rdAkaCmd kw rest k
        return { s with cfg := { s.cfg with akas := s.cfg.akas.dropLast ++ [k] } })) →
      rdAkaCmd kw rest a = .ok b → ∀ (s : RdSt) (l : List Aka), s.cfg.akas = l ++ [a] →
      rdKw s kw rest = .ok { s with cfg := { s.cfg with akas := l ++ [b] } } := by
    intro kw h1 h2 s l hs
    rw [h1, hs]
    simp [h2, bind, Except.bind, pure, Except.pure]
  cases h with
  | domain _ d _ h hl =>
    obtain ⟨r, h1, _⟩ := hr.arg (n := 200) (by omega)
    exact ⟨_, h, by decide, fin _ (fun _ => rfl) (by simp only [rdAkaCmd, h1, bind, Except.bind, rdFit, if_pos hl]; rfl)⟩
  | add _ xs _ h hx =>
    have hw := hr.words (n := 100) (by intro w hw; obtain ⟨x, hx1, rfl⟩ := List.mem_map.1 hw; exact (hx x hx1).2)
    have hm := map_ok rdNode xs (fun x h => addrSays_rd (hx x h).1)
    exact ⟨_, h, by decide, fin _ (fun _ => rfl) (by simp only [rdAkaCmd, hw, hm, bind, Except.bind]; rfl)⟩
  | rem _ xs _ h hx =>
    have hw := hr.words (n := 100) (by intro w hw; obtain ⟨x, hx1, rfl⟩ := List.mem_map.1 hw; exact (hx x hx1).2)
    have hm := map_ok (fun w => rdPat (parse2DPat w)) xs (fun x h => pat2Says_rd (hx x h).1)
    exact ⟨_, h, by decide, fin _ (fun _ => rfl) (by simp only [rdAkaCmd, hw, hm, bind, Except.bind]; rfl)⟩

/-! ### Nodes -/

theorem switchesSay_rd {ws : List Str} {n m : ConfigNode} (h : SwitchesSay ws n m) : ws.foldlM rdSwitch n = .ok m ∧ ∀ w ∈ ws, w.length < 200 := by
  induction h with
  | nil n => exact ⟨rfl, by simp⟩
  | cons k kw f ws n m hk hs _ ih =>
    have h1 : rdSwitch n k = .ok (f n) := by
      cases hs <;> (simp only [rdSwitch, eqi_ci hk]; rfl)
    refine ⟨?_, ?_⟩
    · rw [List.foldlM_cons, h1]; exact ih.1
    · intro w hw
      rcases List.mem_cons.1 hw with rfl | hw
      · rw [ci_length hk]
        cases hs <;> decide
      · exact ih.2 w hw

theorem correctFlags_letters : ∀ {w : Str}, (∀ c ∈ w, 65 ≤ upper c ∧ upper c ≤ 90) → correctFlags w = (w.map upper, true) := by
  intro w
  induction w with
  | nil => intro _; rfl
  | cons c w ih =>
    intro h
    have h1 := h c (by simp)
    have hn : ¬ (upper c < 65 ∨ upper c > 90) := by
      intro h
      rcases h with h | h
      · exact absurd h (by rw [UInt8.not_lt]; exact h1.1)
      · exact absurd h (by rw [gt_iff_lt, UInt8.not_lt]; exact h1.2)
    simp only [correctFlags, if_neg hn, ih fun x hx => h x (by simp [hx])]
    rfl

theorem groupsSay_rd {w g : Str} (h : GroupsSay w g) {ws : List Str} {x : Str} (hr : Rest (w :: ws) x) : ∃ r, rdGroups x = .ok (g, r) ∧ Rest ws r := by
  obtain ⟨h1, h2, rfl⟩ := h
  obtain ⟨r, h3, h4⟩ := hr.word (n := 70) (by omega)
  refine ⟨r, ?_, h4⟩
  simp only [rdGroups, h3, if_true, rdFit, if_pos h1, bind, Except.bind, correctFlags_letters h2, pure, Except.pure]

theorem nodeSays_rd {k : Str} {ws : List Str} {a b : ConfigNode} (h : NodeSays (k :: ws) a b) {rest : Str} (hr : Rest ws rest) :
    ∃ kw, Ci k kw ∧ kw.length < 30 ∧ (∀ (s : RdSt) (l : List ConfigNode), s.cfg.nodes = l ++ [a] →
      rdKw s kw rest = .ok { s with cfg := { s.cfg with nodes := l ++ [b] } }) := by
  have fin : ∀ (kw : Str), (∀ s : RdSt, rdKw s kw rest = (match s.cfg.nodes.getLast? with
      | none => .error .invalid
      | some k => do
        let k ← rdNodeCmd kw rest k
        return { s with cfg := { s.cfg with nodes := s.cfg.nodes.dropLast ++ [k] } })) →
      rdNodeCmd kw rest a = .ok b → ∀ (s : RdSt) (l : List ConfigNode), s.cfg.nodes = l ++ [a] →
      rdKw s kw rest = .ok { s with cfg := { s.cfg with nodes := l ++ [b] } } := by
    intro kw h1 h2 s l hs
    rw [h1, hs]
    simp [h2, bind, Except.bind, pure, Except.pure]
  cases h with
  | pktfrom _ w n _ h hw hl =>
    obtain ⟨r, h1, _⟩ := hr.arg hl
    exact ⟨_, h, by decide, fin _ (fun _ => rfl) (by simp only [rdNodeCmd, h1, bind, Except.bind, addrSays_rd hw]; rfl)⟩
  | areafix _ pw g r d g' r' d' _ h hl h1 h2 h3 =>
    obtain ⟨x1, e1, y1⟩ := hr.arg hl
    obtain ⟨x2, e2, y2⟩ := groupsSay_rd h1 y1
    obtain ⟨x3, e3, y3⟩ := groupsSay_rd h2 y2
    obtain ⟨x4, e4, _⟩ := groupsSay_rd h3 y3
    exact ⟨_, h, by decide, fin _ (fun _ => rfl) (by simp only [rdNodeCmd, e1, e2, e3, e4, bind, Except.bind]; rfl)⟩
  | group _ g c _ h hg =>
    obtain ⟨h1, h2, _⟩ := groupSays_rd hg
    obtain ⟨r, e1, _⟩ := hr.arg (n := 2) (by omega)
    exact ⟨_, h, by decide, fin _ (fun _ => rfl) (by simp only [rdNodeCmd, e1, h1, bind, Except.bind]; rfl)⟩
  | remoteAf _ x pw _ h h1 h2 =>
    obtain ⟨x1, e1, y1⟩ := hr.arg h1
    obtain ⟨x2, e2, y2⟩ := y1.arg h2
    have e3 := y2.words (n := 200) (by simp)
    exact ⟨_, h, by decide, fin _ (fun _ => rfl) (by simp only [rdNodeCmd, e1, e2, e3, bind, Except.bind]; rfl)⟩
  | remotePlus _ x pw q _ h h1 h2 h3 =>
    obtain ⟨x1, e1, y1⟩ := hr.arg h1
    obtain ⟨x2, e2, y2⟩ := y1.arg h2
    have hq : q.length < 200 := by rw [ci_length h3]; decide
    have e3 := y2.words (n := 200) (by simpa using hq)
    have e4 : ∀ n, rdPlus n q = .ok { n with flags := n.flags ||| NODE_AFNEEDSPLUS } := fun n => by
      simp only [rdPlus, eqi_ci h3]; rfl
    exact ⟨_, h, by decide, fin _ (fun _ => rfl) (by
      simp only [rdNodeCmd, e1, e2, e3, bind, Except.bind, List.foldlM_cons, e4]; rfl)⟩
  | sysop _ x _ h h1 =>
    obtain ⟨x1, e1, y1⟩ := hr.arg h1
    exact ⟨_, h, by decide, fin _ (fun _ => rfl) (by simp only [rdNodeCmd, e1, bind, Except.bind]; rfl)⟩

/-! ### Areas -/

theorem linksSay_rd {nodes : List ConfigNode} {tpl : Node4D} {ws : List Str} {r : List TossNode} (h : LinksSay nodes tpl ws r) :
    rdExport nodes tpl ws = .ok r ∧ ∀ w ∈ ws, w.length < 100 := by
  induction h with
  | nil => exact ⟨rfl, by simp⟩
  | cons tpl m f t i ws r hm hd hl hi _ ih =>
    have hdig : ∀ c ∈ t.text, isDigit c = true ∨ c = 58 ∨ c = 47 ∨ c = 46 := by
      intro c hc
      obtain ⟨z, n, g, l⟩ := t
      obtain ⟨d1, d2, d3, d4⟩ := hd
      simp only [AddrText.text, List.mem_append] at hc
      have hsec : ∀ (o : Option Str) (x : UInt8), (∀ c ∈ odig o, isDigit c = true) → c ∈ sec o x → isDigit c = true ∨ c = x := by
        intro o x ho hc
        cases o with
        | none => simp [sec] at hc
        | some d =>
          simp only [sec, List.mem_append, List.mem_singleton] at hc
          rcases hc with hc | hc
          · exact .inl (ho c hc)
          · exact .inr hc
      rcases hc with ((hc | hc) | hc) | hc
      · rcases hsec _ _ d1 hc with h | h <;> simp [h]
      · rcases hsec _ _ d2 hc with h | h <;> simp [h]
      · rcases hsec _ _ d3 hc with h | h <;> simp [h]
      · exact .inl (d4 c hc)
    have hno : ∀ x : UInt8, x = 33 ∨ x = 64 ∨ x = 37 → t.text.head? ≠ some x := by
      intro x hx h
      have hmem : x ∈ t.text := List.mem_of_head? h
      have := hdig x hmem
      rcases hx with rfl | rfl | rfl <;> revert this <;> decide
    have e1 : exportMark (m ++ t.text) = (f, t.text) := by
      have a1 := hno 33 (by simp)
      have a2 := hno 64 (by simp)
      have a3 := hno 37 (by simp)
      rcases hm with ⟨rfl, rfl⟩ | ⟨rfl, rfl⟩ | ⟨rfl, rfl⟩ | ⟨rfl, rfl⟩
      · simp [exportMark, a1, a2, a3]
      · simp [exportMark, a1, a2, a3]
      · simp [exportMark, a1, a2, a3]
      · simp [exportMark, a1, a2, a3]
    have e2 : parse4DTemplate t.text tpl = some (t.meaning tpl) := (parse4DTemplate_iff _ _ _).2 ⟨t, hd, rfl, rfl⟩
    refine ⟨?_, ?_⟩
    · simp only [rdExport, e1, e2, rdKnown, hi, bind, Except.bind, ih.1]; rfl
    · intro w hw
      rcases List.mem_cons.1 hw with rfl | hw
      · simpa using hl
      · exact ih.2 w hw

theorem banned_rd {nodes : List ConfigNode} (ws : List (Str × Node4D × Nat)) (h : ∀ x ∈ ws, AddrSays x.1 x.2.1 ∧ x.1.length < 100 ∧
    (nodes.findIdx? fun c => compare4D x.2.1 c.node == 0) = some x.2.2) : rdBanned nodes (ws.map (·.1)) = .ok (ws.map (·.2.2)) := by
  induction ws with
  | nil => rfl
  | cons x ws ih =>
    obtain ⟨h1, _, h3⟩ := h x (by simp)
    simp only [List.map_cons, rdBanned, addrSays_rd h1, rdKnown, h3, bind, Except.bind, ih fun y hy => h y (by simp [hy])]
    rfl

theorem areaSays_rd {nodes : List ConfigNode} {k : Str} {ws : List Str} {a b : Area} (h : AreaSays nodes (k :: ws) a b) {rest : Str} (hr : Rest ws rest) :
    ∃ kw, Ci k kw ∧ kw.length < 30 ∧ (∀ (s : RdSt) (l : List Area), s.cfg.areas = l ++ [a] → s.cfg.nodes = nodes →
      rdKw s kw rest = .ok { s with cfg := { s.cfg with areas := l ++ [b] } }) := by
  have fin : ∀ (kw : Str), (∀ s : RdSt, rdKw s kw rest = (match s.cfg.areas.getLast? with
      | none => .error .invalid
      | some k => do
        let k ← rdAreaCmd s.cfg.nodes kw rest k
        return { s with cfg := { s.cfg with areas := s.cfg.areas.dropLast ++ [k] } })) →
      rdAreaCmd nodes kw rest a = .ok b → ∀ (s : RdSt) (l : List Area), s.cfg.areas = l ++ [a] → s.cfg.nodes = nodes →
      rdKw s kw rest = .ok { s with cfg := { s.cfg with areas := l ++ [b] } } := by
    intro kw h1 h2 s l hs hn
    rw [h1, hs]
    simp [hn, h2, bind, Except.bind, pure, Except.pure]
  cases h with
  | unconfirmed _ _ h => exact ⟨_, h, by decide, fin _ (fun _ => rfl) rfl⟩
  | mandatory _ _ h => exact ⟨_, h, by decide, fin _ (fun _ => rfl) rfl⟩
  | defreadonly _ _ h => exact ⟨_, h, by decide, fin _ (fun _ => rfl) rfl⟩
  | ignoredupes _ _ h => exact ⟨_, h, by decide, fin _ (fun _ => rfl) rfl⟩
  | ignoreseenby _ _ h => exact ⟨_, h, by decide, fin _ (fun _ => rfl) rfl⟩
  | exports _ _ ls _ h ht hl =>
    obtain ⟨e1, e2⟩ := linksSay_rd hl
    have hw := hr.words e2
    have ht' : ¬ (a.type ≠ .echomail ∧ a.type ≠ .default) := by rintro ⟨x, y⟩; rcases ht with ht | ht <;> contradiction
    exact ⟨_, h, by decide, fin _ (fun _ => rfl) (by simp only [rdAreaCmd, hw, e1, if_neg ht', bind, Except.bind]; rfl)⟩
  | imports _ xs _ h ht hx =>
    have hw := hr.words (n := 100) (by intro w hw; obtain ⟨x, hx1, rfl⟩ := List.mem_map.1 hw; exact (hx x hx1).2)
    have hm := map_ok rdNode xs (fun x h => addrSays_rd (hx x h).1)
    have ht' : ¬ (a.type ≠ .netmail) := by rw [ht]; simp
    exact ⟨_, h, by decide, fin _ (fun _ => rfl) (by simp only [rdAreaCmd, hw, hm, if_neg ht', bind, Except.bind]; rfl)⟩
  | banned _ xs _ h hx =>
    have hw := hr.words (n := 100) (by intro w hw; obtain ⟨x, hx1, rfl⟩ := List.mem_map.1 hw; exact (hx x hx1).2.1)
    have hm := banned_rd xs hx
    exact ⟨_, h, by decide, fin _ (fun _ => rfl) (by simp only [rdAreaCmd, hw, hm, bind, Except.bind]; rfl)⟩
  | description _ d _ h hl =>
    obtain ⟨r, e1, _⟩ := hr.arg hl
    exact ⟨_, h, by decide, fin _ (fun _ => rfl) (by simp only [rdAreaCmd, e1, bind, Except.bind]; rfl)⟩
  | group _ g c _ h hg =>
    obtain ⟨h1, h2, _⟩ := groupSays_rd hg
    obtain ⟨r, e1, _⟩ := hr.arg (n := 30) (by omega)
    exact ⟨_, h, by decide, fin _ (fun _ => rfl) (by simp only [rdAreaCmd, e1, h1, bind, Except.bind]; rfl)⟩
  | keepNum _ v _ h =>
    obtain ⟨r, e1, _⟩ := hr.arg (n := 30) (by have := dec_short (v := v.toNat) v.toNat_lt; omega)
    exact ⟨_, h, by decide, fin _ (fun _ => rfl) (by simp only [rdAreaCmd, e1, bind, Except.bind, dec32_back]; rfl)⟩
  | keepDays _ v _ h =>
    obtain ⟨r, e1, _⟩ := hr.arg (n := 30) (by have := dec_short (v := v.toNat) v.toNat_lt; omega)
    exact ⟨_, h, by decide, fin _ (fun _ => rfl) (by simp only [rdAreaCmd, e1, bind, Except.bind, dec32_back]; rfl)⟩

/-! ### Flavours and area lists -/

theorem flavourSays_rd {w : Str} {p : Pri} (h : FlavourSays w p) : flavourOf w = some p ∧ w.length < 30 := by
  cases h with
  | normal => rename_i h; exact ⟨by simp only [flavourOf, eqi_ci h]; rfl, by rw [ci_length h]; decide⟩
  | crash => rename_i h; exact ⟨by simp only [flavourOf, eqi_ci h]; rfl, by rw [ci_length h]; decide⟩
  | hold => rename_i h; exact ⟨by simp only [flavourOf, eqi_ci h]; rfl, by rw [ci_length h]; decide⟩
  | direct => rename_i h; exact ⟨by simp only [flavourOf, eqi_ci h]; rfl, by rw [ci_length h]; decide⟩

theorem ci_no {w kw : Str} (h : Ci w kw) {x : UInt8} (hx : lower x = x) (hk : x ∉ kw.map lower) : x ∉ w := by
  intro hw
  have : lower x ∈ w.map lower := List.mem_map.2 ⟨x, hw, rfl⟩
  rw [h, hx] at this
  exact hk this

theorem flavourSays_shape {w : Str} {p : Pri} (h : FlavourSays w p) : w ≠ [] ∧ 44 ∉ w ∧ 42 ∉ w := by
  have hne : ∀ {kw : Str}, Ci w kw → kw ≠ [] → w ≠ [] := fun {kw} h1 h2 h => by
    subst h
    have := ci_length h1
    cases kw with
    | nil => exact h2 rfl
    | cons => simp at this
  cases h with
  | normal => rename_i h; exact ⟨hne h (by decide), ci_no h (by decide) (by decide), ci_no h (by decide) (by decide)⟩
  | crash => rename_i h; exact ⟨hne h (by decide), ci_no h (by decide) (by decide), ci_no h (by decide) (by decide)⟩
  | hold => rename_i h; exact ⟨hne h (by decide), ci_no h (by decide) (by decide), ci_no h (by decide) (by decide)⟩
  | direct => rename_i h; exact ⟨hne h (by decide), ci_no h (by decide) (by decide), ci_no h (by decide) (by decide)⟩

theorem splitComma_one : ∀ (w cur : Str), 44 ∉ w → cur ++ w ≠ [] → splitComma cur w = [cur ++ w] := by
  intro w
  induction w with
  | nil => intro cur _ h; rw [List.append_nil] at h; simp [splitComma, h]
  | cons c w ih =>
    intro cur hw _
    simp only [List.mem_cons, not_or] at hw
    rw [splitComma, if_neg (fun h => hw.1 h.symm), ih _ hw.2 (by simp)]
    simp

theorem splitComma_more : ∀ (w cur r : Str), 44 ∉ w → splitComma cur (w ++ 44 :: r) = (cur ++ w) :: splitComma [] r := by
  intro w
  induction w with
  | nil => intro cur r _; simp [splitComma]
  | cons c w ih =>
    intro cur r hw
    simp only [List.mem_cons, not_or] at hw
    rw [List.cons_append, splitComma, if_neg (fun h => hw.1 h.symm), ih _ _ hw.2]
    simp

/-- A CHANGE line with these flavours more. -/
def addPri (c : Change) (p : Pri) : Change :=
  match p with
  | .normal => { c with normal := true }
  | .crash => { c with crash := true }
  | .hold => { c with hold := true }
  | .direct => { c with direct := true }
  | _ => c

theorem flavourSays_add {w : Str} {p : Pri} (h : FlavourSays w p) (c : Change) : rdFlavour c w = .ok (addPri c p) := by
  have h1 := (flavourSays_rd h).1
  cases h <;> (simp only [rdFlavour, h1]; rfl)

theorem flavoursSay_rd {w : Str} {ps : List Pri} (h : FlavoursSay w ps) :
    ∀ c : Change, (splitComma [] w).foldlM rdFlavour c = .ok (ps.foldl addPri c) := by
  induction h with
  | one w p h =>
    intro c
    rw [splitComma_one w [] (flavourSays_shape h).2.1 (by simpa using (flavourSays_shape h).1)]
    simp only [List.nil_append, List.foldlM_cons, List.foldlM_nil, flavourSays_add h]
    rfl
  | more w p r ps h _ ih =>
    intro c
    rw [splitComma_more w [] r (flavourSays_shape h).2.1]
    simp only [List.nil_append, List.foldlM_cons, flavourSays_add h]
    exact ih _

theorem addPri_fold : ∀ (ps : List Pri) (c : Change), let d := ps.foldl addPri c
    (d.normal = true ↔ c.normal = true ∨ .normal ∈ ps) ∧ (d.crash = true ↔ c.crash = true ∨ .crash ∈ ps) ∧
    (d.hold = true ↔ c.hold = true ∨ .hold ∈ ps) ∧ (d.direct = true ↔ c.direct = true ∨ .direct ∈ ps) := by
  intro ps
  induction ps with
  | nil => simp
  | cons p ps ih =>
    intro c
    have := ih (addPri c p)
    simp only [List.foldl_cons]
    simp only at this
    obtain ⟨h1, h2, h3, h4⟩ := this
    rw [h1, h2, h3, h4]
    cases p <;> simp [addPri]

theorem changedFrom_rd {w : Str} {c : Change} (h : ChangedFrom w c) :
    ∃ d, rdFlavours w = .ok d ∧ { d with pattern := c.pattern, destPri := c.destPri } = c := by
  obtain ⟨pat, n, cr, di, ho, dp⟩ := c
  rcases h with ⟨rfl, h1, h2, h3, h4⟩ | ⟨ps, hp, h1, h2, h3, h4⟩
  · simp only at h1 h2 h3 h4
    subst h1 h2 h3 h4
    exact ⟨_, rfl, rfl⟩
  · have hh : w.head? ≠ some 42 := by
      cases hp with
      | one _ p h => intro e; exact (flavourSays_shape h).2.2 (List.mem_of_head? e)
      | more v p r ps h _ =>
        intro e
        have := flavourSays_shape h
        cases v with
        | nil => exact this.1 rfl
        | cons c v => simp at e; subst e; exact this.2.2 (by simp)
    refine ⟨ps.foldl addPri ⟨⟨.pattern, [], [], [], []⟩, false, false, false, false, .normal⟩, ?_, ?_⟩
    · unfold rdFlavours
      rw [if_neg hh, flavoursSay_rd hp]
    · obtain ⟨e1, e2, e3, e4⟩ := addPri_fold ps ⟨⟨.pattern, [], [], [], []⟩, false, false, false, false, .normal⟩
      simp only at h1 h2 h3 h4
      simp only [Bool.false_eq_true, false_or] at e1 e2 e3 e4
      congr 1
      · exact Bool.eq_iff_iff.2 (e1.trans h1.symm)
      · exact Bool.eq_iff_iff.2 (e2.trans h2.symm)
      · exact Bool.eq_iff_iff.2 (e4.trans h4.symm)
      · exact Bool.eq_iff_iff.2 (e3.trans h3.symm)

theorem listSays_rd {ws : List Str} {f d : Bool} {g : Option UInt8} (h : ListSays ws f d g) :
    (∀ al : Arealist, rdArealistSw al ws = .ok { al with flags := al.flags ||| listFlags f d, group := g.getD al.group }) ∧ ∀ w ∈ ws, w.length < 200 := by
  induction h with
  | nil => exact ⟨fun al => by simp [rdArealistSw, listFlags], by simp⟩
  | forward w ws f d g h _ ih =>
    refine ⟨fun al => ?_, ?_⟩
    · rw [rdArealistSw.eq_def]
      simp only [eqi_ci h]
      rw [if_pos (by decide), ih.1]
      congr 2
      rw [UInt16.or_assoc]; congr 1; clear ih; cases f <;> cases d <;> decide
    · intro v hv
      rcases List.mem_cons.1 hv with rfl | hv
      · rw [ci_length h]; decide
      · exact ih.2 v hv
  | desc w ws f d g h _ ih =>
    refine ⟨fun al => ?_, ?_⟩
    · rw [rdArealistSw.eq_def]
      simp only [eqi_ci h]
      rw [if_neg (by decide), if_pos (by decide), ih.1]
      congr 2
      rw [UInt16.or_assoc]; congr 1; clear ih; cases f <;> cases d <;> decide
    · intro v hv
      rcases List.mem_cons.1 hv with rfl | hv
      · rw [ci_length h]; decide
      · exact ih.2 v hv
  | group w x ws f d g c h hg hx _ ih =>
    refine ⟨fun al => ?_, ?_⟩
    · rw [rdArealistSw.eq_def]
      simp only [eqi_ci h]
      rw [if_neg (by decide), if_neg (by decide), if_pos (by decide)]
      simp only [(groupSays_rd hg).1]
      rw [ih.1]
      cases g <;> rfl
    · intro v hv
      rcases List.mem_cons.1 hv with rfl | hv
      · rw [ci_length h]; decide
      · rcases List.mem_cons.1 hv with rfl | hv
        · exact hx
        · exact ih.2 v hv

/-! ### Areas -/

theorem kindSays_rd {k tag : Str} {ty : AreaType} (h : KindSays k tag ty) :
    k.length < 30 ∧ isAreaWord k = true ∧ ∀ (p : Str) (b : Option Nat), (ty = .netmail ∨ ty = .local → b.isNone = false) → (ty = .bad → p ≠ []) →
      rdAreaType k tag p b = .ok ty := by
  cases h with
  | netmail =>
    rename_i h
    refine ⟨by rw [ci_length h]; decide, by simp only [isAreaWord, eqi_ci h]; decide, fun p b h1 h2 => ?_⟩
    simp only [rdAreaType, eqi_ci h]
    rw [if_pos (by decide), h1 (.inl rfl)]; rfl
  | «local» =>
    rename_i h
    refine ⟨by rw [ci_length h]; decide, by simp only [isAreaWord, eqi_ci h]; decide, fun p b h1 h2 => ?_⟩
    simp only [rdAreaType, eqi_ci h]
    rw [if_neg (by decide), if_pos (by decide), h1 (.inr rfl)]; rfl
  | bad =>
    rename_i h ht
    refine ⟨by rw [ci_length h]; decide, by simp only [isAreaWord, eqi_ci h]; decide, fun p b h1 h2 => ?_⟩
    simp only [rdAreaType, eqi_ci h, eqi_ci ht]
    rw [if_neg (by decide), if_neg (by decide), if_pos (by decide), if_neg (h2 rfl)]
  | default =>
    rename_i h ht
    refine ⟨by rw [ci_length h]; decide, by simp only [isAreaWord, eqi_ci h]; decide, fun p b h1 h2 => ?_⟩
    simp only [rdAreaType, eqi_ci h, eqi_ci ht]
    rw [if_neg (by decide), if_neg (by decide), if_neg (by decide), if_pos (by simp; left; decide)]
  | defaultGroup q g =>
    rename_i h ht
    refine ⟨by rw [ci_length h]; decide, by simp only [isAreaWord, eqi_ci h]; decide, fun p b h1 h2 => ?_⟩
    have hl : q.length = 8 := ci_length ht
    have e1 : eqin (q ++ g) b!"DEFAULT_" 8 = true := by
      unfold eqin
      rw [List.take_append_of_le_length (by omega), List.take_of_length_le (by omega)]
      simp only [beq_iff_eq]
      exact ht
    have e2 : eqi (q ++ g) b!"BAD" = false := by
      cases he : eqi (q ++ g) b!"BAD" with
      | false => rfl
      | true =>
        have := ci_length (k := q ++ g) (kw := b!"BAD") (by simpa only [eqi, Ci, beq_iff_eq] using he)
        simp at this
        omega
    simp only [rdAreaType, eqi_ci h, e1, e2]
    rw [if_neg (by decide), if_neg (by decide), if_neg (by decide), if_pos (by simp)]
  | echomail =>
    rename_i h t1 t2 t3
    refine ⟨by rw [ci_length h]; decide, by simp only [isAreaWord, eqi_ci h]; decide, fun p b h1 h2 => ?_⟩
    have e1 : ¬ eqi tag b!"BAD" = true := fun h => t1 (by simpa [eqi, Ci] using h)
    have e2 : ¬ eqi tag b!"DEFAULT" = true := fun h => t2 (by simpa [eqi, Ci] using h)
    have e3 : ¬ eqin tag b!"DEFAULT_" 8 = true := fun h => t3 ⟨tag.take 8, tag.drop 8, by simp, by
      simp only [eqin, beq_iff_eq] at h
      exact h⟩
    simp only [rdAreaType, eqi_ci h]
    rw [if_neg (by decide), if_neg (by decide), if_neg e1, if_neg (by simp [e2, e3])]

theorem baseSays_rd {w : Str} {j : Nat} (h : BaseSays w j) : baseOf w = some j ∧ w.length < 30 := by
  cases h with
  | msg => rename_i h; exact ⟨by simp only [baseOf, eqi_ci h]; rfl, by rw [ci_length h]; decide⟩
  | jam => rename_i h; exact ⟨by simp only [baseOf, eqi_ci h]; rfl, by rw [ci_length h]; decide⟩

/-! ### Lines -/

theorem Rest.noWords {x : Str} (h : Rest [] x) : ∃ e, jbstrcpy 200 x = ([], e, false) := by
  obtain ⟨e, h, _⟩ := h.none 200
  exact ⟨e, h⟩

theorem nameSays_rd {kw : Str} {n : Nat} {f : RdSt → Str → RdSt} (h : NameSays kw n f) {x : Str} (hx : x.length ≤ n) {ws : List Str} {rest : Str}
    (hr : Rest (x :: ws) rest) (s : RdSt) : kw.length < 30 ∧ rdKw s kw rest = .ok (f s x) := by
  obtain ⟨r, h1, _⟩ := hr.arg (n := n + 1) (by omega)
  have fin : rdKw s kw rest = (do let t ← rdArg (n + 1) rest; return f s t.1) → rdKw s kw rest = .ok (f s x) := fun e => by
    rw [e]; simp only [h1, bind, Except.bind]; rfl
  cases h <;> exact ⟨by decide, fin rfl⟩

theorem switchSays_rd {kw : Str} {v : UInt32} (h : SwitchSays kw v) (s : RdSt) (rest : Str) :
    kw.length < 30 ∧ rdKw s kw rest = .ok { s with cfg := { s.cfg with flags := s.cfg.flags ||| v } } := by
  cases h <;> exact ⟨by decide, rfl⟩

theorem baseSwitch_rd {kw : Str} {f : Settings → Settings} (h : BaseSwitch kw f) (s : RdSt) (rest : Str) :
    kw.length < 30 ∧ rdKw s kw rest = .ok { s with set := f s.set } := by
  cases h <;> exact ⟨by decide, rfl⟩

theorem isAreaWord_rd {k : Str} (h : isAreaWord k = true) (s : RdSt) (rest : Str) :
    rdKw s k rest = (do let a ← rdArea s.cfg.akas k rest; return { s with cfg := { s.cfg with areas := s.cfg.areas ++ [a] } }) := by
  simp only [rdKw, h, if_true]

/-- A line with words is read as it says. -/
theorem says_rd {s t : RdSt} {k : Str} {ws : List Str} (h : Says s (k :: ws) t) {rest : Str} (hr : Rest ws rest) :
    k.length < 30 ∧ rdKw s k rest = .ok t := by
  have go : ∀ {kw : Str}, Ci k kw → kw.length < 30 → rdKw s kw rest = .ok t → k.length < 30 ∧ rdKw s k rest = .ok t := fun h1 h2 h3 =>
    ⟨by rw [ci_length h1]; exact h2, by rw [rdKw_ci h1]; exact h3⟩
  cases h with
  | name _ kw x n f h hn hx =>
    obtain ⟨h1, h2⟩ := nameSays_rd hn hx hr s
    exact go h h1 h2
  | switch _ kw v h hs =>
    obtain ⟨h1, h2⟩ := switchSays_rd hs s rest
    exact go h h1 h2
  | base _ kw f h hs =>
    obtain ⟨h1, h2⟩ := baseSwitch_rd hs s rest
    exact go h h1 h2
  | loglevel _ v h h1 h2 =>
    obtain ⟨r, e1, _⟩ := hr.arg (n := 100) (by have := dec_short (v := v) (by omega); omega)
    have e2 := dec_atoiC (v := v) (by omega)
    have e3 : ¬ ((v : Int) < 1 ∨ 6 < (v : Int)) := by omega
    refine go h (by decide) ?_
    show (do let t ← rdArg 100 rest
             let v := atoiC t.1
             if v < 1 ∨ 6 < v then .error .invalid else return { s with set := { s.set with logLevel := UInt32.ofInt v } } : Except RdErr RdSt) = _
    simp only [e1, bind, Except.bind, e2, if_neg e3, ofInt_nat (v := v) (by omega)]
    rfl
  | dupefile _ x v h h1 h2 =>
    obtain ⟨r, e1, y1⟩ := hr.arg h1
    obtain ⟨r2, e2, _⟩ := y1.arg (n := 200) (by have := dec_short (v := v) (by omega); omega)
    have e3 := dec_atoiC (v := v) (by omega)
    have e4 : (UInt32.ofNat v).toNat = v := by simp; omega
    refine go h (by decide) ?_
    show (do
      let t ← rdArg 100 rest
      let k ← rdArg 200 t.2
      return { s with
        cfg := { s.cfg with dupeSize := (UInt32.ofInt (atoiC k.1)).toNat }
        set := { s.set with dupeFile := t.1 } } : Except RdErr RdSt) = _
    simp only [e1, e2, bind, Except.bind, e3, ofInt_nat (v := v) (by omega), e4]
    rfl
  | dupemode _ m v h hm =>
    obtain ⟨r, e1, _⟩ := hr.arg (n := 200) (by
      rcases hm with ⟨h, _⟩ | ⟨h, _⟩ | ⟨h, _⟩ <;> (rw [ci_length h]; decide))
    refine go h (by decide) ?_
    show (do
      let t ← rdArg 200 rest
      if eqi t.1 b!"IGNORE" then return { s with cfg := { s.cfg with dupeMode := 0 } }
      else if eqi t.1 b!"KILL" then return { s with cfg := { s.cfg with dupeMode := 2 } }
      else if eqi t.1 b!"BAD" then return { s with cfg := { s.cfg with dupeMode := 1 } }
      else .error .invalid : Except RdErr RdSt) = _
    rcases hm with ⟨h, rfl⟩ | ⟨h, rfl⟩ | ⟨h, rfl⟩ <;> (simp only [e1, bind, Except.bind, eqi_ci h]; rfl)
  | loopmode _ m v h hm =>
    obtain ⟨r, e1, _⟩ := hr.arg (n := 200) (by
      rcases hm with ⟨h, _⟩ | ⟨h, _⟩ | ⟨h, _⟩ <;> (rw [ci_length h]; decide))
    refine go h (by decide) ?_
    show (do
      let t ← rdArg 200 rest
      if eqi t.1 b!"IGNORE" then return { s with cfg := { s.cfg with loopMode := 0 } }
      else if eqi t.1 b!"LOG" then return { s with cfg := { s.cfg with loopMode := 1 } }
      else if eqi t.1 b!"LOG+BAD" then return { s with cfg := { s.cfg with loopMode := 2 } }
      else .error .invalid : Except RdErr RdSt) = _
    rcases hm with ⟨h, rfl⟩ | ⟨h, rfl⟩ | ⟨h, rfl⟩ <;> (simp only [e1, bind, Except.bind, eqi_ci h]; rfl)
  | maxpkt _ v h hv =>
    refine go h (by decide) ?_
    show (do let v ← rdSize rest
             return { s with set := { s.set with maxPktSize := v } } : Except RdErr RdSt) = _
    simp only [hr.size hv, bind, Except.bind]; rfl
  | maxbundle _ v h hv =>
    refine go h (by decide) ?_
    show (do let v ← rdSize rest
             return { s with set := { s.set with maxBundleSize := v } } : Except RdErr RdSt) = _
    simp only [hr.size hv, bind, Except.bind]; rfl
  | defaultzone _ v h hv =>
    refine go h (by decide) ?_
    show (do let v ← rdNum rest
             return { s with set := { s.set with defaultZone := v } } : Except RdErr RdSt) = _
    simp only [hr.num hv, bind, Except.bind]; rfl
  | maxlines _ v h hv =>
    refine go h (by decide) ?_
    show (do let v ← rdNum rest
             return { s with cfg := { s.cfg with areafixMaxLines := v } } : Except RdErr RdSt) = _
    simp only [hr.num hv, bind, Except.bind]; rfl
  | maxopen _ v h hv =>
    refine go h (by decide) ?_
    show (do let v ← rdNum rest
             return { s with set := { s.set with jamMaxOpen := v } } : Except RdErr RdSt) = _
    simp only [hr.num hv, bind, Except.bind]; rfl
  | nodelist _ p ty i h hp ht =>
    obtain ⟨r, e1, y1⟩ := hr.arg hp
    obtain ⟨r2, e2, _⟩ := y1.arg (n := 40) (by
      rcases ht with ⟨h, _⟩ | ⟨h, _⟩ <;> (rw [ci_length h]; decide))
    have e3 : nodelistOf ty = some i := by
      rcases ht with ⟨h, rfl⟩ | ⟨h, rfl⟩ <;> (simp only [nodelistOf, eqi_ci h]; rfl)
    refine go h (by decide) ?_
    show (do
      let t ← rdArg 100 rest
      let k ← rdArg 40 t.2
      match nodelistOf k.1 with
      | none => .error .invalid
      | some i => return { s with
        cfg := { s.cfg with nlConfigured := true }
        set := { s.set with nodelist := t.1, nodelistType := some i } } : Except RdErr RdSt) = _
    simp only [e1, e2, e3, bind, Except.bind]; rfl
  | groupname _ g d c h hg hd =>
    obtain ⟨g1, g2, g3⟩ := groupSays_rd hg
    obtain ⟨r, e1, y1⟩ := hr.arg (n := 2) (by omega)
    obtain ⟨r2, e2, _⟩ := y1.arg hd
    have e : rdGroupName rest = .ok (c.toNat - 65, d) := by
      simp only [rdGroupName, e1, e2, g1, if_neg g3, bind, Except.bind]; rfl
    refine go h (by decide) ?_
    show (do
      let g ← rdGroupName rest
      return { s with cfg := { s.cfg with groupNames := fun i => if i = g.1 then g.2 else s.cfg.groupNames i } } : Except RdErr RdSt) = _
    simp only [e, bind, Except.bind]; rfl
  | bounce _ xs h hx =>
    have hw := hr.words (n := 100) (by intro w hw; obtain ⟨x, hx1, rfl⟩ := List.mem_map.1 hw; exact (hx x hx1).2)
    have hm := map_ok (fun w => rdPat (parse4DPat w)) xs (fun x h => patSays_rd (hx x h).1)
    refine go h (by decide) ?_
    show (do
      let t ← (rdWords 100 rest).mapM fun w => rdPat (parse4DPat w)
      return { s with cfg := { s.cfg with bounceList := s.cfg.bounceList ++ t } } : Except RdErr RdSt) = _
    simp only [hw, hm, bind, Except.bind]; rfl
  | fileattach _ xs h hx =>
    have hw := hr.words (n := 100) (by intro w hw; obtain ⟨x, hx1, rfl⟩ := List.mem_map.1 hw; exact (hx x hx1).2)
    have hm := map_ok (fun w => rdPat (parse4DPat w)) xs (fun x h => patSays_rd (hx x h).1)
    refine go h (by decide) ?_
    show (do
      let t ← (rdWords 100 rest).mapM fun w => rdPat (parse4DPat w)
      return { s with cfg := { s.cfg with fileAttachList := s.cfg.fileAttachList ++ t } } : Except RdErr RdSt) = _
    simp only [hw, hm, bind, Except.bind]; rfl
  | change _ w p f c h hw hc hp hpat hf =>
    obtain ⟨r, e1, y1⟩ := hr.arg hw
    obtain ⟨r2, e2, y2⟩ := y1.arg hp
    obtain ⟨f1, f2⟩ := flavourSays_rd hf
    obtain ⟨r3, e3, _⟩ := y2.arg (n := 200) (by omega)
    obtain ⟨d, d1, d2⟩ := changedFrom_rd hc
    have e : rdChange rest = .ok c := by
      simp only [rdChange, e1, e2, e3, d1, patSays_rd hpat, f1, bind, Except.bind]
      exact congrArg Except.ok d2
    refine go h (by decide) ?_
    show (do
      let c ← rdChange rest
      return { s with cfg := { s.cfg with changes := s.cfg.changes ++ [c] } } : Except RdErr RdSt) = _
    simp only [e, bind, Except.bind]; rfl
  | packer _ n p u q h h1 h2 h3 h4 =>
    obtain ⟨r1, e1, y1⟩ := hr.arg h1
    obtain ⟨r2, e2, y2⟩ := y1.arg h2
    obtain ⟨r3, e3, y3⟩ := y2.arg h3
    obtain ⟨r4, e4, _⟩ := y3.arg h4
    refine go h (by decide) ?_
    show (do
      let p ← rdPackerLine rest
      return { s with cfg := { s.cfg with packers := s.cfg.packers ++ [p] } } : Except RdErr RdSt) = _
    simp only [rdPackerLine, e1, e2, e3, e4, bind, Except.bind]; rfl
  | aka _ w n h hn hw =>
    obtain ⟨r1, e1, _⟩ := hr.arg hw
    refine go h (by decide) ?_
    show (do
      let k ← rdAka rest
      return { s with cfg := { s.cfg with akas := s.cfg.akas ++ [k] } } : Except RdErr RdSt) = _
    simp only [rdAka, e1, addrSays_rd hn, bind, Except.bind]; rfl
  | ofAka _ l a b hs ha =>
    obtain ⟨kw, h1, h2, h3⟩ := akaSays_rd ha hr
    exact go h1 h2 (h3 s l hs)
  | areafixname _ x h hx =>
    obtain ⟨r1, e1, _⟩ := hr.arg hx
    refine go h (by decide) ?_
    show (do
      let t ← rdArg 36 rest
      return { s with cfg := { s.cfg with areafixNames := s.cfg.areafixNames ++ [t.1] } } : Except RdErr RdSt) = _
    simp only [e1, bind, Except.bind]; rfl
  | arealist _ w x ws n i f d g h hn hw hi hx hl =>
    obtain ⟨r1, e1, y1⟩ := hr.arg hw
    obtain ⟨r2, e2, y2⟩ := y1.arg hx
    obtain ⟨l1, l2⟩ := listSays_rd hl
    have e3 := y2.words l2
    have e : rdArealist s.cfg.nodes rest = .ok ⟨i, x, listFlags f d, g.getD 0⟩ := by
      simp only [rdArealist, e1, e2, e3, addrSays_rd hn, rdKnown, hi, bind, Except.bind, l1]
      simp
    refine go h (by decide) ?_
    show (do
      let a ← rdArealist s.cfg.nodes rest
      return { s with cfg := { s.cfg with arealists := s.cfg.arealists ++ [a] } } : Except RdErr RdSt) = _
    simp only [e, bind, Except.bind]; rfl
  | route _ p d w pat dest n a h hp hpat hd hdest hw hn ha =>
    obtain ⟨r1, e1, y1⟩ := hr.arg hp
    obtain ⟨r2, e2, y2⟩ := y1.arg hd
    obtain ⟨r3, e3, _⟩ := y2.arg hw
    refine go h (by decide) ?_
    show (do
      let r ← rdRoute s.cfg.akas rest
      return { s with cfg := { s.cfg with routes := s.cfg.routes ++ [r] } } : Except RdErr RdSt) = _
    simp only [rdRoute, e1, e2, e3, patSays_rd hpat, destSays_rd hdest, addrSays_rd hn, ha, bind, Except.bind]; rfl
  | command _ l f c hs hc =>
    obtain ⟨kw, h1, h2, h3⟩ := commandSays_rd hc hr
    exact go h1 h2 (h3 s l f hs)
  | node _ w pk pw ws n p m h hn hw hpk hpw hp hs =>
    obtain ⟨r1, e1, y1⟩ := hr.arg hw
    obtain ⟨r2, e2, y2⟩ := y1.arg hpk
    obtain ⟨r3, e3, y3⟩ := y2.arg hpw
    obtain ⟨s1, s2⟩ := switchesSay_rd hs
    have e4 := y3.words s2
    have e5 : rdPacker s.cfg.packers pk = .ok p := by
      rcases hp with ⟨rfl, rfl⟩ | ⟨h1, i, h2, rfl⟩
      · rfl
      · simp only [rdPacker, if_neg h1, h2]
    refine go h (by decide) ?_
    show (do
      let n ← rdNodeLine s.cfg.packers rest
      return { s with cfg := { s.cfg with nodes := s.cfg.nodes ++ [n] } } : Except RdErr RdSt) = _
    simp only [rdNodeLine, e1, e2, e3, e4, e5, addrSays_rd hn, bind, Except.bind, s1]; rfl
  | ofNode _ l a b hs ha =>
    obtain ⟨kw, h1, h2, h3⟩ := nodeSays_rd ha hr
    exact go h1 h2 (h3 s l hs)
  | passthru _ tag w n i ty hk ht htag hn hw hi =>
    obtain ⟨k1, k2, k3⟩ := kindSays_rd hk
    obtain ⟨r1, e1, y1⟩ := hr.arg htag
    obtain ⟨r2, e2, y2⟩ := y1.arg hw
    obtain ⟨x, e3⟩ := y2.noWords
    have e4 := k3 [] none (by rintro (h | h) <;> rcases ht with ht | ht <;> rw [ht] at h <;> cases h) (by
      intro h; rcases ht with ht | ht <;> rw [ht] at h <;> cases h)
    have e5 : rdBase r2 = .ok (none, []) := by simp only [rdBase, e3]; rfl
    refine ⟨k1, ?_⟩
    rw [isAreaWord_rd k2]
    simp only [rdArea, e1, e2, addrSays_rd hn, hi, e5, e4, bind, Except.bind]; rfl
  | area _ tag w bs p n i j ty hk htag hn hw hi hb hp ht =>
    obtain ⟨k1, k2, k3⟩ := kindSays_rd hk
    obtain ⟨b1, b2⟩ := baseSays_rd hb
    obtain ⟨r1, e1, y1⟩ := hr.arg htag
    obtain ⟨r2, e2, y2⟩ := y1.arg hw
    obtain ⟨r3, e3, y3⟩ := y2.word (n := 200) (by omega)
    obtain ⟨r4, e4, _⟩ := y3.arg hp
    have e5 : rdBase r2 = .ok (some j, p) := by simp only [rdBase, e3, if_true, b1, e4, bind, Except.bind]; rfl
    have e6 := k3 p (some j) (by simp) ht
    refine ⟨k1, ?_⟩
    rw [isAreaWord_rd k2]
    simp only [rdArea, e1, e2, addrSays_rd hn, hi, e5, e6, bind, Except.bind]; rfl
  | ofArea _ l a b hs ha =>
    obtain ⟨kw, h1, h2, h3⟩ := areaSays_rd ha hr
    exact go h1 h2 (h3 s l hs rfl)

theorem rdKw_nothing (s : RdSt) (rest : Str) : rdKw s [] rest = .ok s := rfl

theorem rdKw_comment (s : RdSt) (x rest : Str) : rdKw s (59 :: x) rest = .ok s := by
  have e : ∀ (c : UInt8) (d : Str), lower c ≠ 59 → eqi (59 :: x) (c :: d) = false := by
    intro c d h
    have : ¬ lower 59 = lower c := by
      rw [show lower 59 = 59 from rfl]; exact fun e => h e.symm
    simp [eqi, this]
  have f : ∀ l : List Str, (∀ w ∈ l, w.head?.any (fun c => lower c != 59) = true) → ∀ w ∈ l, eqi (59 :: x) w = false := by
    intro l h w hw
    have := h w hw
    cases w with
    | nil => simp at this
    | cons c d => exact e c d (by simpa using this)
  have g : ∀ l : List (Str × UInt32), (∀ p ∈ l, p.1.head?.any (fun c => lower c != 59) = true) → switchOf l (59 :: x) = none := by
    intro l h
    unfold switchOf
    rw [List.find?_eq_none.2]
    · rfl
    · intro p hp
      have := f (l.map (·.1)) (by intro w hw; obtain ⟨p, hp, rfl⟩ := List.mem_map.1 hw; exact h p hp) p.1 (List.mem_map.2 ⟨p, hp, rfl⟩)
      simp [this]
  have a : ∀ l : List Str, (∀ w ∈ l, w.head?.any (fun c => lower c != 59) = true) → l.any (eqi (59 :: x)) = false := by
    intro l h
    rw [List.any_eq_false]
    intro w hw
    simp [f l h w hw]
  have h1 : isAreaWord (59 :: x) = false := by
    simp only [isAreaWord]
    rw [e _ _ (by decide), e _ _ (by decide), e _ _ (by decide)]; rfl
  have p1 : pathSettings.find? (fun p => eqi (59 :: x) p.1) = none := by
    rw [List.find?_eq_none]
    intro p hp
    have := f (pathSettings.map (·.1)) (by decide) p.1 (List.mem_map.2 ⟨p, hp, rfl⟩)
    simp [this]
  have o1 : rdOther s (59 :: x) rest = none := by
    unfold rdOther
    iterate 19 rw [e _ _ (by decide)]
    simp
  unfold rdKw rdRest
  rw [h1, a areaCmdWords (by decide), a nodeCmdWords (by decide), a akaCmdWords (by decide), a filterCmdWords (by decide),
    g cfgSwitches (by decide), g msgSwitches (by decide), g jamSwitches (by decide), p1, o1, e _ _ (by decide), e _ _ (by decide)]
  simp

theorem says_line {s t : RdSt} {ws : List Str} {l e : Str} (h : Says s ws t) (hl : WrittenLine ws l) (he : EolEnd e) : rdLine s (l ++ e) = .ok t := by
  rw [rdLine_kw]
  cases ws with
  | nil =>
    have ht : t = s := by
      cases h with
      | empty => rfl
      | ofAka _ _ _ _ _ h => cases h
      | command _ _ _ _ _ h => cases h
      | ofNode _ _ _ _ _ h => cases h
      | ofArea _ _ _ _ _ h => cases h
    rw [jbstrcpy_nothing hl he, ht]
    rfl
  | cons k ws =>
    have hk : ∀ r, Rest ws r → k.length < 30 := fun r hr => (says_rd h hr).1
    have hlen : k.length < 30 := by
      cases hl with
      | last b _ t _ _ => exact hk [] ⟨[], [], rfl, .inl rfl, .nil [] (by simp [BlankStr])⟩
      | cons b _ t c _ r _ _ _ hr => exact hk r ⟨r, [], by simp, .inl rfl, hr⟩
    obtain ⟨r, h1, h2⟩ := Rest.word ⟨l, e, rfl, he, hl⟩ hlen
    rw [h1]
    exact (says_rd h h2).2

theorem lineSays_rd {s t : RdSt} {l e : Str} (h : LineSays s l t) (he : EolEnd e) : rdLine s (l ++ e) = .ok t := by
  cases h with
  | words ws _ _ hl h => exact says_line h hl he
  | filter b k c x hb hk hc hc0 hx hx1 hx2 hx3 hx4 =>
    have hkw : ∀ y ∈ k, y ≠ 32 ∧ y ≠ 9 ∧ y ≠ 10 ∧ y ≠ 92 := by
      intro y hy
      refine ⟨?_, ?_, ?_, ?_⟩ <;> rintro rfl
      · exact ci_no hk (x := 32) (by decide) (by decide) hy
      · exact ci_no hk (x := 9) (by decide) (by decide) hy
      · exact ci_no hk (x := 10) (by decide) (by decide) hy
      · exact ci_no hk (x := 92) (by decide) (by decide) hy
    have hlen : k.length = 6 := ci_length hk
    have hne : k ≠ [] := by intro h; rw [h] at hlen; simp at hlen
    have hq : k.head? ≠ some 34 := fun h => ci_no hk (x := 34) (by decide) (by decide) (List.mem_of_head? h)
    obtain ⟨c0, cs, rfl⟩ : ∃ c0 cs, c = c0 :: cs := by
      cases c with
      | nil => exact absurd rfl hc0
      | cons c0 cs => exact ⟨c0, cs, rfl⟩
    have h0 : c0 = 32 ∨ c0 = 9 := hc c0 (by simp)
    have e1 : jbstrcpy 30 (k ++ c0 :: (cs ++ x ++ e)) = (k, cs ++ x ++ e, true) := by
      rw [jbstrcpy_plain 30 k c0 (cs ++ x ++ e) ⟨hne, hq, hkw⟩ (by omega) (by rcases h0 with rfl | rfl <;> decide)]
      have : skipSep (c0 :: (cs ++ x ++ e)) = cs ++ x ++ e := by rcases h0 with rfl | rfl <;> simp [skipSep]
      rw [this]
    have e2 : rdFilter (cs ++ x ++ e) = .ok ⟨x, []⟩ := by
      have := jbstrcpyrest_spec 400 cs x e (fun y hy => hc y (by simp [hy])) (fun y hy h => hx3 (h ▸ hy)) (by
        intro y hy
        exact ⟨fun h => hx1 (h ▸ hy), fun h => hx2 (h ▸ hy)⟩) (by rcases he with rfl | rfl <;> simp) hx4
      unfold rdFilter
      simp only [this]
      simp [hx]
    rw [rdLine_kw]
    have : b ++ k ++ (c0 :: cs) ++ x ++ e = b ++ (k ++ c0 :: (cs ++ x ++ e)) := by simp
    rw [this, jbstrcpy_blankStr hb, e1, rdKw_ci hk]
    show (do
      let f ← rdFilter (cs ++ x ++ e)
      return { s with cfg := { s.cfg with filters := s.cfg.filters ++ [f] } } : Except RdErr RdSt) = _
    simp only [e2, bind, Except.bind]; rfl
  | comment b r hb hr =>
    rw [rdLine_kw, List.append_assoc, jbstrcpy_blankStr hb]
    have : ∃ x y z, jbstrcpy 30 (59 :: r ++ e) = (59 :: x, y, z) := by
      refine ⟨(tokLoop false 30 1 (r ++ e)).1, skipSep (tokLoop false 30 1 (r ++ e)).2, true, ?_⟩
      simp only [jbstrcpy, List.cons_append]
      rw [show (59 :: (r ++ e)).dropWhile isBlank = 59 :: (r ++ e) from rfl]
      simp only [List.head?_cons, show ((some 59 : Option UInt8) == some 34) = false from rfl, Bool.false_eq_true, if_false]
      rw [tokLoop.eq_def]
      simp [tokStop]
    obtain ⟨x, y, z, h⟩ := this
    rw [h]
    exact rdKw_comment s x y

theorem noNul_append_iff {a b : Str} : NoNul (a ++ b) ↔ NoNul a ∧ NoNul b := by simp [NoNul]

theorem fileSays_rd {s t : RdSt} {f : Str} (h : FileSays s f t) : ConfigText f ∧ rdLines s ((linesOf f).map copied) = .ok t := by
  induction h with
  | nil s => exact ⟨⟨by simp [NoNul], by simp [linesOf]⟩, rfl⟩
  | last s u t h hn h10 hne hl =>
    have e1 : ∀ t : Str, 10 ∉ t → t ≠ [] → linesOf t = [t] := by
      intro t
      induction t with
      | nil => intro _ h; exact absurd rfl h
      | cons c t ih =>
        intro h _
        simp only [List.mem_cons, not_or] at h
        rw [linesOf.eq_def]
        dsimp only
        rw [if_neg (fun e => h.1 e.symm)]
        cases t with
        | nil => rfl
        | cons d t => rw [ih h.2 (by simp)]
    rw [e1 t h10 hne]
    have e2 : copied t = t := by
      unfold copied fixCrLf
      rw [if_neg]
      rintro ⟨_, h, _⟩
      exact h10 (List.mem_of_getLast? h)
    refine ⟨⟨hn, by rw [e1 t h10 hne]; simpa using hl⟩, ?_⟩
    have := lineSays_rd h (e := []) (.inl rfl)
    rw [List.append_nil] at this
    simp only [List.map_cons, List.map_nil, e2, rdLines, List.foldlM_cons, List.foldlM_nil, this]
    rfl
  | line s u v t e r h hn h10 h13 hl he _ ih =>
    obtain ⟨x, rfl, hx10, hxn, hcop, hxl⟩ : ∃ x, e = x ++ [10] ∧ 10 ∉ t ++ x ∧ NoNul (x ++ [10]) ∧ copied (t ++ x ++ [10]) = t ++ [10] ∧ (t ++ x).length < 3999 := by
      rcases he with rfl | rfl
      · refine ⟨[], rfl, by simpa using h10, by decide, ?_, by simp; omega⟩
        rw [List.append_nil]
        unfold copied
        rw [fixCrLf_lf, if_neg h13]
      · refine ⟨[13], rfl, by simpa using h10, by decide, ?_, by simp; omega⟩
        unfold copied
        rw [fixCrLf_lf, if_pos (by simp)]
        simp
    have e1 : t ++ (x ++ [10]) ++ r = (t ++ x) ++ 10 :: r := by simp
    have e2 : linesOf (t ++ (x ++ [10]) ++ r) = (t ++ x ++ [10]) :: linesOf r := by rw [e1, linesOf_snoc _ _ hx10]
    refine ⟨⟨by rw [noNul_append_iff, noNul_append_iff]; exact ⟨⟨hn, hxn⟩, ih.1.1⟩, ?_⟩, ?_⟩
    · rw [e2]
      intro l hl'
      rcases List.mem_cons.1 hl' with rfl | hl'
      · rw [List.length_append]; simp only [List.length_singleton]; omega
      · exact ih.1.2 l hl'
    · rw [e2, List.map_cons, hcop]
      unfold rdLines
      rw [List.foldlM_cons, lineSays_rd h (.inr rfl)]
      exact ih.2

end CM
