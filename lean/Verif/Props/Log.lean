import Verif.Spec.Log
import Verif.Model.LogWrite
import Verif.Lemmas.CrashStats

/-! # The log (C114) -/

set_option linter.unusedSimpArgs false

namespace CM

/-- The format and the arguments a record is made with. -/
def Piece.fmt : Piece → Str
  | .lit s => s
  | .str _ => b!"%s"
  | .num _ => b!"%u"

def Piece.args : Piece → List LogArg
  | .lit _ => []
  | .str s => [.str s]
  | .num n => [.uint n]

def Piece.Ok : Piece → Prop
  | .lit s => 37 ∉ s
  | _ => True

def piecesFmt (ps : List Piece) : Str := ps.flatMap Piece.fmt

def piecesArgs (ps : List Piece) : List LogArg := ps.flatMap Piece.args

/-- A call of the program that makes this record. -/
def LogRecord.call (r : LogRecord) : Nat × Tm × LogCall := (r.nest, r.time, ⟨r.level, r.kind.number, piecesFmt r.pieces, piecesArgs r.pieces⟩)

theorem format_lit (s r : Str) (as : List LogArg) (h : 37 ∉ s) : formatGo none (s ++ r) as = (formatGo none r as).map (s ++ ·) := by
  induction s with
  | nil =>
    rw [List.nil_append]
    cases formatGo none r as <;> rfl
  | cons c s ih =>
    have hc : c ≠ 37 := fun e => h (by simp [e])
    rw [List.cons_append, formatGo, if_neg hc, ih (fun e => h (List.mem_cons_of_mem _ e))]
    cases formatGo none r as <;> rfl

theorem pad_none (s : Str) : FmtDir.pad {} s = s := by
  unfold FmtDir.pad
  have : (0 : Nat) - s.length = 0 := by omega
  show List.replicate (0 - s.length) _ ++ s = s
  rw [this]
  rfl

theorem format_pieces (ps : List Piece) (h : ∀ p ∈ ps, p.Ok) : format (piecesFmt ps) (piecesArgs ps) = .ok (piecesText ps) := by
  unfold format
  induction ps with
  | nil => rfl
  | cons p ps ih =>
    have ih := ih (fun q hq => h q (by simp [hq]))
    have hp := h p (by simp)
    unfold piecesFmt piecesArgs piecesText at ih ⊢
    rw [List.flatMap_cons, List.flatMap_cons, List.flatMap_cons]
    cases p with
    | lit s =>
      show formatGo none (s ++ _) ([] ++ _) = _
      rw [format_lit s _ _ hp, List.nil_append, ih]
      rfl
    | str s =>
      show (do return FmtDir.pad {} s ++ (← formatGo none (ps.flatMap Piece.fmt) (ps.flatMap Piece.args)) : Except FmtErr Str) = _
      rw [ih, pad_none]
      rfl
    | num n =>
      show (do return FmtDir.pad {} (dec n.toNat) ++ (← formatGo none (ps.flatMap Piece.fmt) (ps.flatMap Piece.args)) : Except FmtErr Str) = _
      rw [ih, pad_none]
      rfl

theorem dec2_eq (n : Nat) (h : n < 100) : dec2 n = twoDigits n := by
  have : ∀ n, n < 100 → dec2 n = twoDigits n := by decide +kernel
  exact this n h

/-- A record as the program makes them: one of its levels, a text, fixed texts without percent signs, not too long to be indented. -/
structure LogRecord.Regular (r : LogRecord) : Prop where
  level : r.level ≠ 0
  some : piecesFmt r.pieces ≠ []
  pieces : ∀ p ∈ r.pieces, p.Ok
  room : r.nest ≤ 1 ∨ r.nest + (piecesFmt r.pieces).length < 499
  time : ClockTime r.time

theorem log_record (c : LogCfg) (hs : c.syslog = false) (r : LogRecord) (h : r.Regular) :
    logWrite c r.nest r.time r.level r.kind.number (piecesFmt r.pieces) (piecesArgs r.pieces) =
      if r.level ≤ c.level then .ok { console := List.replicate (r.nest - 1) 32 ++ piecesText r.pieces ++ [10], file := r.line ++ [10] } else .ok {} := by
  unfold logWrite
  by_cases hl : c.level < r.level
  · rw [if_pos hl, if_neg (fun h => absurd hl (UInt32.not_lt.2 h))]
  · rw [if_neg hl, if_neg (fun e => h.level e.1), if_pos (UInt32.not_lt.1 hl)]
    unfold logCore
    rw [if_neg h.some]
    have hi : format (indented r.nest (piecesFmt r.pieces)) (piecesArgs r.pieces) = .ok (List.replicate (r.nest - 1) 32 ++ piecesText r.pieces) := by
      unfold indented
      have hf := format_pieces r.pieces h.pieces
      by_cases hn : 1 < r.nest
      · rw [if_pos ⟨hn, h.room.resolve_left (by omega)⟩]
        unfold format at hf ⊢
        rw [format_lit _ _ _ (by intro e; have := List.eq_of_mem_replicate e; exact absurd this (by decide)), hf]
        rfl
      · rw [if_neg (fun e => hn e.1)]
        have : r.nest - 1 = 0 := by omega
        rw [this, hf]
        rfl
    rw [hi]
    show (if c.syslog = true then _ else _ : Except FmtErr LogOut) = _
    rw [hs, if_neg (by decide)]
    obtain ⟨t1, t2, t3, t4, t5, t6⟩ := h.time
    have hm : (monthNames ++ [b!"???"]).getD r.time.mon.toNat [] = months.getD r.time.mon.toNat [] := by
      have : ∀ k, k < 12 → (monthNames ++ [b!"???"]).getD k [] = months.getD k [] := by decide
      exact this _ (by omega)
    have hk : [categoryLetters.getD r.kind.number 0] = r.kind.letter := by cases r.kind <;> rfl
    unfold LogRecord.line timeShown
    rw [dec2_eq _ (by omega), dec2_eq _ (by omega), dec2_eq _ (by omega), dec2_eq _ (by omega), dec2_eq _ (by omega), hm, ← hk]
    show Except.ok _ = Except.ok _
    simp only [List.append_assoc, List.cons_append, List.nil_append]

/-- C114. The records that are important enough stand in the log, in the order of the events, one after the
other, each with a letter for its kind, the time, and its text; others leave no trace. -/
theorem log_records (c : LogCfg) (hs : c.syslog = false) (rs : List LogRecord) (h : ∀ r ∈ rs, r.Regular) :
    ∃ con, logAll c (rs.map LogRecord.call) = .ok ⟨con, (rs.filter fun r => r.level ≤ c.level).flatMap (fun r => r.line ++ [10]), []⟩ := by
  induction rs with
  | nil => exact ⟨[], rfl⟩
  | cons r rs ih =>
    obtain ⟨con, ih⟩ := ih (fun x hx => h x (by simp [hx]))
    rw [List.map_cons]
    show ∃ con, (do
      let a ← logWrite c r.nest r.time r.level r.kind.number (piecesFmt r.pieces) (piecesArgs r.pieces)
      return a.append (← logAll c (rs.map LogRecord.call)) : Except FmtErr LogOut) = _
    rw [log_record c hs r (h r (by simp)), ih]
    by_cases hl : r.level ≤ c.level
    · rw [if_pos hl, List.filter_cons_of_pos (by simpa using hl), List.flatMap_cons]
      exact ⟨_, rfl⟩
    · rw [if_neg hl, List.filter_cons_of_neg (by simpa using hl)]
      exact ⟨_, rfl⟩

theorem dec_noLF (n : Nat) : 10 ∉ dec n := by
  intro h
  have : ∀ (f n : Nat) (acc : Str), (10 : UInt8) ∉ acc → (10 : UInt8) ∉ decAux f n acc := by
    intro f
    induction f with
    | zero => intro n acc h; exact h
    | succ f ih =>
      intro n acc h
      have hd : ∀ k, k < 10 → digit k ≠ 10 := by decide
      have hd := hd (n % 10) (by omega)
      have hn : (10 : UInt8) ∉ digit (n % 10) :: acc := by
        intro e
        rcases List.mem_cons.1 e with e | e
        · exact hd e.symm
        · exact h e
      rw [decAux]
      split
      · exact hn
      · exact ih _ _ hn
  exact this _ _ _ (by simp) h

/-- C114. A record is one line, if no string in it has a line end. -/
theorem log_one_line (r : LogRecord) (ht : ClockTime r.time) (h : ∀ p ∈ r.pieces, match p with | .lit s => 10 ∉ s | .str s => 10 ∉ s | .num _ => True) : 10 ∉ r.line := by
  have h2 : ∀ n, n < 100 → (10 : UInt8) ∉ twoDigits n := fun n hn => (twoDigits_good n hn).2
  obtain ⟨t1, t2, t3, t4, t5, t6⟩ := ht
  have hm : (10 : UInt8) ∉ months.getD r.time.mon.toNat [] := by
    have : ∀ k, k < 12 → (10 : UInt8) ∉ months.getD k [] := by decide
    exact this _ (by omega)
  have hk : (10 : UInt8) ∉ r.kind.letter := by cases r.kind <;> decide
  have hp : (10 : UInt8) ∉ piecesText r.pieces := by
    intro e
    obtain ⟨p, hp, hc⟩ := List.mem_flatMap.1 e
    have := h p hp
    cases p with
    | lit s => exact this hc
    | str s => exact this hc
    | num n => exact dec_noLF _ hc
  have hr : (10 : UInt8) ∉ List.replicate (r.nest - 1) 32 := by
    intro e; have := List.eq_of_mem_replicate e; exact absurd this (by decide)
  unfold LogRecord.line timeShown
  simp only [List.mem_append, not_or]
  exact ⟨⟨⟨⟨⟨hk, by decide⟩, ⟨⟨⟨⟨⟨⟨⟨⟨⟨⟨h2 _ (by omega), by decide⟩, hm⟩, by decide⟩, h2 _ (by omega)⟩, by decide⟩, h2 _ (by omega)⟩, by decide⟩, h2 _ (by omega)⟩, by decide⟩,
    h2 _ (by omega)⟩⟩, by decide⟩, hr⟩, hp⟩

/-! ## Summaries -/

/-- The record for an area. -/
def areaPieces (x : Str × UInt32 × UInt32) : List Piece :=
  [.lit b!"Area ", .str x.1, .lit b!" -- ", .num x.2.1, .lit b!" messages"] ++ if x.2.2 = 0 then [] else [.lit b!" (", .num x.2.2, .lit b!" dupes)"]

/-- C114. At the end of a toss run there is one record for each area with new messages or duplicates, in
order, with their numbers. -/
theorem areas_logged (areas : List (Str × UInt32 × UInt32)) (nest : Nat) (t : Tm) :
    (areaCalls areas).map (fun x => (nest, t, x)) =
      ((areas.filter fun x => x.2.1 ≠ 0 ∨ x.2.2 ≠ 0).map fun x => LogRecord.call ⟨3, .tossingInfo, t, nest, areaPieces x⟩) := by
  induction areas with
  | nil => rfl
  | cons x r ih =>
    obtain ⟨tag, n, d⟩ := x
    rw [areaCalls, List.map_append, ih]
    by_cases hd : d = 0
    · subst hd
      rw [if_neg (by simp)]
      by_cases hn : n = 0
      · subst hn
        rw [if_neg (by simp), List.filter_cons_of_neg (by simp)]
        rfl
      · rw [if_pos hn, List.filter_cons_of_pos (by simp [hn])]
        rfl
    · rw [if_pos hd, List.filter_cons_of_pos (by simp [hd])]
      have e : areaPieces (tag, n, d) = [.lit b!"Area ", .str tag, .lit b!" -- ", .num n, .lit b!" messages", .lit b!" (", .num d, .lit b!" dupes)"] := by
        unfold areaPieces
        rw [if_neg hd]
        rfl
      show _ = LogRecord.call ⟨3, .tossingInfo, t, nest, areaPieces (tag, n, d)⟩ :: _
      rw [e]
      rfl

/-- Violated: the totals at the end of every toss run are formatted as `unsigned long` but are `uint32_t`. -/
theorem totals_undefined (c : LogCfg) (hl : 1 ≤ c.level) (t : Tm) (x : TossTotals) :
    ∀ k ∈ totalCalls x, logWrite c 0 t k.level k.cat k.fmt k.args = .error .wrongType := by
  intro k hk
  have hc : ¬ c.level < 1 := UInt32.not_lt.2 hl
  unfold totalCalls at hk
  simp only [List.mem_cons, List.not_mem_nil, or_false] at hk
  rcases hk with rfl | rfl | rfl <;> unfold logWrite <;> rw [if_neg hc, if_neg (by simp)] <;> rfl

/-- C114. What a scan run says about its result. -/
theorem scan_logged (n : UInt32) (nest : Nat) (t : Tm) : (nest, t, scanCall n) = LogRecord.call ⟨2, .tossingInfo, t, nest,
    if n = 0 then [.lit b!"No messages exported"] else if n = 1 then [.lit b!"1 message exported"] else [.num n, .lit b!" messages exported"]⟩ := by
  unfold scanCall
  by_cases h0 : n = 0
  · rw [if_pos h0, if_pos h0]; rfl
  · rw [if_neg h0, if_neg h0]
    by_cases h1 : n = 1
    · rw [if_pos h1, if_pos h1]; rfl
    · rw [if_neg h1, if_neg h1]; rfl

/-- C114. What is said about an exported message. -/
theorem export_logged (netmail : Bool) (num : UInt32) (frm to place : Str) (nest : Nat) (t : Tm) :
    (nest, t, exportCall netmail num frm to place) = LogRecord.call ⟨4, .tossingInfo, t, nest,
      [.lit b!"Exporting message #", .num num, .lit b!" from \"", .str frm, .lit b!"\" to \"", .str to, .lit (if netmail then b!"\" at " else b!"\" in "), .str place]⟩ := by
  cases netmail <;> rfl

/-- Violated: the message about a configuration file that cannot be updated is used as a format; if the name
has a percent sign with an s behind it, the program reads an argument that is not there. -/
theorem update_error_undefined (c : LogCfg) (hl : 1 ≤ c.level) (t : Tm) (a b err : Str) (h : 37 ∉ a) :
    logWrite c 0 t 1 1 (updateErrorCall (a ++ b!"%s" ++ b) err).fmt [] = .error .missing := by
  have hc : ¬ c.level < 1 := UInt32.not_lt.2 hl
  unfold logWrite
  rw [if_neg hc, if_neg (by simp)]
  unfold logCore
  have e : (updateErrorCall (a ++ b!"%s" ++ b) err).fmt = (b!"Unable to read file " ++ a) ++ (37 :: 115 :: (b ++ b!" (error: " ++ err ++ b!")")) := by
    unfold updateErrorCall
    simp
  rw [e, if_neg (by simp)]
  unfold indented format
  rw [if_neg (by omega), format_lit _ _ _ (by
    intro hm
    rcases List.mem_append.1 hm with hm | hm
    · exact absurd hm (by decide)
    · exact h hm)]
  rfl

namespace Ex

def logTime : Tm := ⟨7, 6, 5, 16, 10, 126⟩

/-- A message from a packet: the line that is made of it. -/
def exportRecord (frm : Str) : LogRecord := ⟨4, .tossingInfo, logTime, 2,
  [.lit b!"Exporting message #", .num 12, .lit b!" from \"", .str frm, .lit b!"\" to \"", .str b!"All", .lit b!"\" in ", .str b!"TEST"]⟩

theorem log_example : (exportRecord b!"Joe").Regular ∧ (exportRecord b!"Joe").line = b!"= 16-Nov-26 05:06:07  Exporting message #12 from \"Joe\" to \"All\" in TEST" :=
  ⟨⟨by decide, by decide, by simp [exportRecord, Piece.Ok] , .inr (by decide), by decide, by decide, by decide, by decide, by decide, by decide⟩, by decide +kernel⟩

/-- Violated: a name with a line end (of the 35 characters names of messages can have) forges a line of the log. -/
theorem log_forged : (exportRecord b!"Joe\n- 16-Nov-26 05:06:07 All OK\n").Regular ∧
    b!"\n- 16-Nov-26 05:06:07 All OK\n" <:+: (exportRecord b!"Joe\n- 16-Nov-26 05:06:07 All OK\n").line :=
  ⟨⟨by decide, by decide, by simp [exportRecord, Piece.Ok], .inr (by decide), by decide, by decide, by decide, by decide, by decide, by decide⟩, by decide +kernel⟩

end Ex

end CM
