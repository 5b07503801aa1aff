import Verif.Lemmas.FilterVar
import Verif.Props.Filter
/-! # What filters look at (C109) -/

set_option linter.unusedSimpArgs false

namespace CM

theorem strVar_chars (v : StrVar) : NameChars v.name := by cases v <;> (unfold NameChars; decide)
theorem nodeVar_chars (v : NodeVar) : NameChars v.name := by cases v <;> (unfold NameChars; decide)
theorem boolVar_chars (v : BoolVar) : NameChars v.name := by cases v <;> (unfold NameChars; decide)
theorem nlVar_chars (v : NlVar) : NameChars v.name := by cases v <;> (unfold NameChars; decide)
theorem textVar_chars (k : Bool) : NameChars (textVar k) := by cases k <;> (unfold NameChars; decide)

theorem fromIs_sender {m : MemMsg} {n : Node4D} (h : FromIs m n) : m.sender = n := by
  unfold MemMsg.sender
  cases h with
  | netmail h => rw [if_pos h]
  | echomail h => rw [if_neg h]

theorem sourceIs_source {m : MemMsg} {s : Str} (h : SourceIs m s) : m.source = s := by
  unfold MemMsg.source
  cases h with
  | tossed h => rw [if_pos h]
  | crashmail h1 h2 => rw [if_neg (by simp [h1]), if_pos h2]
  | exported h1 h2 h3 => rw [if_neg (by simp [h1]), if_neg (by simp [h2]), if_pos h3]
  | other h1 h2 h3 => rw [if_neg (by simp [h1]), if_neg (by simp [h2]), if_neg (by simp [h3])]

theorem evalFunc_str (cfg : Config) {m : MemMsg} {v : StrVar} {s w op data x : Str} (hs : splitStmt s = (w, op, data)) (hw : Ci w v.name)
    (hx : v.Is m x) : evalFunc cfg m s = compareString x op data := by
  have hw' := eqi_ci hw
  unfold evalFunc
  rw [hs]
  dsimp only
  cases hx with
  | fromName => simp only [hw', StrVar.name]; repeat rw [if_neg (by decide)]
                rw [if_pos (by decide)]
  | toName => simp only [hw', StrVar.name]; repeat rw [if_neg (by decide)]
              rw [if_pos (by decide)]
  | subject => simp only [hw', StrVar.name]; repeat rw [if_neg (by decide)]
               rw [if_pos (by decide)]
  | area => simp only [hw', StrVar.name]; repeat rw [if_neg (by decide)]
            rw [if_pos (by decide)]
  | netmail h => simp only [hw', StrVar.name]; repeat rw [if_neg (by decide)]
                 rw [if_pos (by decide), if_pos h]
  | echomail h => simp only [hw', StrVar.name]; repeat rw [if_neg (by decide)]
                  rw [if_pos (by decide), if_neg h]
  | source _ h => simp only [hw', StrVar.name]; repeat rw [if_neg (by decide)]
                  rw [if_pos (by decide), sourceIs_source h]

theorem evalFunc_node (cfg : Config) {m : MemMsg} {v : NodeVar} {s w op data : Str} {n : Node4D} (hs : splitStmt s = (w, op, data))
    (hw : Ci w v.name) (hx : v.Is m n) : evalFunc cfg m s = compareNode cfg n op data := by
  have hw' := eqi_ci hw
  unfold evalFunc
  rw [hs]
  dsimp only
  cases hx with
  | fromAddr _ h => simp only [hw', NodeVar.name]
                    rw [if_pos (by decide), fromIs_sender h]
  | toAddr => simp only [hw', NodeVar.name]
              rw [if_neg (by decide), if_pos (by decide)]

theorem evalFunc_text (cfg : Config) {m : MemMsg} {k : Bool} {s w op data : Str} (hs : splitStmt s = (w, op, data))
    (hw : Ci w (textVar k)) : evalFunc cfg m s = compareText k op data m.text := by
  have hw' := eqi_ci hw
  unfold evalFunc
  rw [hs]
  dsimp only
  simp only [hw']
  cases k with
  | true => repeat rw [if_neg (by decide)]
            rw [if_pos (by decide)]
  | false => repeat rw [if_neg (by decide)]
             rw [if_pos (by decide)]

theorem evalFunc_nl (cfg : Config) {m : MemMsg} {v : NlVar} {s w op data : Str} {n : Node4D} (hs : splitStmt s = (w, op, data))
    (hw : Ci w v.name) (hx : v.Is m n) : evalFunc cfg m s = .ok (nlLookup cfg n) := by
  have hw' := eqi_ci hw
  unfold evalFunc
  rw [hs]
  dsimp only
  cases hx with
  | nlFrom _ h => simp only [hw', NlVar.name]; repeat rw [if_neg (by decide)]
                  rw [if_pos (by decide), fromIs_sender h]
  | nlFromBoss _ h => simp only [hw', NlVar.name]; repeat rw [if_neg (by decide)]
                      rw [if_pos (by decide), fromIs_sender h]; rfl
  | nlTo => simp only [hw', NlVar.name]; repeat rw [if_neg (by decide)]
            rw [if_pos (by decide)]
  | nlToBoss => simp only [hw', NlVar.name]; repeat rw [if_neg (by decide)]
                rw [if_pos (by decide)]; rfl

theorem isAka_own (cfg : Config) (n : Node4D) : cfg.isAka n = true ↔ OwnAddress cfg n := by
  unfold Config.isAka OwnAddress SameNode
  simp only [List.any_eq_true, beq_iff_eq, compare4D_eq_zero_iff]

theorem isNode_configured (cfg : Config) (n : Node4D) : cfg.isNode n = true ↔ Configured cfg n := by
  unfold Config.isNode Configured SameNode
  simp only [List.any_eq_true, beq_iff_eq, compare4D_eq_zero_iff]

theorem isLocalPoint_own (cfg : Config) (n : Node4D) : cfg.isLocalPoint n = true ↔ OwnPoint cfg n := by
  unfold Config.isLocalPoint OwnPoint SameNode bossOf Node4D.boss
  simp only [Bool.and_eq_true, bne_iff_ne, List.any_eq_true, beq_iff_eq, compare4D_eq_zero_iff]
  constructor
  · rintro ⟨h, a, ha, h1, _⟩
    exact ⟨h, a, ha, h1⟩
  · rintro ⟨h, a, ha, h1⟩
    exact ⟨h, a, ha, h1, h1.2.2.1⟩

theorem evalFunc_bool (cfg : Config) {m : MemMsg} {v : BoolVar} {s w op data : Str} {P : Prop} (hs : splitStmt s = (w, op, data))
    (hw : Ci w v.name) (hx : v.Tells cfg m P) : ∃ b, evalFunc cfg m s = .ok (compareBool b op data) ∧ (b = true ↔ P) := by
  have hw' := eqi_ci hw
  unfold evalFunc
  rw [hs]
  dsimp only
  cases hx with
  | fileAttach => simp only [hw', BoolVar.name]; repeat rw [if_neg (by decide)]
                  rw [if_pos (by decide)]; exact ⟨_, rfl, by simp [MemMsg.attrHas]⟩
  | toAka => simp only [hw', BoolVar.name]; repeat rw [if_neg (by decide)]
             rw [if_pos (by decide)]; exact ⟨_, rfl, isAka_own _ _⟩
  | fromAka _ h => simp only [hw', BoolVar.name]; repeat rw [if_neg (by decide)]
                   rw [if_pos (by decide), fromIs_sender h]; exact ⟨_, rfl, isAka_own _ _⟩
  | toPoint => simp only [hw', BoolVar.name]; repeat rw [if_neg (by decide)]
               rw [if_pos (by decide)]; exact ⟨_, rfl, isLocalPoint_own _ _⟩
  | fromPoint _ h => simp only [hw', BoolVar.name]; repeat rw [if_neg (by decide)]
                     rw [if_pos (by decide), fromIs_sender h]; exact ⟨_, rfl, isLocalPoint_own _ _⟩
  | cfgFrom _ h => simp only [hw', BoolVar.name]; repeat rw [if_neg (by decide)]
                   rw [if_pos (by decide), fromIs_sender h]; exact ⟨_, rfl, isNode_configured _ _⟩
  | cfgFromBoss _ h => simp only [hw', BoolVar.name]; repeat rw [if_neg (by decide)]
                       rw [if_pos (by decide), fromIs_sender h]; exact ⟨_, rfl, isNode_configured _ _⟩
  | cfgTo => simp only [hw', BoolVar.name]; repeat rw [if_neg (by decide)]
             rw [if_pos (by decide)]; exact ⟨_, rfl, isNode_configured _ _⟩
  | cfgToBoss => simp only [hw', BoolVar.name]; repeat rw [if_neg (by decide)]
                 rw [if_pos (by decide)]; exact ⟨_, rfl, isNode_configured _ _⟩

theorem patSays_parse {w : Str} {p : Pat4} (h : PatSays w p) : parse4DPat w = .ok (some p) := by
  have := patSays_rd h
  unfold rdPat at this
  split at this
  · cases this
  · cases this
  · next he => cases this; exact he

theorem patSays_noNul {w : Str} {p : Pat4} (h : PatSays w p) : NoNul p.zone ∧ NoNul p.net ∧ NoNul p.node ∧ NoNul p.point := by
  have h0 : ∀ c : UInt8, isPatChar c = true → c ≠ 0 := by decide +kernel
  have e0 : NoNul [] := by decide
  have part : ∀ {c : Str}, PartOk c → NoNul c := fun h h' => h0 _ (h.2.2 _ h') rfl
  have chars : ∀ {d : Str}, (∀ c ∈ d, isPatChar c = true) → NoNul (d.take 9) := fun h h' => h0 _ (h _ (List.mem_of_mem_take h')) rfl
  have star : ∀ p, StarSays w p → NoNul p.zone ∧ NoNul p.net ∧ NoNul p.node ∧ NoNul p.point := by
    intro p h
    cases h with
    | star => decide
    | parts t h1 h2 =>
      obtain ⟨z, n, f, l⟩ := t
      obtain ⟨hz, hn, hf, hl⟩ := h1
      have opt : ∀ {o : Option Str}, (∀ d, o = some d → d ≠ [] ∧ ∀ c ∈ d, isPatChar c = true) →
          NoNul (match o with | none => b!"*" | some d => d.take 9) := by
        intro o ho
        cases o with
        | none => decide
        | some d => exact chars (ho d rfl).2
      have hz := opt hz
      have hn := opt hn
      have hf := opt hf
      have hl := chars hl.2
      unfold AddrText.patMeaning
      dsimp only
      split
      · refine ⟨hz, hl, hf, ?_⟩
        dsimp only
        split <;> decide
      · split
        · exact ⟨hz, hn, hf, hl⟩
        · exact ⟨hz, hn, hl, show NoNul b!"0" by decide⟩
  cases h with
  | parts w p h => exact star _ h
  | zone z h1 => exact ⟨part h1, e0, e0, e0⟩
  | region z n h1 h2 => exact ⟨part h1, part h2, e0, e0⟩
  | net z n h1 h2 => exact ⟨part h1, part h2, e0, e0⟩
  | hub z n f h1 h2 h3 => exact ⟨part h1, part h2, part h3, e0⟩
  | node z n f h1 h2 h3 => exact ⟨part h1, part h2, part h3, e0⟩

theorem patFits_iff (nl : Nodelist) {w : Str} {p : Pat4} (n : Node4D) (h : PatSays w p) : compare4DPat nl p n = true ↔ PatFits nl p n := by
  obtain ⟨h1, h2, h3, h4⟩ := patSays_noNul h
  rw [compare4DPat_iff nl p n h1 h2 h3 h4]
  rfl

/-- C109. A statement of a filter has the documented meaning. -/
theorem stmt_says {cfg : Config} {m : MemMsg} {s : Str} {P : Prop} (h : StmtSays cfg m s P) :
    ∃ b, evalFunc cfg m s = .ok (some b) ∧ (b = true ↔ P) := by
  cases h with
  | «matches» v w t pat x hw ht hp hx =>
    rw [evalFunc_str cfg (splitStmt_op (nameChars_ci hw (strVar_chars v)) (by decide) ht) hw hx]
    refine ⟨_, rfl, osMatchPattern_iff pat x hp⟩
  | finds v w t pat x hw ht hp hx ha =>
    rw [evalFunc_str cfg (splitStmt_op (nameChars_ci hw (strVar_chars v)) (by decide) ht) hw hx]
    obtain ⟨b, e1, e2⟩ := foundBool_iff hp (writtenPat_short ht) ha
    refine ⟨b, ?_, e2⟩
    show (foundBool (bmfind pat x 0)).map some = _
    rw [e1]; rfl
  | node v w t pat p n hw ht hp hnl hx =>
    rw [evalFunc_node cfg (splitStmt_op (nameChars_ci hw (nodeVar_chars v)) (by decide) ht) hw hx]
    refine ⟨compare4DPat cfg.nl p n, ?_, patFits_iff _ _ hp⟩
    unfold compareNode
    rw [if_neg (by simp), patSays_parse hp]
    dsimp only
    rw [if_neg]
    rcases hnl with h | ⟨h1, h2⟩
    · simp [h]
    · simp [h1, h2]
  | plain v w P hw hx =>
    obtain ⟨b, e1, e2⟩ := evalFunc_bool cfg (splitStmt_bare (nameChars_ci hw (boolVar_chars v))) hw hx
    exact ⟨b, e1, e2⟩
  | yes v w t pat P hw ht hp hx =>
    obtain ⟨b, e1, e2⟩ := evalFunc_bool cfg (splitStmt_op (o := 61) (nameChars_ci hw (boolVar_chars v)) (by decide) ht) hw hx
    refine ⟨b, ?_, e2⟩
    rw [e1]
    unfold compareBool
    rw [if_neg (by simp), if_pos rfl, eqi_ci hp, if_pos (by decide)]
  | no v w t pat P hw ht hp hx =>
    obtain ⟨b, e1, e2⟩ := evalFunc_bool cfg (splitStmt_op (o := 61) (nameChars_ci hw (boolVar_chars v)) (by decide) ht) hw hx
    refine ⟨!b, ?_, by rw [← e2]; simp⟩
    rw [e1]
    unfold compareBool
    rw [if_neg (by simp), if_pos rfl, eqi_ci hp, eqi_ci hp, if_neg (by decide), if_pos (by decide)]
  | nodelist v w n hw hx h1 h2 =>
    rw [evalFunc_nl cfg (splitStmt_bare (nameChars_ci hw (nlVar_chars v))) hw hx]
    exact ⟨cfg.nlCheck n, by simp [nlLookup, h1, h2], Iff.rfl⟩
  | nodelistYes v w t pat n hw ht hp hx h1 h2 =>
    rw [evalFunc_nl cfg (splitStmt_op (nameChars_ci hw (nlVar_chars v)) (by decide) ht) hw hx]
    exact ⟨cfg.nlCheck n, by simp [nlLookup, h1, h2], Iff.rfl⟩
  | text k w t pat hw ht hp h13 ha =>
    rw [evalFunc_text cfg (splitStmt_op (nameChars_ci hw (textVar_chars k)) (by decide) ht) hw]
    exact compareText_iff k hp (writtenPat_short ht) h13 ha

/-- C109 (violated). `EXISTSNL_…=FALSE` means the same as `EXISTSNL_…=TRUE`: what stands behind the name is not looked at. -/
theorem nodelist_false_ignored {cfg : Config} {m : MemMsg} {v : NlVar} {w t pat : Str} {n : Node4D} (hw : Ci w v.name)
    (ht : WrittenPat t pat) (hx : v.Is m n) (h1 : cfg.nlConfigured = true) (h2 : cfg.nl.isOpen = true) :
    evalFunc cfg m (w ++ b!"=" ++ t) = .ok (some (cfg.nlCheck n)) := by
  rw [evalFunc_nl cfg (splitStmt_op (nameChars_ci hw (nlVar_chars v)) (by decide) ht) hw hx]
  simp [nlLookup, h1, h2]

theorem compareString_op {x op data : Str} (h1 : op ≠ b!"=") (h2 : op ≠ b!"|") : compareString x op data = .ok none := by
  unfold compareString
  rw [if_neg h2, if_neg h1]

/-- C109. A statement with an operator that the variable does not have is refused: string variables have `=` and `|`, node
variables `=`, text variables `|` and boolean variables `=` or none. -/
theorem operator_refused (cfg : Config) {m : MemMsg} {w t pat : Str} {o : UInt8} (ho : (isAlpha o || o == 95) = false) (ht : WrittenPat t pat) :
    (∀ v x, StrVar.Is m v x → Ci w v.name → o ≠ 61 → o ≠ 124 → evalFunc cfg m (w ++ [o] ++ t) = .ok none) ∧
    (∀ v x, StrVar.Is m v x → Ci w v.name → evalFunc cfg m w = .ok none) ∧
    (∀ v n, NodeVar.Is m v n → Ci w v.name → o ≠ 61 → evalFunc cfg m (w ++ [o] ++ t) = .ok none) ∧
    (∀ v n, NodeVar.Is m v n → Ci w v.name → evalFunc cfg m w = .ok none) ∧
    (∀ k, Ci w (textVar k) → o ≠ 124 → evalFunc cfg m (w ++ [o] ++ t) = .ok none) ∧
    (∀ k, Ci w (textVar k) → evalFunc cfg m w = .ok none) ∧
    (∀ v P, BoolVar.Tells cfg m v P → Ci w v.name → o ≠ 61 ∨ ¬ Ci pat b!"TRUE" ∧ ¬ Ci pat b!"FALSE" →
      evalFunc cfg m (w ++ [o] ++ t) = .ok none) := by
  refine ⟨fun v x hx hw h1 h2 => ?_, fun v x hx hw => ?_, fun v n hx hw h1 => ?_, fun v n hx hw => ?_, fun k hw h1 => ?_,
    fun k hw => ?_, fun v P hx hw h1 => ?_⟩
  · rw [evalFunc_str cfg (splitStmt_op (nameChars_ci hw (strVar_chars v)) ho ht) hw hx]
    exact compareString_op (by simpa using h1) (by simpa using h2)
  · rw [evalFunc_str cfg (splitStmt_bare (nameChars_ci hw (strVar_chars v))) hw hx]
    exact compareString_op (by simp) (by simp)
  · rw [evalFunc_node cfg (splitStmt_op (nameChars_ci hw (nodeVar_chars v)) ho ht) hw hx]
    unfold compareNode
    rw [if_pos (by simpa using h1)]
  · rw [evalFunc_node cfg (splitStmt_bare (nameChars_ci hw (nodeVar_chars v))) hw hx]
    unfold compareNode
    rw [if_pos (by simp)]
  · rw [evalFunc_text cfg (splitStmt_op (nameChars_ci hw (textVar_chars k)) ho ht) hw]
    unfold compareText
    rw [if_pos (by simpa using h1)]
  · rw [evalFunc_text cfg (splitStmt_bare (nameChars_ci hw (textVar_chars k))) hw]
    unfold compareText
    rw [if_pos (by simp)]
  · obtain ⟨b, e1, _⟩ := evalFunc_bool cfg (splitStmt_op (nameChars_ci hw (boolVar_chars v)) ho ht) hw hx
    rw [e1]
    unfold compareBool
    rw [if_neg (by simp)]
    rcases h1 with h1 | ⟨h1, h2⟩
    · rw [if_neg (by simpa using h1)]
    · have t1 : eqi pat b!"TRUE" = false := by
        rw [← Bool.not_eq_true, eqi_iff]; exact h1
      have t2 : eqi pat b!"FALSE" = false := by
        rw [← Bool.not_eq_true, eqi_iff]; exact h2
      rw [t1, t2]
      split <;> rfl

/-! ## Whole filters -/

theorem docVal_total {ev : Str → Bool} : ∀ (e : FExp) (left : Option (Option Bool × Bool)), (∀ a op, left = some (a, op) → ∃ b, a = some b) →
    ∃ v, FExp.docVal (fun a => some (ev a)) left e = some v := by
  have stp : ∀ (op : Bool) (a b : Option Bool), (∃ x, a = some x) → (∃ x, b = some x) → ∃ v, FExp.step op a b = some v := by
    rintro op a b ⟨x, rfl⟩ ⟨y, rfl⟩
    exact ⟨_, rfl⟩
  have sg : ∀ (n : Bool) (a : Option Bool), (∃ x, a = some x) → ∃ v, FExp.sign n a = some v := by
    rintro n a ⟨x, rfl⟩
    cases n <;> exact ⟨_, rfl⟩
  intro e
  induction e with
  | atom n s =>
    intro left h
    rcases left with _ | ⟨a, op⟩
    · exact sg n _ ⟨_, rfl⟩
    · exact stp op _ _ (h a op rfl) (sg n _ ⟨_, rfl⟩)
  | group n e ih =>
    intro left h
    have h1 := sg n _ (ih none (by simp))
    rcases left with _ | ⟨a, op⟩
    · exact h1
    · exact stp op _ _ (h a op rfl) h1
  | chain c l r ihl ihr =>
    intro left h
    apply ihr
    intro a op ha
    simp only [Option.some.injEq, Prod.mk.injEq] at ha
    obtain ⟨rfl, rfl⟩ := ha
    exact ihl left h

/-- C109. A filter whose statements mean what is documented matches exactly the messages for which its expression is true
(no level mixes AND and OR and NOT stands before single operands, see C34). -/
theorem filter_says_partial {s : HSt} {m : MemMsg} {f : Filter} {e : FExp} {ev : Str → Bool} (hf : f.text = e.text) (hw : e.WF)
    (hn : e.NotSimple) (hu : e.Unmixed) (ha : ∀ a ∈ e.atoms, ∃ P, StmtSays s.cfg m a P ∧ (ev a = true ↔ P)) :
    ∃ v, f.Says s m v ∧ e.value (fun a => some (ev a)) = some v := by
  have hev : ∀ a ∈ e.atoms, evalFunc s.cfg m a = .ok (some (ev a)) := by
    intro a h
    obtain ⟨P, h1, h2⟩ := ha a h
    obtain ⟨b, e1, e2⟩ := stmt_says h1
    rw [e1]
    congr 2
    rw [Bool.eq_iff_iff, e2, h2]
  obtain ⟨v, hv⟩ := docVal_total (ev := ev) e none (by simp)
  refine ⟨v, ?_, hv⟩
  unfold Filter.Says
  rw [hf, evalExpr_atoms _ (fun a => some (ev a)) e hev hw hn, ← (docVal_right _ e hw hu).2, hv]

/-! ## Concrete cases -/

namespace Ex

/-- A netmail to a point, with a kludge. -/
def fvMsg : MemMsg :=
  { orig := ⟨2, 200, 207, 6⟩, dest := ⟨2, 221, 360, 3⟩, frm := b!"Johan Billing", to := b!"Sysop", subject := b!"Test of CrashMail",
    flags := MMFLAG_TOSSED, attr := FLAG_FILEATTACH,
    text := [[1] ++ b!"MSGID: 2:200/207.6 1234" ++ [13] ++ b!"I use crashmail." ++ [13]] }

/-- An expression with every kind of variable. -/
def fvExp : FExp :=
  .chain true (.atom false b!"type=NETMAIL") (.chain true (.atom true b!"FROMNAME=\"AreaFix\"") (.chain true (.atom false b!"TEXT|CrashMail")
    (.chain true (.group true (.atom false b!"KLUDGES|CrashMail")) (.chain true (.atom false b!"FROMADDR=\"2:200/*.*\"")
      (.chain true (.atom false b!"FILEATTACH") (.chain true (.atom false b!"TOLOCALPOINT=FALSE") (.atom false b!"SUBJECT|\"of Crash\"")))))))

/-- The truth of its statements. -/
def fvTruth (a : Str) : Bool := !(a == b!"FROMNAME=\"AreaFix\"" || a == b!"KLUDGES|CrashMail")

def fvFilter : Filter :=
  ⟨b!"type=NETMAIL AND NOT FROMNAME=\"AreaFix\" AND TEXT|CrashMail AND NOT (KLUDGES|CrashMail) AND FROMADDR=\"2:200/*.*\" AND FILEATTACH AND TOLOCALPOINT=FALSE AND SUBJECT|\"of Crash\"", []⟩

theorem fv_text : fvFilter.text = fvExp.text := by decide +kernel

theorem findable_crashmail : Findable b!"CrashMail" := ⟨b!"CrashMai", 108, rfl, by decide, by unfold Ascii; decide⟩
theorem findable_of : Findable b!"of Crash" := ⟨b!"of Cras", 104, rfl, by decide, by unfold Ascii; decide⟩

theorem oneStar_none {p : Str} (h : 42 ∉ p) : OneStar p := by
  rintro a b rfl
  exact absurd (by simp) h

theorem glob_chars {p s : Str} (h : Glob p s) (h1 : 42 ∉ p) : s.length = p.length := by
  induction h with
  | nil => rfl
  | star_nil _ _ => simp at h1
  | star_cons _ _ => simp at h1
  | any _ ih => simp [ih (by simp at h1; exact h1)]
  | char _ _ _ _ ih => simp [ih (by simp at h1; exact h1.2)]

theorem kludgesApart_of {t : Str} (h : ∀ i < t.length, t[i + 1]? = some 1 → t[i]? = some 13) : KludgesApart t := by
  intro i hi
  refine h i ?_ hi
  obtain ⟨h1, _⟩ := List.getElem?_eq_some_iff.1 hi
  omega

theorem fv_chunks : ∀ c ∈ fvMsg.text, Ascii c ∧ KludgesApart c := by
  intro c hc
  obtain rfl : c = [1] ++ b!"MSGID: 2:200/207.6 1234" ++ [13] ++ b!"I use crashmail." ++ [13] := by simpa [fvMsg] using hc
  exact ⟨by unfold Ascii; decide, kludgesApart_of (by decide)⟩

/-- C109. All hypotheses hold for this message and filter, and the filter matches. -/
theorem fv_says (s : HSt) (h : s.cfg.akas = []) : fvFilter.Says s fvMsg true := by
  obtain ⟨v, h1, h2⟩ := filter_says_partial (s := s) (m := fvMsg) (f := fvFilter) (e := fvExp) (ev := fvTruth) fv_text
    (by
      refine ⟨?_, ⟨?_, ⟨?_, ⟨?_, ⟨?_, ⟨?_, ⟨?_, ?_, rfl⟩, rfl⟩, rfl⟩, rfl⟩, rfl⟩, rfl⟩, rfl⟩
      · exact ⟨b!"type=NETMAIL", [], by decide, by decide, by decide, .inl rfl⟩
      · exact ⟨b!"FROMNAME=", b!"AreaFix", by decide, by decide, by decide, .inr ⟨by decide, rfl⟩⟩
      · exact ⟨b!"TEXT|CrashMail", [], by decide, by decide, by decide, .inl rfl⟩
      · exact ⟨b!"KLUDGES|CrashMail", [], by decide, by decide, by decide, .inl rfl⟩
      · exact ⟨b!"FROMADDR=", b!"2:200/*.*", by decide, by decide, by decide, .inr ⟨by decide, rfl⟩⟩
      · exact ⟨b!"FILEATTACH", [], by decide, by decide, by decide, .inl rfl⟩
      · exact ⟨b!"TOLOCALPOINT=FALSE", [], by decide, by decide, by decide, .inl rfl⟩
      · exact ⟨b!"SUBJECT|", b!"of Crash", by decide, by decide, by decide, .inr ⟨by decide, rfl⟩⟩)
    (by simp [fvExp, FExp.NotSimple, FExp.Single])
    (by simp [fvExp, FExp.Unmixed, FExp.Uniform])
    (by
      intro a ha
      simp only [fvExp, FExp.atoms, List.cons_append, List.nil_append, List.mem_cons, List.not_mem_nil, or_false] at ha
      rcases ha with rfl | rfl | rfl | rfl | rfl | rfl | rfl | rfl
      · refine ⟨_, .matches .type b!"type" _ b!"NETMAIL" _ (by unfold Ci; decide) (.plain _ (by decide) (by decide) (by decide))
          (oneStar_none (by decide)) (.netmail rfl), iff_of_true (by decide) ?_⟩
        exact .char (by decide) (by decide) rfl (.char (by decide) (by decide) rfl (.char (by decide) (by decide) rfl (.char (by decide) (by decide) rfl
          (.char (by decide) (by decide) rfl (.char (by decide) (by decide) rfl (.char (by decide) (by decide) rfl .nil))))))
      · refine ⟨_, .matches .fromName b!"FROMNAME" _ b!"AreaFix" _ (by unfold Ci; decide) (.quoted b!"AreaFix" (by decide))
          (oneStar_none (by decide)) .fromName, iff_of_false (by decide) ?_⟩
        intro hg
        exact absurd (glob_chars hg (by decide)) (by decide)
      · refine ⟨_, .text false b!"TEXT" _ b!"CrashMail" (by unfold Ci; decide) (.plain _ (by decide) (by decide) (by decide))
          findable_crashmail (by decide) fv_chunks, iff_of_true (by decide) ?_⟩
        exact ⟨_, .head _, b!"I use crashmail.", ⟨[1] ++ b!"MSGID: 2:200/207.6 1234" ++ [13], [13], rfl, by decide, .inr (by decide), .inr rfl⟩,
          by decide, b!"I use ", b!"crashmail", b!".", rfl, by unfold Ci; decide⟩
      · refine ⟨_, .text true b!"KLUDGES" _ b!"CrashMail" (by unfold Ci; decide) (.plain _ (by decide) (by decide) (by decide))
          findable_crashmail (by decide) fv_chunks, iff_of_false (by decide) ?_⟩
        intro hl
        obtain ⟨b, e1, e2⟩ := compareText_iff true findable_crashmail (by decide) (by decide) fv_chunks
        rw [show compareText true b!"|" b!"CrashMail" fvMsg.text = .ok (some false) by rfl] at e1
        cases e1
        exact absurd (e2.2 hl) (by decide)
      · refine ⟨_, .node .fromAddr b!"FROMADDR" _ b!"2:200/*.*" ⟨.pattern, b!"2", b!"200", b!"*", b!"*"⟩ _ (by unfold Ci; decide) (.quoted b!"2:200/*.*" (by decide))
          (.parts _ _ (.parts ⟨some b!"2", some b!"200", some b!"*", b!"*"⟩ (by unfold AddrText.PatChars; decide) (by decide)))
          (.inr (by decide)) (.fromAddr _ (.netmail rfl)), iff_of_true (by decide) ?_⟩
        exact ⟨.inr (.inr (.lit _ _ _ (by decide) (by decide) .nil)),
          .inr (.lit _ _ _ (by decide) (by decide) (.lit _ _ _ (by decide) (by decide) (.lit _ _ _ (by decide) (by decide) .nil))),
          .inr (.star _ _), .inr (.star _ _)⟩
      · exact ⟨_, .plain .fileAttach b!"FILEATTACH" _ (by unfold Ci; decide) .fileAttach, iff_of_true (by decide) (by decide)⟩
      · refine ⟨_, .no .toPoint b!"TOLOCALPOINT" _ b!"FALSE" _ (by unfold Ci; decide) (.plain _ (by decide) (by decide) (by decide))
          (by unfold Ci; decide) .toPoint, iff_of_true (by decide) ?_⟩
        rintro ⟨_, a, ha, _⟩
        rw [h] at ha; cases ha
      · refine ⟨_, .finds .subject b!"SUBJECT" _ b!"of Crash" _ (by unfold Ci; decide) (.quoted b!"of Crash" (by decide))
          findable_of .subject (by unfold Ascii; decide), iff_of_true (by decide) ?_⟩
        exact ⟨b!"Test ", b!"of Crash", b!"Mail", rfl, by unfold Ci; decide⟩)
  have e : fvExp.value (fun a => some (fvTruth a)) = some true := by decide +kernel
  rw [e] at h2
  cases h2
  exact h1

/-- C109 (violated). A word that goes on in the next piece of the text (pieces are made every 10000 bytes or so, see C07) is
not found, and the rest of a kludge that goes on there is taken for text. -/
theorem pieces_not_joined (cfg : Config) :
    evalFunc cfg { fvMsg with text := [b!"I use Crash", b!"Mail." ++ [13]] } b!"TEXT|CrashMail" = .ok (some false) ∧
    evalFunc cfg { fvMsg with text := [[1] ++ b!"PID: ", b!"CrashMail" ++ [13]] } b!"TEXT|CrashMail" = .ok (some true) := by
  constructor
  · rw [evalFunc_text (k := false) cfg (w := b!"TEXT") (op := b!"|") (data := b!"CrashMail") (by decide +kernel) (by unfold Ci; decide)]
    rfl
  · rw [evalFunc_text (k := false) cfg (w := b!"TEXT") (op := b!"|") (data := b!"CrashMail") (by decide +kernel) (by unfold Ci; decide)]
    rfl

/-- C109 (violated). A node that is not in the nodelist: `EXISTSNL_TOADDR=FALSE` should match and does not. -/
theorem nodelist_false (cfg : Config) (h1 : cfg.nlConfigured = true) (h2 : cfg.nl.isOpen = true) (h3 : cfg.nlCheck fvMsg.dest = false) :
    evalFunc cfg fvMsg b!"EXISTSNL_TOADDR=FALSE" = .ok (some false) := by
  have := nodelist_false_ignored (cfg := cfg) (m := fvMsg) (v := .nlTo) (w := b!"EXISTSNL_TOADDR") (t := b!"FALSE") (by unfold Ci; decide)
    (.plain _ (by decide) (by decide) (by decide)) .nlTo h1 h2
  rw [h3] at this
  exact this

/-- C109 (violated). A pattern is cut after 99 characters. -/
theorem long_pattern_cut (cfg : Config) :
    evalFunc cfg { fvMsg with subject := List.replicate 99 97 } (b!"SUBJECT=" ++ List.replicate 120 97) = .ok (some true) := by
  rw [evalFunc_str (v := .subject) cfg (w := b!"SUBJECT") (op := b!"=") (data := List.replicate 99 97) (by decide +kernel) (by unfold Ci; decide) .subject]
  exact (by decide +kernel : (osMatchPattern (List.replicate 99 97) (List.replicate 99 97)) = true) ▸ rfl

end Ex

end CM
