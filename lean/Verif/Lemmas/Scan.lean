import Verif.Spec.Scan
import Verif.Model.Scan
import Verif.Props.JamKeep
import Verif.Props.ConfigFile
import Verif.Props.Strings
/-! # Lemmas for the export from many areas -/

set_option linter.unusedSimpArgs false

namespace CM

theorem scannable_iff {cfg : Config} {i : Nat} {a : Area} (h : cfg.areas[i]? = some a) : scannable cfg a = true ↔ ToExport cfg i := by
  unfold scannable ToExport
  have hf : cfg.has CFG_NOEXPORTNETMAIL = !decide (cfg.flags &&& 134217728 = 0) := by
    show (cfg.flags &&& 134217728 != 0) = _
    rw [bne]; congr 1
  rw [hf, h]
  constructor
  · intro hs
    simp only [Bool.and_eq_true, Bool.or_eq_true, decide_eq_true_eq, Bool.not_eq_true', Bool.and_eq_false_iff, decide_eq_false_iff_not, Bool.not_eq_false', Bool.not_not] at hs
    obtain ⟨⟨h1, h2⟩, h3⟩ := hs
    refine ⟨a, rfl, (fun e => by rw [e] at h1; cases h1), ?_⟩
    rcases h2 with h2 | h2
    · exact .inl h2
    · rcases h3 with h3 | h3
      · exact absurd h2 h3
      · exact .inr ⟨h2, h3⟩
  · rintro ⟨_, e, h1, h2⟩
    cases e
    simp only [Bool.and_eq_true, Bool.or_eq_true, decide_eq_true_eq, Bool.not_eq_true', Bool.and_eq_false_iff, decide_eq_false_iff_not, Bool.not_eq_false', Bool.not_not]
    refine ⟨⟨?_, ?_⟩, ?_⟩
    · cases hb : a.base with
      | none => exact absurd hb h1
      | some _ => rfl
    · rcases h2 with h2 | h2
      · exact .inl h2
      · exact .inr h2.1
    · rcases h2 with h2 | h2
      · exact .inl (by rw [h2]; decide)
      · exact .inr h2.2

/-! ## Rules for the loops -/

section
variable {σ : Type} {cfg : Config} {ops : ScanOps σ} {G : List Nat → σ → Prop} {F : σ → Prop}

/-- What is needed of `G`, which is true as long as the areas in the list are still to be exported, and of `F`, which is true after a failure. -/
structure ScanRule (cfg : Config) (ops : ScanOps σ) (G : List Nat → σ → Prop) (F : σ → Prop) : Prop where
  look : ∀ {L s}, G L s → G L (ops.ctrlc s).2
  exp : ∀ {i L a s}, cfg.areas[i]? = some a → G (i :: L) s → ∃ ok s', ops.exp i a s = .ok (ok, s') ∧ (ok = true → G L s') ∧ (ok = false → F s')
  sticky : ∀ s, (ops.ctrlc s).1 = true → (ops.ctrlc (ops.ctrlc s).2).1 = true

/-- How a run ends. -/
def ScanEnds (G : List Nat → σ → Prop) (F : σ → Prop) (x : Bool × σ) : Prop := (x.1 = true ∧ G [] x.2) ∨ (x.1 = false ∧ (F x.2 ∨ ∃ L, G L x.2))

/-- How a loop ends. -/
def LoopEnds (ops : ScanOps σ) (G : List Nat → σ → Prop) (F : σ → Prop) (x : Bool × σ) : Prop :=
  (x.1 = true ∧ G [] x.2) ∨ (x.1 = true ∧ (ops.ctrlc x.2).1 = true ∧ ∃ L, G L x.2) ∨ (x.1 = false ∧ F x.2)

theorem LoopEnds.fin (h : ScanRule cfg ops G F) {x : Bool × σ} (hx : LoopEnds ops G F x) : ScanEnds G F (scanEnd ops x) := by
  unfold scanEnd
  rcases hx with ⟨h1, h2⟩ | ⟨h1, h2, L, h3⟩ | ⟨h1, h2⟩
  · rw [if_pos h1]
    cases hc : (ops.ctrlc x.2).1 with
    | false => exact .inl ⟨by show (!(ops.ctrlc x.2).1) = true; rw [hc]; rfl, h.look h2⟩
    | true => exact .inr ⟨by show (!(ops.ctrlc x.2).1) = false; rw [hc]; rfl, .inr ⟨[], h.look h2⟩⟩
  · rw [if_pos h1]
    exact .inr ⟨by show (!(ops.ctrlc x.2).1) = false; rw [h2]; rfl, .inr ⟨L, h.look h3⟩⟩
  · rw [if_neg (by rw [h1]; decide)]
    exact .inr ⟨h1, .inl h2⟩

theorem numbered_from (areas : List Area) (n : Nat) : ∀ i a, (i, a) ∈ (List.range' n areas.length).zip areas → n ≤ i ∧ areas[i - n]? = some a := by
  induction areas generalizing n with
  | nil => intro i a h; simp at h
  | cons b r ih =>
    intro i a h
    rw [List.length_cons, List.range'_succ, List.zip_cons_cons, List.mem_cons] at h
    rcases h with h | h
    · cases h; exact ⟨Nat.le_refl n, by rw [Nat.sub_self]; rfl⟩
    · obtain ⟨h1, h2⟩ := ih (n + 1) i a h
      refine ⟨by omega, ?_⟩
      rw [show i - n = (i - (n + 1)) + 1 by omega]
      exact h2

theorem scanLoop_rule (h : ScanRule cfg ops G F) : ∀ (xs : List Area) (n : Nat) (L : List Nat) (s : σ),
    (∀ k a, xs[k]? = some a → cfg.areas[n + k]? = some a) → L.Pairwise (· < ·) → (∀ i, i ∈ L ↔ ToExport cfg i ∧ n ≤ i) → n + xs.length = cfg.areas.length → G L s →
    ∃ x, scanLoop cfg ops ((List.range' n xs.length).zip xs) s = .ok x ∧ LoopEnds ops G F x
  | [], n, L, s, _, _, hm, hn, hG => by
    refine ⟨(true, s), rfl, .inl ⟨rfl, ?_⟩⟩
    cases L with
    | nil => exact hG
    | cons i L =>
      obtain ⟨⟨a, h1, _⟩, h2⟩ := (hm i).1 (by simp)
      have := (List.getElem?_eq_some_iff.1 h1).1
      simp only [List.length_nil] at hn
      omega
  | a :: r, n, L, s, hx, hp, hm, hn, hG => by
    have ha : cfg.areas[n]? = some a := hx 0 a rfl
    rw [List.length_cons, List.range'_succ, List.zip_cons_cons]
    unfold scanLoop
    have hG1 := h.look hG
    cases hc : (ops.ctrlc s).1 with
    | true =>
      refine ⟨(true, (ops.ctrlc s).2), ?_, .inr (.inl ⟨rfl, h.sticky s hc, L, hG1⟩)⟩
      show (if (ops.ctrlc s).1 = true then _ else _) = _
      rw [hc]; rfl
    | false =>
      show ∃ x, (if (ops.ctrlc s).1 = true then _ else _ : Except JErr (Bool × σ)) = .ok x ∧ _
      rw [hc, if_neg (by decide)]
      have hx' : ∀ k b, r[k]? = some b → cfg.areas[n + 1 + k]? = some b := fun k b hb => by
        rw [show n + 1 + k = n + (k + 1) by omega]; exact hx (k + 1) b hb
      have hn' : n + 1 + r.length = cfg.areas.length := by rw [← hn, List.length_cons]; omega
      by_cases hs : scannable cfg a = true
      · rw [if_pos hs]
        have he := (scannable_iff ha).1 hs
        have hmem : n ∈ L := (hm n).2 ⟨he, Nat.le_refl n⟩
        obtain ⟨L', rfl⟩ : ∃ L', L = n :: L' := by
          cases L with
          | nil => cases hmem
          | cons i L' =>
            have := ((hm i).1 (by simp)).2
            rcases List.mem_cons.1 hmem with e | e
            · exact ⟨L', by rw [e]⟩
            · have := (List.pairwise_cons.1 hp).1 n e
              omega
        obtain ⟨ok, s', e1, e2, e3⟩ := h.exp ha hG1
        rw [e1]
        cases ok with
        | false => exact ⟨(false, s'), rfl, .inr (.inr ⟨rfl, e3 rfl⟩)⟩
        | true =>
          have hp' := List.pairwise_cons.1 hp
          exact scanLoop_rule h r (n + 1) L' s' hx' hp'.2 (fun i => by
            constructor
            · intro hi
              exact ⟨((hm i).1 (by simp [hi])).1, hp'.1 i hi⟩
            · rintro ⟨h1, h2⟩
              rcases List.mem_cons.1 ((hm i).2 ⟨h1, by omega⟩) with e | e
              · omega
              · exact e) hn' (e2 rfl)
      · rw [if_neg hs]
        have he : ¬ToExport cfg n := fun h' => hs ((scannable_iff ha).2 h')
        exact scanLoop_rule h r (n + 1) L _ hx' hp (fun i => by
          rw [hm i]
          constructor
          · rintro ⟨h1, h2⟩
            refine ⟨h1, ?_⟩
            by_cases e : i = n
            · subst e; exact absurd h1 he
            · omega
          · rintro ⟨h1, h2⟩
            exact ⟨h1, by omega⟩) hn' hG1

theorem scanAll_rule (h : ScanRule cfg ops G F) {L : List Nat} {s : σ} (hp : L.Pairwise (· < ·)) (hm : ∀ i, i ∈ L ↔ ToExport cfg i) (hG : G L s) :
    ∃ x, scanAll cfg ops s = .ok x ∧ ScanEnds G F x := by
  obtain ⟨x, h1, h2⟩ := scanLoop_rule h cfg.areas 0 L s (fun k a hk => by rw [Nat.zero_add]; exact hk) hp (fun i => by rw [hm i]; simp) (by omega) hG
  refine ⟨scanEnd ops x, ?_, h2.fin h⟩
  unfold scanAll Config.numbered
  rw [List.range_eq_range', h1]; rfl

theorem eraseDups_filter_cons (i : Nat) (T : List Nat) : (i :: T).eraseDups = i :: (T.filter (· != i)).eraseDups := by
  rw [List.eraseDups_cons]
  rfl

theorem not_mem_filter_eraseDups (i : Nat) (T : List Nat) : i ∉ (T.filter (· != i)).eraseDups := by
  intro h
  have := List.mem_eraseDups.1 h
  have := (List.mem_filter.1 this).2
  simp at this

theorem listLoop_rule (h : ScanRule cfg ops G F) {name : Str → Except UB (Option Nat)} {of : Str → Option Nat} : ∀ (ls : List Str) (seen L : List Nat) (s : σ),
    (∀ l ∈ ls, name l = .ok (of l)) → (∀ l ∈ ls, ∀ i, of l = some i → i < cfg.areas.length) →
    L.Sublist ((ls.filterMap of).filter (· ∉ seen)).eraseDups → (∀ i ∈ ls.filterMap of, i ∉ seen → (i ∈ L ↔ ToExport cfg i)) → G L s →
    ∃ x, listLoop cfg ops name ls seen s = .ok x ∧ LoopEnds ops G F x
  | [], seen, L, s, _, _, hs, _, hG => by
    simp only [List.filterMap_nil, List.filter_nil, List.eraseDups_nil] at hs
    rw [List.sublist_nil] at hs
    subst hs
    exact ⟨(true, s), rfl, .inl ⟨rfl, hG⟩⟩
  | l :: ls, seen, L, s, hn, hb, hs, hm, hG => by
    unfold listLoop
    have hG1 := h.look hG
    have hn' : ∀ l ∈ ls, name l = .ok (of l) := fun x hx => hn x (by simp [hx])
    have hb' : ∀ l ∈ ls, ∀ i, of l = some i → i < cfg.areas.length := fun x hx => hb x (by simp [hx])
    cases hc : (ops.ctrlc s).1 with
    | true =>
      refine ⟨(true, (ops.ctrlc s).2), ?_, .inr (.inl ⟨rfl, h.sticky s hc, L, hG1⟩)⟩
      show (if (ops.ctrlc s).1 = true then _ else _) = _
      rw [hc]; rfl
    | false =>
      show ∃ x, (if (ops.ctrlc s).1 = true then _ else _ : Except JErr (Bool × σ)) = .ok x ∧ _
      rw [hc, if_neg (by decide), hn l (by simp)]
      match ho : of l with
      | none =>
        rw [List.filterMap_cons_none ho] at hs hm
        exact listLoop_rule h ls seen L _ hn' hb' hs hm hG1
      | some i =>
        rw [List.filterMap_cons_some ho] at hs hm
        show ∃ x, (if i ∈ seen then _ else _ : Except JErr (Bool × σ)) = .ok x ∧ _
        by_cases hi : i ∈ seen
        · rw [if_pos hi]
          rw [List.filter_cons_of_neg (by simpa using hi)] at hs
          exact listLoop_rule h ls seen L _ hn' hb' hs (fun j hj => hm j (by simp [hj])) hG1
        · rw [if_neg hi]
          rw [List.filter_cons_of_pos (by simpa using hi), eraseDups_filter_cons] at hs
          have hlt := hb l (by simp) i ho
          have hlook : cfg.areas[i]? = some cfg.areas[i] := List.getElem?_eq_getElem hlt
          have hfil : ((ls.filterMap of).filter (· ∉ seen)).filter (· != i) = (ls.filterMap of).filter (· ∉ i :: seen) := by
            rw [List.filter_filter]
            apply List.filter_congr
            intro j _
            simp only [List.mem_cons, not_or, bne, Bool.decide_and, decide_not]
            congr 1
          have hno := not_mem_filter_eraseDups i ((ls.filterMap of).filter (· ∉ seen))
          rw [hfil] at hs hno
          have hmi := hm i (by simp) hi
          rw [hlook]
          show ∃ x, (if scannable cfg cfg.areas[i] = true then _ else _ : Except JErr (Bool × σ)) = .ok x ∧ _
          by_cases hsc : scannable cfg cfg.areas[i] = true
          · rw [if_pos hsc]
            have hin : i ∈ L := hmi.2 ((scannable_iff hlook).1 hsc)
            obtain ⟨L', rfl, hs'⟩ : ∃ L', L = i :: L' ∧ L'.Sublist ((ls.filterMap of).filter (· ∉ i :: seen)).eraseDups := by
              cases hs with
              | cons _ hs => exact absurd (hs.subset hin) hno
              | cons_cons _ hs => exact ⟨_, rfl, hs⟩
            obtain ⟨ok, s', e1, e2, e3⟩ := h.exp hlook hG1
            rw [e1]
            cases ok with
            | false => exact ⟨(false, s'), rfl, .inr (.inr ⟨rfl, e3 rfl⟩)⟩
            | true =>
              refine listLoop_rule h ls (i :: seen) L' s' hn' hb' hs' (fun j hj hjs => ?_) (e2 rfl)
              simp only [List.mem_cons, not_or] at hjs
              rw [← hm j (by simp [hj]) hjs.2]
              simp [hjs.1]
          · rw [if_neg hsc]
            have hni : i ∉ L := fun h' => hsc ((scannable_iff hlook).2 (hmi.1 h'))
            have hs' : L.Sublist ((ls.filterMap of).filter (· ∉ i :: seen)).eraseDups := by
              cases hs with
              | cons _ hs => exact hs
              | cons_cons _ hs => exact absurd (by simp) hni
            exact listLoop_rule h ls (i :: seen) L _ hn' hb' hs' (fun j hj hjs => hm j (by simp [hj]) (fun e => hjs (by simp [e]))) hG1

end

/-! ## Lists of areas -/

theorem scanLines_go (ls : List Str) (h : ∀ l ∈ ls, ListLine l) (n : Nat) (hn : (scanFile ls).length ≤ n) : fileLines 100 n (scanFile ls) = ls.map (· ++ [10]) := by
  induction ls generalizing n with
  | nil => cases n <;> rfl
  | cons l ls ih =>
    have hl := h l (by simp)
    have e : scanFile (l :: ls) = l ++ 10 :: scanFile ls := by
      show (l ++ [10]) ++ scanFile ls = _
      simp
    rw [e] at hn ⊢
    simp only [List.length_append, List.length_cons] at hn
    obtain ⟨n, rfl⟩ := Nat.exists_eq_add_one_of_ne_zero (show n ≠ 0 by omega)
    obtain ⟨t, c, rfl, hc, hc2⟩ := hl.last
    have hraw : fgetsRaw (100 - 1) (t ++ [c] ++ 10 :: scanFile ls) = (t ++ [c] ++ [10], scanFile ls) := by
      have := fgetsRaw_line (t ++ [c]) (scanFile ls) (100 - 1) hl.noLf (by have := hl.len; omega)
      simpa using this
    have hnn : NoNul (t ++ [c] ++ [10]) := by
      intro hm
      rcases List.mem_append.1 hm with hm | hm
      · exact hl.noNul hm
      · simp at hm
    have hfix : fixCrLf (t ++ [c] ++ [10]) = t ++ [c] ++ [10] := by
      unfold fixCrLf
      rw [if_neg]
      rintro ⟨_, _, h3⟩
      rw [List.dropLast_append_of_ne_nil (by simp)] at h3
      simp at h3
      rw [h3] at hc
      exact absurd hc (by decide)
    unfold fileLines osFGets
    rw [if_neg (by simp), hraw]
    dsimp only
    rw [cstr_all _ hnn, hfix]
    rw [if_neg (by simp), ih (fun x hx => h x (by simp [hx])) n (by omega)]
    rfl

theorem scanLines (ls : List Str) (h : ∀ l ∈ ls, ListLine l) : fileLines 100 (scanFile ls).length (scanFile ls) = ls.map (· ++ [10]) :=
  scanLines_go ls h _ (Nat.le_refl _)

theorem below33_of_gt {c : UInt8} (h : 32 < c) (h2 : c < 128) : below33 c = false := by
  revert h h2
  revert c
  decide +kernel

theorem striptrail_listLine {l : Str} (h : ListLine l) : striptrail (l ++ [10]) = .ok l ∧ striptrail l = .ok l ∧ l ≠ [] := by
  obtain ⟨t, c, rfl, hc, hc2⟩ := h.last
  have hb := below33_of_gt hc hc2
  refine ⟨(striptrail_iff _ _).2 ⟨[10], rfl, by decide, c, by simp, hb⟩, (striptrail_iff _ _).2 ⟨[], by simp, by simp, c, by simp, hb⟩, by simp⟩

theorem scanTag_line (cfg : Config) {l : Str} (h : ListLine l) : scanTag cfg (l ++ [10]) = .ok (cfg.areas.findIdx? fun a => eqi a.tag l) := by
  obtain ⟨h1, h2, h3⟩ := striptrail_listLine h
  unfold scanTag
  rw [h1]
  show (if l ≠ [] then _ else _) = _
  rw [if_pos h3, h2]
  rfl

theorem scanPath_line (cfg : Config) {l : Str} (h : ListLine l) : scanPath cfg (l ++ [10]) = .ok (cfg.areas.findIdx? fun a => eqi a.path (l.takeWhile (· != 32))) := by
  obtain ⟨h1, h2, h3⟩ := striptrail_listLine h
  unfold scanPath
  rw [h1]
  show (if l ≠ [] then _ else _) = _
  rw [if_pos h3, h2]
  rfl

end CM
