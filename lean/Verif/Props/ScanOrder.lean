import Verif.Props.Scan

/-! # Which areas are scanned, whatever their message bases are (C79) -/

set_option linter.unusedSimpArgs false

namespace CM

/-- The same operations, with a list of the areas that have been exported. -/
def noting {σ : Type} (ops : ScanOps σ) : ScanOps (σ × List Nat) where
  exp i a s := do
    let r ← ops.exp i a s.1
    return (r.1, r.2, s.2 ++ [i])
  ctrlc s := ((ops.ctrlc s.1).1, (ops.ctrlc s.1).2, s.2)

/-- Message bases that keep in order: whatever is exported, `I` remains true and nothing goes wrong. Ctrl-C stays pressed. -/
structure KeepsOrder {σ : Type} (cfg : Config) (ops : ScanOps σ) (I : σ → Prop) : Prop where
  exp : ∀ {i a s}, cfg.areas[i]? = some a → ToExport cfg i → I s → ∃ ok s', ops.exp i a s = .ok (ok, s') ∧ I s'
  look : ∀ {s}, I s → I (ops.ctrlc s).2
  sticky : ∀ s, (ops.ctrlc s).1 = true → (ops.ctrlc (ops.ctrlc s).2).1 = true

/-- How a run ends: each of the areas `L` has been exported once, in this order, and no other; or the run has failed, and this holds for some of the
first of them. -/
def ScannedInOrder {σ : Type} (I : σ → Prop) (L : List Nat) (x : Bool × σ × List Nat) : Prop :=
  I x.2.1 ∧ x.2.2 <+: L ∧ (x.1 = true → x.2.2 = L)

section
variable {σ : Type} {cfg : Config} {ops : ScanOps σ} {I : σ → Prop} {L : List Nat}

theorem noting_rule (h : KeepsOrder cfg ops I) (hL : ∀ i ∈ L, ToExport cfg i) :
    ScanRule cfg (noting ops) (fun R s => I s.1 ∧ s.2 ++ R = L) (fun s => I s.1 ∧ s.2 <+: L) where
  look := fun ⟨h1, h2⟩ => ⟨h.look h1, h2⟩
  exp := by
    rintro i R a s ha ⟨h1, h2⟩
    obtain ⟨ok, s', e, hI⟩ := h.exp ha (hL i (by rw [← h2]; simp)) h1
    refine ⟨ok, (s', s.2 ++ [i]), ?_, fun _ => ⟨hI, by rw [← h2]; simp⟩, fun _ => ⟨hI, ⟨R, by rw [← h2]; simp⟩⟩⟩
    show (ops.exp i a s.1 >>= _ : Except JErr _) = _
    rw [e]; rfl
  sticky := fun s hs => h.sticky s.1 hs

theorem ends_scannedInOrder {x : Bool × σ × List Nat} (h : ScanEnds (fun R s => I s.1 ∧ s.2 ++ R = L) (fun s => I s.1 ∧ s.2 <+: L) x) : ScannedInOrder I L x := by
  rcases h with ⟨_, h2, h3⟩ | ⟨h1, ⟨h2, h3⟩ | ⟨R, h2, h3⟩⟩
  · rw [List.append_nil] at h3
    exact ⟨h2, ⟨[], by rw [h3, List.append_nil]⟩, fun _ => h3⟩
  · exact ⟨h2, h3, fun e => by rw [h1] at e; cases e⟩
  · exact ⟨h2, ⟨R, h3⟩, fun e => by rw [h1] at e; cases e⟩

/-- **C79.** `SCAN` exports exactly the areas to be exported, each once, in the order of the configuration, whatever their message bases are. -/
theorem scan_order (h : KeepsOrder cfg ops I) (hp : L.Pairwise (· < ·)) (hm : ∀ i, i ∈ L ↔ ToExport cfg i) {s : σ} (hs : I s) :
    ∃ x, scanAll cfg (noting ops) (s, []) = .ok x ∧ ScannedInOrder I L x := by
  obtain ⟨x, h1, h2⟩ := scanAll_rule (noting_rule h fun i hi => (hm i).1 hi) hp hm (s := (s, [])) ⟨hs, rfl⟩
  exact ⟨x, h1, ends_scannedInOrder h2⟩

/-- **C79.** `SCANLIST` exports exactly the areas that are named in the file and to be exported, each once, in the order of the file. -/
theorem scan_list_order (h : KeepsOrder cfg ops I) {ls : List Str} {of : Str → Option Nat} (hls : ∀ l ∈ ls, ListLine l)
    (hL : ListAreas cfg (fun l a => eqi a.tag l = true) of ls L) {s : σ} (hs : I s) :
    ∃ x, scanList cfg (noting ops) (scanFile ls) (s, []) = .ok x ∧ ScannedInOrder I L x := by
  obtain ⟨x, h1, h2⟩ := list_scanned (noting_rule h fun i hi => ((hL.mem i).1 hi).2) (q := fun l a => eqi a.tag l) (name := scanTag cfg)
    (fun l hl => scanTag_line cfg (hls l hl)) hls hL (s := (s, [])) ⟨hs, rfl⟩
  exact ⟨x, h1, ends_scannedInOrder h2⟩

/-- **C79.** `SCANDOTJAM` exports exactly the areas whose paths are in the file and that are to be exported, each once, in the order of the file. -/
theorem scan_dotjam_order (h : KeepsOrder cfg ops I) {ls : List Str} {of : Str → Option Nat} (hls : ∀ l ∈ ls, ListLine l)
    (hL : ListAreas cfg (fun l a => eqi a.path (l.takeWhile (· != 32)) = true) of ls L) {s : σ} (hs : I s) :
    ∃ x, scanDotJam cfg (noting ops) (scanFile ls) (s, []) = .ok x ∧ ScannedInOrder I L x := by
  obtain ⟨x, h1, h2⟩ := list_scanned (noting_rule h fun i hi => ((hL.mem i).1 hi).2) (q := fun l a => eqi a.path (l.takeWhile (· != 32))) (name := scanPath cfg)
    (fun l hl => scanPath_line cfg (hls l hl)) hls hL (s := (s, [])) ⟨hs, rfl⟩
  exact ⟨x, h1, ends_scannedInOrder h2⟩

end

/-- Noting the areas changes nothing else. -/
theorem noting_forget {σ : Type} (cfg : Config) (ops : ScanOps σ) (s : σ) (t : List Nat) (x : Bool × σ × List Nat)
    (h : scanAll cfg (noting ops) (s, t) = .ok x) : scanAll cfg ops s = .ok (x.1, x.2.1) := by
  have key : ∀ (l : List (Nat × Area)) (s : σ) (t : List Nat) (x : Bool × σ × List Nat), scanLoop cfg (noting ops) l (s, t) = .ok x →
      scanLoop cfg ops l s = .ok (x.1, x.2.1) := by
    intro l
    induction l with
    | nil => intro s t x h; cases h; rfl
    | cons y l ih =>
      obtain ⟨i, a⟩ := y
      intro s t x h
      have h' : (if (ops.ctrlc s).1 = true then (.ok (true, (ops.ctrlc s).2, t) : Except JErr (Bool × σ × List Nat))
        else if scannable cfg a = true then (noting ops).exp i a ((ops.ctrlc s).2, t) >>= fun r =>
            if r.1 = true then scanLoop cfg (noting ops) l r.2 else .ok (false, r.2)
          else scanLoop cfg (noting ops) l ((ops.ctrlc s).2, t)) = .ok x := h
      show (if (ops.ctrlc s).1 = true then (.ok (true, (ops.ctrlc s).2) : Except JErr (Bool × σ))
        else if scannable cfg a = true then ops.exp i a (ops.ctrlc s).2 >>= fun r =>
            if r.1 = true then scanLoop cfg ops l r.2 else .ok (false, r.2)
          else scanLoop cfg ops l (ops.ctrlc s).2) = _
      by_cases hc : (ops.ctrlc s).1 = true
      · rw [if_pos hc] at h' ⊢
        cases h'
        rfl
      · rw [if_neg hc] at h' ⊢
        by_cases hs : scannable cfg a = true
        · rw [if_pos hs] at h' ⊢
          cases hr : ops.exp i a (ops.ctrlc s).2 with
          | error e =>
            have : (noting ops).exp i a ((ops.ctrlc s).2, t) = .error e := by
              show (ops.exp i a (ops.ctrlc s).2 >>= _ : Except JErr _) = _
              rw [hr]; rfl
            rw [this] at h'
            cases h'
          | ok r =>
            have : (noting ops).exp i a ((ops.ctrlc s).2, t) = .ok (r.1, r.2, t ++ [i]) := by
              show (ops.exp i a (ops.ctrlc s).2 >>= _ : Except JErr _) = _
              rw [hr]; rfl
            rw [this] at h'
            have h2 : (if r.1 = true then scanLoop cfg (noting ops) l (r.2, t ++ [i]) else .ok (false, r.2, t ++ [i])) = .ok x := h'
            show (if r.1 = true then scanLoop cfg ops l r.2 else .ok (false, r.2)) = _
            by_cases ho : r.1 = true
            · rw [if_pos ho] at h2 ⊢
              exact ih _ _ _ h2
            · rw [if_neg ho] at h2 ⊢
              cases h2
              rfl
        · rw [if_neg hs] at h' ⊢
          exact ih _ _ _ h'
  unfold scanAll at h ⊢
  cases hl : scanLoop cfg (noting ops) cfg.numbered (s, t) with
  | error e => rw [hl] at h; cases h
  | ok y =>
    rw [hl] at h
    rw [key _ _ _ _ hl]
    have h' : scanEnd (noting ops) y = x := by cases h; rfl
    show (.ok (scanEnd ops (y.1, y.2.1)) : Except JErr (Bool × σ)) = _
    rw [← h']
    unfold scanEnd
    obtain ⟨ok, y1, y2⟩ := y
    cases ok <;> rfl

namespace Ex

/-- Message bases of two kinds: the export from the areas with an even number takes one step; from the others it fails if no step is left. Ctrl-C is pressed
after `7` steps. -/
def orderOps : ScanOps Nat where
  exp i _ n := .ok (i % 2 == 0 || n != 0, n - 1)
  ctrlc n := (n == 7, n)

theorem orderOps_keeps : KeepsOrder scCfg orderOps fun _ => True :=
  ⟨fun _ _ _ => ⟨_, _, rfl, trivial⟩, fun _ => trivial, fun _ h => h⟩

/-- The conditions are met, and every outcome occurs: all areas, a failure in the second one, and Ctrl-C after the first. -/
theorem order_case : KeepsOrder scCfg orderOps (fun _ => True) ∧ ([3, 5] : List Nat).Pairwise (· < ·) ∧ (∀ i, i ∈ [3, 5] ↔ ToExport scCfg i) ∧
    (scanAll scCfg (noting orderOps) (5, [])).toOption = some (true, 3, [3, 5]) ∧ (scanAll scCfg (noting orderOps) (1, [])).toOption = some (false, 0, [3, 5]) ∧
    (scanAll scCfg (noting orderOps) (0, [])).toOption = some (false, 0, [3]) ∧ (scanAll scCfg (noting orderOps) (8, [])).toOption = some (false, 7, [3]) :=
  ⟨orderOps_keeps, by decide, scToExport, by decide +kernel, by decide +kernel, by decide +kernel, by decide +kernel⟩

/-- The same for a list of areas. -/
theorem order_list : (scanList scCfg (noting orderOps) b!"more\nTEST\nMINE\nNONE\nMore  \n" (5, [])).toOption = some (true, 3, [5, 3]) := by decide +kernel

end Ex

end CM
