import Verif.Props.Outbound
import Verif.Props.Nodelist
/-! # C40: flow files -/

set_option linter.unusedSimpArgs false

namespace CM

/-- A file name that can be told from the marks of a flow file. -/
structure FlowName (f : Str) : Prop where
  ne : f ≠ []
  noMark : ∀ c, f.head? = some c → c ≠ 35 ∧ c ≠ 126 ∧ c ≠ 94 ∧ c ≠ 45
  last : ∀ c, f.getLast? = some c → 33 ≤ c.toNat ∧ c.toNat < 128

/-- A line of a flow file: short enough for the buffer, with something to see in it. -/
structure FlowText (l : Str) : Prop where
  noNul : (0 : UInt8) ∉ l
  noLf : (10 : UInt8) ∉ l
  short : l.length ≤ 198
  seen : ∃ c ∈ l, 33 ≤ c.toNat ∧ c.toNat < 128

theorem below33_iff (c : UInt8) : below33 c = true ↔ c.toNat < 33 ∨ 128 ≤ c.toNat := by
  have : ∀ c : UInt8, below33 c = true ↔ c.toNat < 33 ∨ 128 ≤ c.toNat := by decide +kernel
  exact this c

theorem below33_not (c : UInt8) : below33 c = false ↔ 33 ≤ c.toNat ∧ c.toNat < 128 := by
  have : ∀ c : UInt8, below33 c = false ↔ 33 ≤ c.toNat ∧ c.toNat < 128 := by decide +kernel
  exact this c

theorem striptrail_seen {l : Str} (h : ∃ c ∈ l, 33 ≤ c.toNat ∧ c.toNat < 128) : ∃ t, striptrail l = .ok t := by
  suffices ∃ t tail, l = t ++ tail ∧ (∀ c ∈ tail, below33 c = true) ∧ ∃ c, t.getLast? = some c ∧ below33 c = false by
    obtain ⟨t, r⟩ := this
    exact ⟨t, (striptrail_iff _ _).2 r⟩
  induction l using snocInd with
  | nil => simp at h
  | snoc l c ih =>
    by_cases hc : below33 c = true
    · obtain ⟨t, tail, rfl, h1, h2⟩ := ih (by
        obtain ⟨x, hx, hv⟩ := h
        simp only [List.mem_append, List.mem_singleton] at hx
        rcases hx with hx | rfl
        · exact ⟨x, hx, hv⟩
        · rw [below33_iff] at hc; omega)
      refine ⟨t, tail ++ [c], by simp, ?_, h2⟩
      intro x hx
      simp only [List.mem_append, List.mem_singleton] at hx
      rcases hx with hx | rfl
      · exact h1 x hx
      · exact hc
    · exact ⟨l ++ [c], [], by simp, by simp, c, by simp, by simpa using hc⟩

/-- What the marks are. -/
theorem sublist_marks {m : Str} (h : m.Sublist b!"#~^-") :
    ∃ a b c d : Bool, m = (if a then [35] else []) ++ (if b then [126] else []) ++ (if c then [94] else []) ++ (if d then [45] else []) := by
  have step : ∀ (x : UInt8) (t m : Str), m.Sublist (x :: t) → ∃ (a : Bool) (m' : Str), m'.Sublist t ∧ m = (if a then [x] else []) ++ m' := by
    intro x t m h
    cases h with
    | cons _ h => exact ⟨false, m, h, rfl⟩
    | cons_cons _ h => exact ⟨true, _, h, rfl⟩
  obtain ⟨a, m1, h1, rfl⟩ := step _ _ _ h
  obtain ⟨b, m2, h2, rfl⟩ := step _ _ _ h1
  obtain ⟨c, m3, h3, rfl⟩ := step _ _ _ h2
  obtain ⟨d, m4, h4, rfl⟩ := step _ _ _ h3
  rw [List.sublist_nil.1 h4]
  exact ⟨a, b, c, d, by simp⟩

theorem marks_sublist (a b c d : Bool) :
    ((if a then [35] else []) ++ (if b then [126] else []) ++ (if c then [94] else []) ++ (if d then [45] else []) : Str).Sublist b!"#~^-" := by
  cases a <;> cases b <;> cases c <;> cases d <;> decide

/-- Removing one mark. -/
def unmark (x : UInt8) (s : Str) : Str := if s.head? = some x then s.drop 1 else s

theorem unmark_cases (x : UInt8) (s : Str) : ∃ a : Bool, s = (if a then [x] else []) ++ unmark x s := by
  unfold unmark
  by_cases h : s.head? = some x
  · rw [if_pos h]
    cases s with
    | nil => simp at h
    | cons c t => simp at h; subst h; exact ⟨true, rfl⟩
  · rw [if_neg h]; exact ⟨false, rfl⟩

theorem unmark_opt (x : UInt8) (a : Bool) (s : Str) (h : s.head? ≠ some x) : unmark x ((if a then [x] else []) ++ s) = s := by
  cases a <;> simp [unmark, h]

theorem flowEntry_eq (line : Str) : flowEntry line = (striptrail line).map fun s => unmark 45 (unmark 94 (unmark 126 (unmark 35 s))) := by
  unfold flowEntry
  cases striptrail line <;> rfl

theorem lower_marks (c : UInt8) : (lower c = 35 ↔ c = 35) ∧ (lower c = 126 ↔ c = 126) ∧ (lower c = 94 ↔ c = 94) ∧ (lower c = 45 ↔ c = 45) := by
  have : ∀ c : UInt8, (lower c = 35 ↔ c = 35) ∧ (lower c = 126 ↔ c = 126) ∧ (lower c = 94 ↔ c = 94) ∧ (lower c = 45 ↔ c = 45) := by
    decide +kernel
  exact this c

theorem lower_seen (c : UInt8) : (33 ≤ (lower c).toNat ∧ (lower c).toNat < 128) ↔ (33 ≤ c.toNat ∧ c.toNat < 128) := by
  have : ∀ c : UInt8, (33 ≤ (lower c).toNat ∧ (lower c).toNat < 128) ↔ (33 ≤ c.toNat ∧ c.toNat < 128) := by decide +kernel
  exact this c

theorem FlowName.eqi {f g : Str} (hf : FlowName f) (h : g.map lower = f.map lower) : FlowName g := by
  have hne : g ≠ [] := by
    rintro rfl
    exact hf.ne (by simpa using h.symm)
  refine ⟨hne, ?_, ?_⟩
  · intro c hc
    have e : (g.map lower).head? = some (lower c) := by rw [List.head?_map, hc]; rfl
    rw [h, List.head?_map, Option.map_eq_some_iff] at e
    obtain ⟨d, hd, e⟩ := e
    have := hf.noMark d hd
    have l1 := lower_marks c
    have l2 := lower_marks d
    rw [e] at l2
    refine ⟨?_, ?_, ?_, ?_⟩ <;> (intro h; simp_all)
  · intro c hc
    have e : (g.map lower).getLast? = some (lower c) := by rw [List.getLast?_map, hc]; rfl
    rw [h, List.getLast?_map, Option.map_eq_some_iff] at e
    obtain ⟨d, hd, e⟩ := e
    rw [← lower_seen, ← e, lower_seen]
    exact hf.last d hd

/-- The comparison finds exactly the lines that name the file. -/
theorem flowEntry_lists (line e f : Str) (hf : FlowName f) (h : flowEntry line = .ok e) : CM.eqi e f = true ↔ Lists line f := by
  rw [flowEntry_eq] at h
  cases hs : striptrail line with
  | error x => rw [hs] at h; simp [Except.map] at h
  | ok s =>
    rw [hs] at h
    simp only [Except.map, Except.ok.injEq] at h
    obtain ⟨tail, rfl, ht, hl⟩ := (striptrail_iff _ _).1 hs
    rw [eqi_iff]
    constructor
    · intro he
      obtain ⟨a, ea⟩ := unmark_cases 35 s
      obtain ⟨b, eb⟩ := unmark_cases 126 (unmark 35 s)
      obtain ⟨c, ec⟩ := unmark_cases 94 (unmark 126 (unmark 35 s))
      obtain ⟨d, ed⟩ := unmark_cases 45 (unmark 94 (unmark 126 (unmark 35 s)))
      rw [h] at ed
      refine ⟨_, e, tail, ?_, marks_sublist a b c d, he, fun x hx => (below33_iff x).1 (ht x hx)⟩
      rw [List.append_assoc _ e tail]
      conv => lhs; rw [ea, eb, ec, ed]
      simp only [List.append_assoc]
    · rintro ⟨m, name, tail', e1, hm, he, ht'⟩
      obtain ⟨a, b, c, d, rfl⟩ := sublist_marks hm
      have hn := hf.eqi he
      have hs' : striptrail (s ++ tail) = .ok ((if a then [35] else []) ++ (if b then [126] else []) ++ (if c then [94] else []) ++ (if d then [45] else []) ++ name) := by
        rw [striptrail_iff]
        refine ⟨tail', e1, fun x hx => (below33_iff x).2 (ht' x hx), ?_⟩
        obtain ⟨x, hx⟩ : ∃ x, name.getLast? = some x := ⟨_, List.getLast?_eq_some_getLast hn.ne⟩
        refine ⟨x, ?_, (below33_not x).2 (hn.last x hx)⟩
        rw [List.getLast?_append, hx]; rfl
      rw [hs] at hs'
      simp only [Except.ok.injEq] at hs'
      subst hs'
      obtain ⟨x, hx⟩ : ∃ x, name.head? = some x := by
        cases name with
        | nil => exact absurd rfl hn.ne
        | cons x _ => exact ⟨x, rfl⟩
      have n := hn.noMark x hx
      rw [← h]
      have : unmark 45 (unmark 94 (unmark 126 (unmark 35 ((if a then [35] else []) ++ (if b then [126] else []) ++ (if c then [94] else []) ++ (if d then [45] else []) ++ name)))) = name := by
        simp only [List.append_assoc]
        rw [unmark_opt, unmark_opt, unmark_opt, unmark_opt] <;>
          (cases a <;> cases b <;> cases c <;> cases d <;> simp [hx, n])
      rw [this]
      exact he

/-- A CR at the end does not matter. -/
theorem lists_dropCr (l f : Str) (hf : FlowName f) (h : l.getLast? = some 13) : Lists l.dropLast f ↔ Lists l f := by
  induction l using snocInd with
  | nil => simp at h
  | snoc l c =>
    simp only [List.getLast?_concat, Option.some.injEq] at h
    subst h
    rw [List.dropLast_concat]
    constructor
    · rintro ⟨m, n, t, rfl, h1, h2, h3⟩
      refine ⟨m, n, t ++ [13], by simp, h1, h2, ?_⟩
      intro x hx
      simp only [List.mem_append, List.mem_singleton] at hx
      rcases hx with hx | rfl
      · exact h3 x hx
      · left; decide
    · rintro ⟨m, n, t, e, h1, h2, h3⟩
      rcases List.eq_nil_or_concat t with rfl | ⟨t', y, rfl⟩
      · exfalso
        have hn := hf.eqi h2
        have e2 := congrArg List.getLast? e
        obtain ⟨x, hx⟩ : ∃ x, n.getLast? = some x := ⟨_, List.getLast?_eq_some_getLast hn.ne⟩
        rw [List.append_nil, List.getLast?_concat, List.getLast?_append, hx] at e2
        simp only [Option.some_or, Option.some.injEq] at e2
        subst e2
        have := hn.last _ hx
        simp at this
      · rw [List.concat_eq_append] at e h3
        rw [← List.append_assoc] at e
        have := List.append_inj' e rfl
        exact ⟨m, n, t', this.1, h1, h2, fun x hx => h3 x (by simp [hx])⟩

theorem lists_lf (l f : Str) (hf : FlowName f) : Lists (l ++ [10]) f ↔ Lists l f := by
  constructor
  · rintro ⟨m, n, t, e, h1, h2, h3⟩
    rcases List.eq_nil_or_concat t with rfl | ⟨t', y, rfl⟩
    · exfalso
      have hn := hf.eqi h2
      have e2 := congrArg List.getLast? e
      obtain ⟨x, hx⟩ : ∃ x, n.getLast? = some x := ⟨_, List.getLast?_eq_some_getLast hn.ne⟩
      rw [List.append_nil, List.getLast?_concat, List.getLast?_append, hx] at e2
      simp only [Option.some_or, Option.some.injEq] at e2
      subst e2
      have := hn.last _ hx
      simp at this
    · rw [List.concat_eq_append] at e h3
      rw [← List.append_assoc] at e
      have := List.append_inj' e rfl
      exact ⟨m, n, t', this.1, h1, h2, fun x hx => h3 x (by simp [hx])⟩
  · rintro ⟨m, n, t, rfl, h1, h2, h3⟩
    refine ⟨m, n, t ++ [10], by simp, h1, h2, ?_⟩
    intro x hx
    simp only [List.mem_append, List.mem_singleton] at hx
    rcases hx with hx | rfl
    · exact h3 x hx
    · left; decide

/-- Searching a flow file. -/
theorem flowHas_lines (f : Str) (hf : FlowName f) (ls : List Str) (hl : ∀ l ∈ ls, FlowText l) (n : Nat) (hn : ls.length ≤ n) :
    ∃ r, flowHas f (n + 1) (unlines ls) = .ok r ∧ (r = true ↔ ∃ l ∈ ls, Lists l f) := by
  induction ls generalizing n with
  | nil => exact ⟨false, by simp [unlines, flowHas, osFGets], by simp⟩
  | cons l ls ih =>
    have h1 := hl l (by simp)
    obtain ⟨m, rfl⟩ : ∃ m, n = m + 1 := ⟨n - 1, by simp at hn; omega⟩
    obtain ⟨r, hr, hrl⟩ := ih (fun x hx => hl x (by simp [hx])) m (by simp at hn; omega)
    have hg := osFGets_line l (unlines ls) 200 ⟨h1.noNul, h1.noLf, by have := h1.short; omega⟩ (by have := h1.short; omega)
    have eu : unlines (l :: ls) = l ++ 10 :: unlines ls := by simp [unlines]
    rw [eu, flowHas, hg]
    dsimp only
    generalize hk : (if l.getLast? = some 13 then l.dropLast else l) = k
    rw [if_neg (by simp)]
    have hkl : Lists (k ++ [10]) f ↔ Lists l f := by
      rw [lists_lf _ _ hf, ← hk]
      split
      · rename_i h; exact lists_dropCr l f hf h
      · rfl
    have hseen : ∃ c ∈ k ++ [10], 33 ≤ c.toNat ∧ c.toNat < 128 := by
      obtain ⟨c, hc, hv⟩ := h1.seen
      refine ⟨c, ?_, hv⟩
      rw [← hk]
      split
      · rename_i h
        induction l using snocInd with
        | nil => simp at hc
        | snoc l x =>
          simp only [List.getLast?_concat, Option.some.injEq] at h
          subst h
          simp only [List.mem_append, List.mem_singleton] at hc
          rcases hc with hc | rfl
          · simp [hc]
          · simp at hv
      · simp [hc]
    obtain ⟨t, ht⟩ := striptrail_seen hseen
    obtain ⟨e, he⟩ : ∃ e, flowEntry (k ++ [10]) = .ok e := by rw [flowEntry_eq, ht]; exact ⟨_, rfl⟩
    have key := flowEntry_lists _ e f hf he
    rw [hkl] at key
    rw [he]
    simp only [bind, Except.bind, pure, Except.pure]
    by_cases hq : CM.eqi e f = true
    · rw [if_pos hq]
      exact ⟨true, rfl, by simp [key.1 hq]⟩
    · rw [if_neg hq]
      refine ⟨r, hr, ?_⟩
      rw [hrl]
      have : ¬ Lists l f := fun h => hq (key.2 h)
      simp [this]

theorem length_unlines (ls : List Str) : ls.length ≤ (unlines ls).length := by
  induction ls with
  | nil => simp
  | cons l ls ih => simp [unlines] at *; omega

/-- The mark in front of a line that is added. -/
def flowMark : FlowMode → Str
  | .none => []
  | .trunc => [35]
  | .delete => [94]

/-- The line that is added, without the LF. -/
def flowText (crlf : Bool) (mode : FlowMode) (f : Str) : Str :=
  flowMark mode ++ f ++ if crlf then [13] else []

theorem flowText_lists (crlf : Bool) (mode : FlowMode) (f g : Str) (hg : FlowName g) (hf : FlowName f) :
    Lists (flowText crlf mode f) g ↔ f.map lower = g.map lower := by
  have hl : Lists (flowText crlf mode f) f := by
    refine ⟨flowMark mode, f, if crlf then [13] else [], rfl, ?_, rfl, ?_⟩
    · cases mode <;> decide
    · intro c hc
      cases crlf <;> simp at hc
      subst hc; left; decide
  constructor
  · intro h
    have hs : ∃ c ∈ flowText crlf mode f, 33 ≤ c.toNat ∧ c.toNat < 128 := by
      obtain ⟨x, hx⟩ : ∃ x, f.getLast? = some x := ⟨_, List.getLast?_eq_some_getLast hf.ne⟩
      exact ⟨x, by unfold flowText; simp [List.mem_of_getLast? hx], hf.last x hx⟩
    obtain ⟨t, ht⟩ := striptrail_seen hs
    obtain ⟨e, he⟩ : ∃ e, flowEntry (flowText crlf mode f) = .ok e := by rw [flowEntry_eq, ht]; exact ⟨_, rfl⟩
    have k1 := (eqi_iff _ _).1 ((flowEntry_lists _ e g hg he).2 h)
    have k2 := (eqi_iff _ _).1 ((flowEntry_lists _ e f hf he).2 hl)
    rw [← k1, k2]
  · intro h
    obtain ⟨m, n, t, e, h1, h2, h3⟩ := hl
    exact ⟨m, n, t, e, h1, h2.trans h, h3⟩

theorem unlines_add (ls : List Str) (crlf : Bool) (mode : FlowMode) (f : Str) :
    unlines ls ++ flowLine crlf mode f = unlines (ls ++ [flowText crlf mode f]) := by
  cases crlf <;> cases mode <;> simp [unlines, flowLine, flowText, flowMark]

/-- **C40.** Adding a file to a flow file: no line is lost or changed. If the file is listed already,
in whatever way, the flow file stays as it is; otherwise one line is added at the end, and it lists
the file and no other one. -/
theorem flow_add (crlf : Bool) (mode : FlowMode) (f : Str) (hf : FlowName f) (ls : List Str) (hl : ∀ l ∈ ls, FlowText l) :
    ((∃ l ∈ ls, Lists l f) → addFlow crlf mode f (unlines ls) = .ok (unlines ls)) ∧
    ((∀ l ∈ ls, ¬ Lists l f) → ∃ new, addFlow crlf mode f (unlines ls) = .ok (unlines (ls ++ [new])) ∧
      ∀ g, FlowName g → (Lists new g ↔ f.map lower = g.map lower)) := by
  obtain ⟨r, hr, hrl⟩ := flowHas_lines f hf ls hl (unlines ls).length (length_unlines ls)
  unfold addFlow
  rw [hr]
  simp only [bind, Except.bind, pure, Except.pure]
  constructor
  · intro h
    rw [if_pos (hrl.2 h)]
  · intro h
    have : ¬ r = true := fun e => by obtain ⟨l, hl, hx⟩ := hrl.1 e; exact h l hl hx
    rw [if_neg this, unlines_add]
    exact ⟨_, rfl, fun g hg => flowText_lists crlf mode f g hg hf⟩

/-- A flow line fits into the buffer. -/
structure FlowFits (f : Str) : Prop extends FlowName f where
  noNul : (0 : UInt8) ∉ f
  noLf : (10 : UInt8) ∉ f
  short : f.length ≤ 196

theorem FlowFits.text {f : Str} (hf : FlowFits f) (crlf : Bool) (mode : FlowMode) : FlowText (flowText crlf mode f) := by
  constructor
  · cases crlf <;> cases mode <;> simp [flowText, flowMark, hf.noNul]
  · cases crlf <;> cases mode <;> simp [flowText, flowMark, hf.noLf]
  · have := hf.short
    cases crlf <;> cases mode <;> simp [flowText, flowMark] <;> omega
  · obtain ⟨x, hx⟩ : ∃ x, f.getLast? = some x := ⟨_, List.getLast?_eq_some_getLast hf.ne⟩
    exact ⟨x, by unfold flowText; simp [List.mem_of_getLast? hx], hf.last x hx⟩

/-- Adding several files. -/
def addFlows (crlf : Bool) : List (FlowMode × Str) → Str → Except UB Str
  | [], s => .ok s
  | (m, f) :: r, s => (addFlow crlf m f s).bind (addFlows crlf r)

/-- **C40.** However many files are added, in however many runs: the flow file keeps all its lines in
front, every file added is listed, no file is listed by two of the new lines, and none that was listed
before is listed by a new one. -/
theorem flow_run (crlf : Bool) (fs : List (FlowMode × Str)) (hf : ∀ p ∈ fs, FlowFits p.2) (ls : List Str)
    (hl : ∀ l ∈ ls, FlowText l) :
    ∃ new, addFlows crlf fs (unlines ls) = .ok (unlines (ls ++ new)) ∧ (∀ l ∈ ls ++ new, FlowText l) ∧
      (∀ p ∈ fs, ∃ l ∈ ls ++ new, Lists l p.2) ∧
      (∀ l ∈ new, ∃ p ∈ fs, Lists l p.2) ∧
      (∀ g, FlowName g → (∃ l ∈ ls, Lists l g) → ∀ l ∈ new, ¬ Lists l g) ∧
      (∀ g, FlowName g → new.Pairwise fun l l' => ¬ (Lists l g ∧ Lists l' g)) := by
  induction fs generalizing ls with
  | nil => exact ⟨[], by simp [addFlows], by simpa using hl, by simp, by simp, by simp, by simp⟩
  | cons p fs ih =>
    obtain ⟨m, f⟩ := p
    have hf1 := hf (m, f) (by simp)
    dsimp only at hf1
    have hf2 := fun p hp => hf p (List.mem_cons_of_mem _ hp)
    by_cases hx : ∃ l ∈ ls, Lists l f
    · obtain ⟨new, h1, h2, h3, h4, h5, h6⟩ := ih hf2 ls hl
      refine ⟨new, ?_, h2, ?_, ?_, h5, h6⟩
      · rw [addFlows, (flow_add crlf m f hf1.toFlowName ls hl).1 hx]; exact h1
      · intro p hp
        simp only [List.mem_cons] at hp
        rcases hp with rfl | hp
        · obtain ⟨l, h, h'⟩ := hx; exact ⟨l, by simp [h], h'⟩
        · exact h3 p hp
      · intro l hl
        obtain ⟨p, hp, h⟩ := h4 l hl
        exact ⟨p, by simp [hp], h⟩
    · have hx' : ∀ l ∈ ls, ¬ Lists l f := fun l hl h => hx ⟨l, hl, h⟩
      have ha : addFlow crlf m f (unlines ls) = .ok (unlines (ls ++ [flowText crlf m f])) := by
        obtain ⟨r, hr, hrl⟩ := flowHas_lines f hf1.toFlowName ls hl (unlines ls).length (length_unlines ls)
        unfold addFlow
        rw [hr]
        simp only [bind, Except.bind, pure, Except.pure]
        rw [if_neg (fun e => hx (hrl.1 e)), unlines_add]
      have hl' : ∀ l ∈ ls ++ [flowText crlf m f], FlowText l := by
        intro l h
        simp only [List.mem_append, List.mem_singleton] at h
        rcases h with h | rfl
        · exact hl l h
        · exact hf1.text crlf m
      obtain ⟨new, h1, h2, h3, h4, h5, h6⟩ := ih hf2 _ hl'
      have li := fun g hg => flowText_lists crlf m f g hg hf1.toFlowName
      refine ⟨flowText crlf m f :: new, ?_, by simpa using h2, ?_, ?_, ?_, ?_⟩
      · rw [addFlows, ha]
        simpa [Except.bind] using h1
      · intro p hp
        simp only [List.mem_cons] at hp
        rcases hp with rfl | hp
        · exact ⟨flowText crlf m f, by simp, (li f hf1.toFlowName).2 rfl⟩
        · simpa using h3 p hp
      · intro l hl
        simp only [List.mem_cons] at hl
        rcases hl with rfl | hl
        · exact ⟨(m, f), by simp, (li f hf1.toFlowName).2 rfl⟩
        · obtain ⟨p, hp, h⟩ := h4 l hl
          exact ⟨p, by simp [hp], h⟩
      · rintro g hg ⟨l, hl, hlg⟩ l' hl'
        simp only [List.mem_cons] at hl'
        rcases hl' with rfl | hl'
        · rw [li g hg]
          intro e
          obtain ⟨m, n, t, e', h1, h2, h3⟩ := hlg
          exact hx' l hl ⟨m, n, t, e', h1, h2.trans e.symm, h3⟩
        · exact h5 g hg ⟨l, by simp [hl], hlg⟩ l' hl'
      · intro g hg
        rw [List.pairwise_cons]
        refine ⟨?_, h6 g hg⟩
        rintro l hl ⟨k1, k2⟩
        exact h5 g hg ⟨_, by simp, k1⟩ l hl k2

namespace Ex

/-- A flow file with an entry already sent. -/
example : addFlow true .trunc b!"/out/0000abcd.mo1" b!"~/out/0000ABCD.MO0\n^/f/x.zip\r\n" =
    .ok b!"~/out/0000ABCD.MO0\n^/f/x.zip\r\n#/out/0000abcd.mo1\r\n" ∧
    addFlow true .trunc b!"/out/0000abcd.mo0" b!"~/out/0000ABCD.MO0\n" = .ok b!"~/out/0000ABCD.MO0\n" ∧
    (∀ l ∈ [b!"~/out/0000ABCD.MO0", b!"^/f/x.zip\r"], FlowText l) ∧ FlowFits b!"/out/0000abcd.mo1" ∧
    unlines [b!"~/out/0000ABCD.MO0", b!"^/f/x.zip\r"] = b!"~/out/0000ABCD.MO0\n^/f/x.zip\r\n" := by
  refine ⟨by decide +kernel, by decide +kernel, ?_, ⟨⟨by decide +kernel, by decide +kernel, by decide +kernel⟩, by decide +kernel, by decide +kernel, by decide +kernel⟩, by decide +kernel⟩
  intro l hl
  simp only [List.mem_cons, List.not_mem_nil, or_false] at hl
  rcases hl with rfl | rfl <;> exact ⟨by decide +kernel, by decide +kernel, by decide +kernel, by decide +kernel⟩

/-- C40 (violated) for a flow file whose last line is not complete: the new entry is joined to the
last one, and neither file is listed. -/
theorem flow_joined : addFlow false .delete b!"/out/b.mo0" b!"^/out/a.mo0" = .ok b!"^/out/a.mo0^/out/b.mo0\n" ∧
    flowHas b!"/out/a.mo0" 10 b!"^/out/a.mo0^/out/b.mo0\n" = .ok false ∧
    flowHas b!"/out/b.mo0" 10 b!"^/out/a.mo0^/out/b.mo0\n" = .ok false := by
  refine ⟨by decide +kernel, by decide +kernel, by decide +kernel⟩

/-- C40 (violated) for a flow file with an empty line: the bytes before the buffer are read. -/
theorem flow_blank : addFlow false .delete b!"/out/b.mo0" b!"\n" = .error .oobRead := by decide +kernel

/-- C40 (violated) where the case of letters matters: the file is not added as another one is listed. -/
theorem flow_case : addFlow false .delete b!"/out/B.mo0" b!"^/OUT/b.MO0\n" = .ok b!"^/OUT/b.MO0\n" := by decide +kernel

end Ex

end CM
