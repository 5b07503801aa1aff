import Verif.Spec.LogFile

/-! # The log keeps what the runs have written (C120) -/

set_option linter.unusedSimpArgs false

namespace CM

/-- A history from its end. -/
inductive LogRuns (s0 : LogSys) : List LogEvent → LogSys → Prop where
  | nil : LogRuns s0 [] s0
  | snoc {evs s e s'} : LogRuns s0 evs s → logStep s e = some s' → LogRuns s0 (evs ++ [e]) s'

theorem logRuns_of {s0 : LogSys} {evs : List LogEvent} {s : LogSys} (h : logRun s0 evs = some s) : LogRuns s0 evs s := by
  have key : ∀ (l p : List LogEvent) (t : LogSys), LogRuns s0 p t → List.foldlM logStep t l = some s → LogRuns s0 (p ++ l) s := by
    intro l
    induction l with
    | nil => intro p t h1 h2; cases h2; rwa [List.append_nil]
    | cons e l ih =>
      intro p t h1 h2
      rw [List.foldlM_cons] at h2
      cases he : logStep t e with
      | none => rw [he] at h2; cases h2
      | some t' =>
        rw [he] at h2
        have := ih (p ++ [e]) t' (.snoc h1 he) h2
        rwa [List.append_assoc] at this
  exact key evs [] s0 .nil h

/-- The run holds the lock. -/
def LogPhase.holds : LogPhase → Bool
  | .locked | .shut | .opn true _ _ => true
  | _ => false

/-- The run an event belongs to. -/
def LogEvent.run : LogEvent → Option Nat
  | .lock i | .opens i | .say i _ | .flush i _ | .unlock i | .close i | .shut i | .fail i | .kill i => some i
  | .free => none

/-- What is known about one run. -/
structure LogAt (evs : List LogEvent) (i : Nat) (p : LogPhase) (t : Data) : Prop where
  held : p.holds = true → .lock i ∈ evs
  left : (.unlock i ∈ evs ∨ .fail i ∈ evs ∨ .kill i ∈ evs) → p.holds = false ∧ p ≠ .waiting
  leaving : ∀ q b, p = .opn false q b → .unlock i ∈ evs
  gone : (.close i ∈ evs ∨ .kill i ∈ evs ∨ .shut i ∈ evs) → ∀ l q b, p ≠ .opn l q b
  before : p = .waiting ∨ p = .locked → i ∉ logOpened evs ∧ logSaid i evs = [] ∧ t = [] ∧ ¬ LogEnded i evs
  pre : t <+: logSaid i evs
  ended : LogEnded i evs → t = logSaid i evs
  buf : ∀ l q b, p = .opn l q b → logSaid i evs = t ++ b

structure LogInv (f0 : Data) (evs : List LogEvent) (s : LogSys) (T : Nat → Data) : Prop where
  runs : ∀ i, LogAt evs i (s.ph i) (T i)
  one : ∀ i j, (s.ph i).holds = true → (s.ph j).holds = true → i = j
  free : s.lock = false → ∀ i, (s.ph i).holds = false
  nodup : (logOpened evs).Nodup
  file : s.file.getD [] = f0 ++ (logOpened evs).flatMap T
  active : ∀ i l p b, s.ph i = .opn l p b → (∃ xs, logOpened evs = xs ++ [i]) ∧ p = (s.file.getD []).length

theorem overlay_end (f d : Data) : overlay f f.length d = f ++ d := by
  unfold overlay
  rw [List.take_length, List.drop_eq_nil_of_le (by omega), List.append_nil]

theorem logSaid_snoc (i : Nat) (evs : List LogEvent) (e : LogEvent) :
    logSaid i (evs ++ [e]) = logSaid i evs ++ match e with | .say j d => if j = i then d else [] | _ => [] := by
  unfold logSaid
  rw [List.flatMap_append]
  simp only [List.flatMap_cons, List.flatMap_nil, List.append_nil]
  cases e <;> rfl

theorem logOpened_snoc (evs : List LogEvent) (e : LogEvent) :
    logOpened (evs ++ [e]) = logOpened evs ++ match e with | .opens j => [j] | _ => [] := by
  unfold logOpened
  rw [List.filterMap_append]
  cases e <;> rfl

theorem flatMap_upd (T : Nat → Data) (i : Nat) (d : Data) : ∀ (l : List Nat), i ∉ l → l.flatMap (fun j => if j = i then T i ++ d else T j) = l.flatMap T
  | [], _ => rfl
  | j :: l, h => by
    have hj : j ≠ i := fun e => h (by rw [e]; exact List.mem_cons_self)
    rw [List.flatMap_cons, List.flatMap_cons, if_neg hj, flatMap_upd T i d l fun hm => h (List.mem_cons_of_mem _ hm)]

theorem logAt_frame {evs e i p t} (he : e.run ≠ some i) (h : LogAt evs i p t) : LogAt (evs ++ [e]) i p t := by
  have e1 : logSaid i (evs ++ [e]) = logSaid i evs := by
    rw [logSaid_snoc]
    cases e <;> try exact List.append_nil _
    rename_i j d
    have : ¬ j = i := fun e => he (by rw [e]; rfl)
    dsimp only
    rw [if_neg this, List.append_nil]
  have e2 : i ∈ logOpened (evs ++ [e]) ↔ i ∈ logOpened evs := by
    rw [logOpened_snoc, List.mem_append]
    refine ⟨fun h => h.elim id fun h => ?_, .inl⟩
    cases e <;> first | cases h; done | skip
    exact absurd (by rw [List.mem_singleton.1 h]; rfl) he
  have m : ∀ x : LogEvent, x.run = some i → (x ∈ evs ++ [e] ↔ x ∈ evs) := by
    intro x hx
    rw [List.mem_append, List.mem_singleton]
    exact ⟨fun h => h.elim id fun h => absurd (h ▸ hx) he, .inl⟩
  have e3 : LogEnded i (evs ++ [e]) ↔ LogEnded i evs := by
    unfold LogEnded
    rw [m (.close i) rfl, m (.shut i) rfl]
  obtain ⟨h1, h2, h3, h4, h5, h6, h7, h8⟩ := h
  exact ⟨by rwa [m (.lock i) rfl], by rwa [m (.unlock i) rfl, m (.fail i) rfl, m (.kill i) rfl], by rwa [m (.unlock i) rfl],
    by rwa [m (.close i) rfl, m (.kill i) rfl, m (.shut i) rfl], by rwa [e1, e2, e3], by rwa [e1], by rwa [e1, e3], by rwa [e1]⟩

/-- A step that changes neither the log nor the order of the runs. -/
theorem inv_move {f0 evs s s' T i e P} (h : LogInv f0 evs s T) (hr : e.run = some i) (ho : ∀ j, e ≠ .opens j) (hq : ∀ j, s'.ph j = if j = i then P else s.ph j)
    (hf : s'.file = s.file) (hat : LogAt (evs ++ [e]) i P (T i))
    (hone : P.holds = true → (s.ph i).holds = true ∨ s.lock = false) (hlk : s'.lock = false → P.holds = false ∧ ((s.ph i).holds = true ∨ s.lock = false))
    (hact : ∀ l p b, P = .opn l p b → ∃ l' b', s.ph i = .opn l' p b') : LogInv f0 (evs ++ [e]) s' T := by
  have e2 : logOpened (evs ++ [e]) = logOpened evs := by
    rw [logOpened_snoc]
    cases e <;> first | exact absurd rfl (ho _) | exact List.append_nil _
  refine ⟨fun j => ?_, fun j k hj hk => ?_, fun hl j => ?_, e2 ▸ h.nodup, by rw [hf, e2]; exact h.file, fun j l p b hj => ?_⟩
  · rw [hq]
    by_cases hji : j = i
    · rw [if_pos hji, hji]; exact hat
    · rw [if_neg hji]
      exact logAt_frame (fun e => hji (by rw [hr] at e; injection e with e; exact e.symm)) (h.runs j)
  · rw [hq] at hj hk
    by_cases hji : j = i <;> by_cases hki : k = i
    · rw [hji, hki]
    · rw [if_pos hji] at hj
      rw [if_neg hki] at hk
      rcases hone hj with h1 | h1
      · exact absurd (h.one k i hk h1) hki
      · rw [h.free h1 k] at hk; cases hk
    · rw [if_neg hji] at hj
      rw [if_pos hki] at hk
      rcases hone hk with h1 | h1
      · exact absurd (h.one j i hj h1) hji
      · rw [h.free h1 j] at hj; cases hj
    · rw [if_neg hji] at hj
      rw [if_neg hki] at hk
      exact h.one j k hj hk
  · rw [hq]
    by_cases hji : j = i
    · rw [if_pos hji]; exact (hlk hl).1
    · rw [if_neg hji]
      rcases (hlk hl).2 with h1 | h1
      · cases hh : (s.ph j).holds with
        | false => rfl
        | true => exact absurd (h.one j i hh h1) hji
      · exact h.free h1 j
  · rw [hq] at hj
    rw [e2, hf]
    by_cases hji : j = i
    · rw [if_pos hji] at hj
      obtain ⟨l', b', h1⟩ := hact l p b hj
      rw [hji]
      exact h.active i l' p b' h1
    · rw [if_neg hji] at hj
      exact h.active j l p b hj

theorem mem_snoc {α : Type} {x e : α} {l : List α} : x ∈ l ++ [e] ↔ x ∈ l ∨ x = e := by
  rw [List.mem_append, List.mem_singleton]

theorem inv_lock {f0 evs s T i} (h : LogInv f0 evs s T) (hp : s.ph i = .waiting) (hk : s.lock = false) :
    LogInv f0 (evs ++ [.lock i]) { s.set i .locked with lock := true } T := by
  obtain ⟨h1, h2, h3, h4, h5, h6, h7, h8⟩ := h.runs i
  rw [hp] at h2 h5
  have e1 : logSaid i (evs ++ [.lock i]) = logSaid i evs := by rw [logSaid_snoc, List.append_nil]
  have e2 : logOpened (evs ++ [.lock i]) = logOpened evs := by rw [logOpened_snoc, List.append_nil]
  have e3 : LogEnded i (evs ++ [.lock i]) ↔ LogEnded i evs := by unfold LogEnded; simp [mem_snoc]
  refine inv_move h rfl (fun j => by simp) (fun j => rfl) rfl ⟨fun _ => by simp, fun hh => ?_, fun _ _ hh => (by cases hh), fun _ _ _ _ hh => (by cases hh), fun _ => ?_, ?_, ?_, fun _ _ _ hh => (by cases hh)⟩
    (fun _ => .inr hk) (fun hh => (by cases hh)) (fun _ _ _ hh => (by cases hh))
  · exact absurd rfl (h2 (by simpa [mem_snoc] using hh)).2
  · rw [e1, e2, e3]; exact h5 (.inl rfl)
  · rw [e1]; exact h6
  · rw [e1, e3]; exact h7

theorem inv_unlock {f0 evs s T i p b} (h : LogInv f0 evs s T) (hp : s.ph i = .opn true p b) :
    LogInv f0 (evs ++ [.unlock i]) { s.set i (.opn false p b) with lock := false } T := by
  obtain ⟨h1, h2, h3, h4, h5, h6, h7, h8⟩ := h.runs i
  rw [hp] at h2 h4 h8
  have e1 : logSaid i (evs ++ [.unlock i]) = logSaid i evs := by rw [logSaid_snoc, List.append_nil]
  have e3 : LogEnded i (evs ++ [.unlock i]) ↔ LogEnded i evs := by unfold LogEnded; simp [mem_snoc]
  refine inv_move h rfl (fun j => by simp) (fun j => rfl) rfl ⟨fun hh => (by cases hh), fun _ => ⟨rfl, by simp⟩, fun _ _ _ => by simp, fun hh => ?_, fun hh => (by rcases hh with hh | hh <;> cases hh), ?_, ?_, fun l q b' hh => ?_⟩
    (fun hh => (by cases hh)) (fun _ => ⟨rfl, .inl (by rw [hp]; rfl)⟩) (fun l q b' hh => (by cases hh; exact ⟨_, _, hp⟩))
  · exact absurd rfl (h4 (by simpa [mem_snoc] using hh) true p b)
  · rw [e1]; exact h6
  · rw [e1, e3]; exact h7
  · cases hh
    rw [e1]; exact h8 _ _ _ rfl

theorem inv_fail {f0 evs s T i} (h : LogInv f0 evs s T) (hp : s.ph i = .locked ∨ s.ph i = .shut) :
    LogInv f0 (evs ++ [.fail i]) { s.set i .done with lock := false } T := by
  obtain ⟨h1, h2, h3, h4, h5, h6, h7, h8⟩ := h.runs i
  have e1 : logSaid i (evs ++ [.fail i]) = logSaid i evs := by rw [logSaid_snoc, List.append_nil]
  have e3 : LogEnded i (evs ++ [.fail i]) ↔ LogEnded i evs := by unfold LogEnded; simp [mem_snoc]
  refine inv_move h rfl (fun j => by simp) (fun j => rfl) rfl ⟨fun hh => (by cases hh), fun _ => ⟨rfl, by simp⟩, fun _ _ hh => (by cases hh), fun _ _ _ _ hh => (by cases hh), fun hh => (by rcases hh with hh | hh <;> cases hh), ?_, ?_, fun _ _ _ hh => (by cases hh)⟩
    (fun hh => (by cases hh)) (fun _ => ⟨rfl, .inl (by rcases hp with hp | hp <;> rw [hp] <;> rfl)⟩) (fun _ _ _ hh => (by cases hh))
  · rw [e1]; exact h6
  · rw [e1, e3]; exact h7

theorem inv_kill {f0 evs s T i} (h : LogInv f0 evs s T) : LogInv f0 (evs ++ [.kill i]) (s.set i .killed) T := by
  obtain ⟨h1, h2, h3, h4, h5, h6, h7, h8⟩ := h.runs i
  have e1 : logSaid i (evs ++ [.kill i]) = logSaid i evs := by rw [logSaid_snoc, List.append_nil]
  have e3 : LogEnded i (evs ++ [.kill i]) ↔ LogEnded i evs := by unfold LogEnded; simp [mem_snoc]
  refine inv_move h rfl (fun j => by simp) (fun j => rfl) rfl ⟨fun hh => (by cases hh), fun _ => ⟨rfl, by simp⟩, fun _ _ hh => (by cases hh), fun _ _ _ _ hh => (by cases hh), fun hh => (by rcases hh with hh | hh <;> cases hh), ?_, ?_, fun _ _ _ hh => (by cases hh)⟩
    (fun hh => (by cases hh)) (fun hl => ⟨rfl, .inr hl⟩) (fun _ _ _ hh => (by cases hh))
  · rw [e1]; exact h6
  · rw [e1, e3]; exact h7

theorem inv_say {f0 evs s T i l p b} (d : Data) (h : LogInv f0 evs s T) (hp : s.ph i = .opn l p b) :
    LogInv f0 (evs ++ [.say i d]) (s.set i (.opn l p (b ++ d))) T := by
  obtain ⟨h1, h2, h3, h4, h5, h6, h7, h8⟩ := h.runs i
  rw [hp] at h1 h2 h3 h4 h8
  have e1 : logSaid i (evs ++ [.say i d]) = logSaid i evs ++ d := by rw [logSaid_snoc]; dsimp only; rw [if_pos rfl]
  have e3 : LogEnded i (evs ++ [.say i d]) ↔ LogEnded i evs := by unfold LogEnded; simp [mem_snoc]
  have hol : ∀ x y : Data, (LogPhase.opn l p x).holds = (LogPhase.opn l p y).holds := fun x y => by cases l <;> rfl
  refine inv_move h rfl (fun j => by simp) (fun j => rfl) rfl ⟨fun hh => ?_, fun hh => ?_, fun q b' hh => ?_, fun hh => ?_, fun hh => (by rcases hh with hh | hh <;> cases hh), ?_, fun hh => ?_, fun l' q b' hh => ?_⟩
    (fun hh => .inl ?_) (fun hl => ⟨?_, .inr hl⟩) (fun l q b' hh => (by cases hh; exact ⟨_, _, hp⟩))
  · exact mem_snoc.2 (.inl (h1 (by rw [hol _ (b ++ d)]; exact hh)))
  · rw [hol _ b]; exact ⟨(h2 (by simpa [mem_snoc] using hh)).1, by simp⟩
  · cases hh; exact mem_snoc.2 (.inl (h3 _ _ rfl))
  · exact absurd rfl (h4 (by simpa [mem_snoc] using hh) l p b)
  · rw [e1]; exact h6.trans (List.prefix_append _ _)
  · exact absurd rfl (h4 ((e3.1 hh).imp id .inr) l p b)
  · cases hh
    rw [e1, h8 _ _ _ rfl, List.append_assoc]
  · rw [hp, hol _ (b ++ d)]; exact hh
  · rw [hol _ b, ← hp]; exact h.free hl i

theorem inv_free {f0 evs s T} (h : LogInv f0 evs s T) (hk : ∀ i, .lock i ∈ evs → .unlock i ∈ evs ∨ .fail i ∈ evs ∨ .kill i ∈ evs) :
    LogInv f0 (evs ++ [.free]) { s with lock := false } T := by
  have e2 : logOpened (evs ++ [.free]) = logOpened evs := by rw [logOpened_snoc, List.append_nil]
  refine ⟨fun j => logAt_frame (by simp [LogEvent.run]) (h.runs j), h.one, fun _ i => ?_, e2 ▸ h.nodup, e2 ▸ h.file, fun i l p b hi => e2 ▸ h.active i l p b hi⟩
  cases hh : (s.ph i).holds with
  | false => rfl
  | true =>
    have := ((h.runs i).left (hk i ((h.runs i).held hh))).1
    rw [hh] at this
    cases this

theorem inv_open {f0 evs s T i} (h : LogInv f0 evs s T) (hp : s.ph i = .locked) (hk : ∀ j, .unlock j ∈ evs → .close j ∈ evs ∨ .kill j ∈ evs) :
    LogInv f0 (evs ++ [.opens i]) { s.set i (.opn true (s.file.getD []).length []) with file := some (s.file.getD []) } T := by
  have e1 : logSaid i (evs ++ [.opens i]) = logSaid i evs := by rw [logSaid_snoc, List.append_nil]
  have e2 : logOpened (evs ++ [.opens i]) = logOpened evs ++ [i] := by rw [logOpened_snoc]
  have e3 : LogEnded i (evs ++ [.opens i]) ↔ LogEnded i evs := by unfold LogEnded; simp [mem_snoc]
  obtain ⟨h1, h2, h3, h4, h5, h6, h7, h8⟩ := h.runs i
  obtain ⟨hn, hs, ht, hne⟩ := h5 (.inr hp)
  have hnone : ∀ j l p b, s.ph j ≠ .opn l p b := by
    intro j l p b hj
    cases l with
    | true =>
      have := h.one j i (by rw [hj]; rfl) (by rw [hp]; rfl)
      rw [this, hp] at hj
      cases hj
    | false => exact (h.runs j).gone ((hk j ((h.runs j).leaving p b hj)).imp id .inl) _ _ _ hj
  have hph : ∀ j, ({ s.set i (.opn true (s.file.getD []).length []) with file := some (s.file.getD []) } : LogSys).ph j =
      if j = i then .opn true (s.file.getD []).length [] else s.ph j := fun _ => rfl
  refine ⟨fun j => ?_, fun j k hj hk' => ?_, fun hl j => ?_, ?_, ?_, fun j l p b hj => ?_⟩
  · rw [hph]
    by_cases hji : j = i
    · rw [if_pos hji, hji]
      rw [hp] at h1 h2
      refine ⟨fun _ => mem_snoc.2 (.inl (h1 rfl)), fun hh => ?_, fun _ _ hh => (by cases hh), fun hh => ?_, fun hh => (by rcases hh with hh | hh <;> cases hh), by rw [e1]; exact h6,
        by rw [e1, e3]; exact h7, fun l q b hh => ?_⟩
      · exact absurd (h2 (by simpa [mem_snoc] using hh)).1 (by simp [LogPhase.holds])
      · have hh : .close i ∈ evs ∨ .kill i ∈ evs ∨ .shut i ∈ evs := by simpa [mem_snoc] using hh
        rcases hh with hh | hh | hh
        · exact absurd (.inl hh) hne
        · exact absurd (h2 (.inr (.inr hh))).1 (by simp [LogPhase.holds])
        · exact absurd (.inr hh) hne
      · cases hh
        rw [e1, hs, ht]; rfl
    · rw [if_neg hji]
      exact logAt_frame (by intro e; injection e with e; exact hji e.symm) (h.runs j)
  · rw [hph] at hj hk'
    by_cases hji : j = i <;> by_cases hki : k = i
    · rw [hji, hki]
    · rw [if_neg hki] at hk'
      exact absurd (h.one k i hk' (by rw [hp]; rfl)) hki
    · rw [if_neg hji] at hj
      exact absurd (h.one j i hj (by rw [hp]; rfl)) hji
    · rw [if_neg hji] at hj
      rw [if_neg hki] at hk'
      exact h.one j k hj hk'
  · have := h.free hl i
    rw [hp] at this
    cases this
  · rw [e2, List.nodup_append]
    exact ⟨h.nodup, by simp, fun a ha b hb => by rw [List.mem_singleton.1 hb]; exact fun e => hn (e ▸ ha)⟩
  · rw [e2, List.flatMap_append, List.flatMap_cons, ht]
    show s.file.getD [] = _
    rw [h.file]
    simp
  · rw [hph] at hj
    by_cases hji : j = i
    · rw [if_pos hji] at hj
      cases hj
      exact ⟨⟨_, by rw [e2, hji]⟩, rfl⟩
    · rw [if_neg hji] at hj
      exact absurd hj (hnone j l p b)

/-- The buffer, or a part of it, is written. -/
theorem inv_write {f0 evs s s' T i l p a b e P} (h : LogInv f0 evs s T) (hp : s.ph i = .opn l p (a ++ b)) (hr : e.run = some i) (ho : ∀ j, e ≠ .opens j) (hy : ∀ j d, e ≠ .say j d)
    (hq : ∀ j, s'.ph j = if j = i then P else s.ph j) (hl : s'.lock = s.lock) (hf : s'.file = some (overlay (s.file.getD []) p a))
    (hhold : P.holds = (s.ph i).holds) (hat : ∀ t, logSaid i evs = t ++ b → LogAt (evs ++ [e]) i P t) (hact : ∀ l' q b', P = .opn l' q b' → q = p + a.length) :
    LogInv f0 (evs ++ [e]) s' (fun j => if j = i then T i ++ a else T j) := by
  have e2 : logOpened (evs ++ [e]) = logOpened evs := by
    rw [logOpened_snoc]
    cases e <;> first | exact absurd rfl (ho _) | exact List.append_nil _
  obtain ⟨⟨xs, hx⟩, hpos⟩ := h.active i _ _ _ hp
  have hsaid := (h.runs i).buf _ _ _ hp
  have hxi : i ∉ xs := by
    have := h.nodup
    rw [hx, List.nodup_append] at this
    exact fun hm => this.2.2 i hm i (by simp) rfl
  have hg : s'.file.getD [] = s.file.getD [] ++ a := by
    rw [hf, hpos]
    exact overlay_end _ _
  have hother : ∀ j l' p' b', s.ph j = .opn l' p' b' → j = i := by
    intro j l' p' b' hj
    obtain ⟨⟨ys, hy⟩, _⟩ := h.active j _ _ _ hj
    have := congrArg List.getLast? (hx.symm.trans hy)
    simpa using this.symm
  have hhj : ∀ j, (s'.ph j).holds = (s.ph j).holds := by
    intro j
    rw [hq]
    by_cases hji : j = i
    · rw [if_pos hji, hji, hhold]
    · rw [if_neg hji]
  refine ⟨fun j => ?_, fun j k => ?_, fun hk j => ?_, e2 ▸ h.nodup, ?_, fun j l' q b' hj => ?_⟩
  · rw [hq]
    by_cases hji : j = i
    · rw [if_pos hji, if_pos hji, hji]
      exact hat _ (by rw [hsaid, List.append_assoc])
    · rw [if_neg hji, if_neg hji]
      exact logAt_frame (fun e => hji (by rw [hr] at e; injection e with e; exact e.symm)) (h.runs j)
  · rw [hhj, hhj]
    exact h.one j k
  · rw [hhj]
    exact h.free (hl ▸ hk) j
  · rw [hg, h.file, e2, hx, List.flatMap_append, List.flatMap_append, flatMap_upd T i a xs hxi]
    simp
  · rw [hq] at hj
    by_cases hji : j = i
    · rw [if_pos hji] at hj
      rw [e2, hji]
      refine ⟨⟨xs, hx⟩, ?_⟩
      rw [hact _ _ _ hj, hg, hpos, List.length_append]
    · rw [if_neg hji] at hj
      exact absurd (hother _ _ _ _ hj) hji

theorem inv_flush {f0 evs s T i l p b} (n : Nat) (h : LogInv f0 evs s T) (hp : s.ph i = .opn l p b) :
    LogInv f0 (evs ++ [.flush i n]) ((s.put p (b.take n)).set i (.opn l (p + (b.take n).length) (b.drop n))) (fun j => if j = i then T i ++ b.take n else T j) := by
  have hol : ∀ q q' x y, (LogPhase.opn l q x).holds = (LogPhase.opn l q' y).holds := fun q q' x y => by cases l <;> rfl
  obtain ⟨h1, h2, h3, h4, h5, h6, h7, h8⟩ := h.runs i
  rw [hp] at h1 h2 h3 h4 h8
  have e1 : logSaid i (evs ++ [.flush i n]) = logSaid i evs := by rw [logSaid_snoc, List.append_nil]
  have e3 : LogEnded i (evs ++ [.flush i n]) ↔ LogEnded i evs := by unfold LogEnded; simp [mem_snoc]
  refine inv_write (b := b.drop n) h (by rw [List.take_append_drop]; exact hp) rfl (fun j => by simp) (fun j d => by simp) (fun j => rfl) rfl rfl (by rw [hp]; exact hol _ _ _ _)
    (fun t ht => ⟨fun hh => ?_, fun hh => ?_, fun q b' hh => ?_, fun hh => ?_, fun hh => (by rcases hh with hh | hh <;> cases hh), ?_, fun hh => ?_, fun l' q b' hh => ?_⟩) (fun l' q b' hh => (by cases hh; rfl))
  · exact mem_snoc.2 (.inl (h1 (by rw [hol _ (p + (b.take n).length) _ (b.drop n)]; exact hh)))
  · rw [hol _ p _ b]; exact ⟨(h2 (by simpa [mem_snoc] using hh)).1, by simp⟩
  · cases hh; exact mem_snoc.2 (.inl (h3 _ _ rfl))
  · exact absurd rfl (h4 (by simpa [mem_snoc] using hh) l p b)
  · rw [e1]; exact ⟨_, ht.symm⟩
  · exact absurd rfl (h4 ((e3.1 hh).imp id .inr) l p b)
  · cases hh
    rw [e1, ht]

theorem inv_close {f0 evs s T i p b} (h : LogInv f0 evs s T) (hp : s.ph i = .opn false p b) :
    LogInv f0 (evs ++ [.close i]) ((s.put p b).set i .done) (fun j => if j = i then T i ++ b else T j) := by
  have e1 : logSaid i (evs ++ [.close i]) = logSaid i evs := by rw [logSaid_snoc, List.append_nil]
  refine inv_write (b := []) h (by rw [List.append_nil]; exact hp) rfl (fun j => by simp) (fun j d => by simp) (fun j => rfl) rfl rfl (by rw [hp]; rfl)
    (fun t ht => ⟨fun hh => (by cases hh), fun _ => ⟨rfl, by simp⟩, fun _ _ hh => (by cases hh), fun _ _ _ _ hh => (by cases hh), fun hh => (by rcases hh with hh | hh <;> cases hh), ?_, fun hh => ?_, fun _ _ _ hh => (by cases hh)⟩)
    (fun _ _ _ hh => (by cases hh))
  · rw [e1, ht, List.append_nil]; exact List.prefix_refl _
  · rw [e1, ht, List.append_nil]

theorem inv_shut {f0 evs s T i p b} (h : LogInv f0 evs s T) (hp : s.ph i = .opn true p b) :
    LogInv f0 (evs ++ [.shut i]) ((s.put p b).set i .shut) (fun j => if j = i then T i ++ b else T j) := by
  have e1 : logSaid i (evs ++ [.shut i]) = logSaid i evs := by rw [logSaid_snoc, List.append_nil]
  obtain ⟨h1, h2, h3, h4, h5, h6, h7, h8⟩ := h.runs i
  rw [hp] at h1 h2
  refine inv_write (b := []) h (by rw [List.append_nil]; exact hp) rfl (fun j => by simp) (fun j d => by simp) (fun j => rfl) rfl rfl (by rw [hp]; rfl)
    (fun t ht => ⟨fun _ => mem_snoc.2 (.inl (h1 rfl)), fun hh => ?_, fun _ _ hh => (by cases hh), fun _ _ _ _ hh => (by cases hh), fun hh => (by rcases hh with hh | hh <;> cases hh), ?_, fun hh => ?_, fun _ _ _ hh => (by cases hh)⟩)
    (fun _ _ _ hh => (by cases hh))
  · exact absurd (h2 (by simpa [mem_snoc] using hh)).1 (by simp [LogPhase.holds])
  · rw [e1, ht, List.append_nil]; exact List.prefix_refl _
  · rw [e1, ht, List.append_nil]

theorem logInv_step {f0 evs s T e s'} (h : LogInv f0 evs s T) (hs : logStep s e = some s')
    (hfree : e = .free → ∀ i, .lock i ∈ evs → .unlock i ∈ evs ∨ .fail i ∈ evs ∨ .kill i ∈ evs)
    (hopen : ∀ j, e = .opens j → ∀ i, .unlock i ∈ evs → .close i ∈ evs ∨ .kill i ∈ evs) : ∃ T', LogInv f0 (evs ++ [e]) s' T' := by
  cases e with
  | lock i =>
    unfold logStep at hs
    dsimp only at hs
    cases hp : s.ph i <;> rw [hp] at hs <;> first | (cases hs; done) | skip
    cases hk : s.lock <;> rw [hk] at hs <;> cases hs
    exact ⟨_, inv_lock h hp hk⟩
  | opens i =>
    unfold logStep at hs
    dsimp only at hs
    cases hp : s.ph i <;> rw [hp] at hs <;> cases hs
    exact ⟨_, inv_open h hp (hopen i rfl)⟩
  | say i d =>
    unfold logStep at hs
    dsimp only at hs
    cases hp : s.ph i <;> rw [hp] at hs <;> cases hs
    exact ⟨_, inv_say d h hp⟩
  | flush i n =>
    unfold logStep at hs
    dsimp only at hs
    cases hp : s.ph i <;> rw [hp] at hs <;> cases hs
    exact ⟨_, inv_flush n h hp⟩
  | unlock i =>
    unfold logStep at hs
    dsimp only at hs
    cases hp : s.ph i with
    | opn l p b =>
      cases l <;> rw [hp] at hs <;> cases hs
      exact ⟨_, inv_unlock h hp⟩
    | _ => rw [hp] at hs; cases hs
  | close i =>
    unfold logStep at hs
    dsimp only at hs
    cases hp : s.ph i with
    | opn l p b =>
      cases l <;> rw [hp] at hs <;> cases hs
      exact ⟨_, inv_close h hp⟩
    | _ => rw [hp] at hs; cases hs
  | shut i =>
    unfold logStep at hs
    dsimp only at hs
    cases hp : s.ph i with
    | opn l p b =>
      cases l <;> rw [hp] at hs <;> cases hs
      exact ⟨_, inv_shut h hp⟩
    | _ => rw [hp] at hs; cases hs
  | fail i =>
    unfold logStep at hs
    dsimp only at hs
    cases hp : s.ph i <;> rw [hp] at hs <;> cases hs
    · exact ⟨_, inv_fail h (.inl hp)⟩
    · exact ⟨_, inv_fail h (.inr hp)⟩
  | kill i =>
    unfold logStep at hs
    dsimp only at hs
    cases hp : s.ph i <;> rw [hp] at hs <;> cases hs <;> exact ⟨_, inv_kill h⟩
  | free =>
    cases hs
    exact ⟨_, inv_free h (hfree rfl)⟩

theorem logRuns_inv {f l evs s} (h : LogRuns { file := f, lock := l } evs s) (hf : FreedWell evs) (hn : NoneBetween evs) : ∃ T, LogInv (f.getD []) evs s T := by
  induction h with
  | nil =>
    refine ⟨fun _ => [], fun i => ⟨fun hh => (by cases hh), fun hh => ?_, fun _ _ hh => (by cases hh), fun _ _ _ _ hh => (by cases hh), fun _ => ⟨by simp [logOpened], rfl, rfl, by simp [LogEnded]⟩, List.prefix_refl _, fun _ => rfl, fun _ _ _ hh => (by cases hh)⟩,
      fun i j hh => (by cases hh), fun _ i => rfl, by simp [logOpened], by simp [logOpened], fun i l p b hh => (by cases hh)⟩
    simp at hh
  | @snoc evs s e s' _ hs ih =>
    obtain ⟨T, hT⟩ := ih (fun a b hab => hf a (b ++ [e]) (by rw [hab, List.append_assoc]; rfl)) (fun a j b hab => hn a j (b ++ [e]) (by rw [hab, List.append_assoc]; rfl))
    exact logInv_step hT hs (fun he => hf evs [] (by rw [he])) (fun j he => hn evs j [] (by rw [he]))

/-- **C120 (partial).** Whatever runs there are, at the same time or one after the other, wherever they are killed and however stdio writes its buffers: if no
run begins while another one is between removing the lock and closing the log, and the user removes locks only when no run works, then the log always contains what
was there before and after it what the runs have written, in the order in which they began. -/
theorem log_kept_partial {f : Option Data} {l : Bool} {evs : List LogEvent} {s : LogSys} (h : logRun { file := f, lock := l } evs = some s)
    (hf : FreedWell evs) (hn : NoneBetween evs) : LogComplete (f.getD []) evs (s.file.getD []) := by
  obtain ⟨T, hT⟩ := logRuns_inv (logRuns_of h) hf hn
  exact ⟨T, hT.file, fun i => (hT.runs i).pre, fun i => (hT.runs i).ended⟩

/-- Two runs, of which the second one waits for the lock and begins as soon as it is free; the first one closes the log after that. -/
def logOverlap (x y : Data) : List LogEvent :=
  [.lock 0, .opens 0, .say 0 x, .unlock 0, .lock 1, .opens 1, .close 0, .say 1 y, .unlock 1, .close 1]

/-- **C120, violated.** Then what the second run writes replaces what the first one has written, although nothing fails and both held the lock. -/
theorem log_overwritten (f x y : Data) : (logRun { file := some f } (logOverlap x y)).map (·.file) = some (some (f ++ y ++ x.drop y.length)) := by
  have e : overlay (overlay f f.length x) f.length y = f ++ y ++ x.drop y.length := by
    rw [overlay_end]
    unfold overlay
    rw [List.take_left', List.drop_append, List.drop_eq_nil_of_le (by omega)]
    · simp
    · rfl
  rw [← e]
  rfl

/-- **C120, violated.** If the second run writes at least as much, nothing is left of what the first one wrote. -/
theorem log_incomplete (x y : Data) (hy : x.length ≤ y.length) (hxy : ¬ x <+: y) :
    ∃ s, logRun { file := some [] } (logOverlap x y) = some s ∧ ¬ LogComplete [] (logOverlap x y) (s.file.getD []) := by
  have h := log_overwritten [] x y
  cases hr : logRun { file := some [] } (logOverlap x y) with
  | none => rw [hr] at h; cases h
  | some s =>
    rw [hr] at h
    refine ⟨s, rfl, ?_⟩
    have hfile : s.file.getD [] = y := by
      have : s.file = some ([] ++ y ++ x.drop y.length) := by injection h
      rw [this, List.drop_eq_nil_of_le hy]
      simp
    rw [hfile]
    rintro ⟨T, h1, h2, h3⟩
    have t0 := h3 0 (.inl (by simp [logOverlap]))
    have hs0 : logSaid 0 (logOverlap x y) = x := by simp [logSaid, logOverlap]
    have ho : logOpened (logOverlap x y) = [0, 1] := rfl
    rw [hs0] at t0
    rw [ho, List.flatMap_cons, t0] at h1
    exact hxy ⟨_, h1.symm⟩

namespace Ex

/-- Three runs, one after the other: the second one is killed when half of a line has been written, and the user removes its lock. -/
def logRuns3 : List LogEvent :=
  [.lock 0, .opens 0, .say 0 b!"- one\n", .flush 0 3, .say 0 b!"- end\n", .unlock 0, .close 0,
   .lock 1, .opens 1, .say 1 b!"- two\n- end\n", .flush 1 4, .kill 1, .free,
   .lock 2, .opens 2, .say 2 b!"- three\n", .unlock 2, .close 2]

theorem logRuns3_free : FreedWell logRuns3 := by
  intro a b h i hi
  have ha : a = logRuns3.take 12 := by
    have key : ∀ (n : Nat), n < 18 → (logRuns3[n]? = some .free ↔ n = 12) := by decide
    have hl : a.length < 18 := by
      have := congrArg List.length h
      rw [List.length_append, List.length_cons] at this
      have e : logRuns3.length = 18 := rfl
      omega
    have := (key a.length hl).1 (by rw [h, List.getElem?_append_right (Nat.le_refl _), Nat.sub_self]; rfl)
    rw [← this, h, List.take_left']
    rfl
  subst ha
  revert hi
  simp [logRuns3]

theorem logRuns3_between : NoneBetween logRuns3 := by
  intro a j b h i hi
  have key : ∀ (n : Nat), n < 18 → (logRuns3[n]? = some (.opens j) → n = 1 ∨ n = 8 ∨ n = 14) := by
    intro n hn
    match n, hn with
    | 0, _ | 2, _ | 3, _ | 4, _ | 5, _ | 6, _ | 7, _ | 9, _ | 10, _ | 11, _ | 12, _ | 13, _ | 15, _ | 16, _ | 17, _ => intro hh; simp [logRuns3] at hh
    | 1, _ | 8, _ | 14, _ => intro _; omega
    | n + 18, hn => omega
  have hl : a.length < 18 := by
    have := congrArg List.length h
    rw [List.length_append, List.length_cons] at this
    have e : logRuns3.length = 18 := rfl
    omega
  have hn := key a.length hl (by rw [h, List.getElem?_append_right (Nat.le_refl _), Nat.sub_self]; rfl)
  have ha : a = logRuns3.take a.length := by rw [h, List.take_left']; rfl
  rcases hn with hn | hn | hn <;> rw [hn] at ha <;> subst ha <;> revert hi <;> simp [logRuns3]
  exact .inl

/-- The conditions of `log_kept_partial` are met; half of a line of the run that was killed stands in front of the line of the next one. -/
theorem log_case : FreedWell logRuns3 ∧ NoneBetween logRuns3 ∧
    (logRun { file := some b!"old\n" } logRuns3).map (·.file) = some (some b!"old\n- one\n- end\n- tw- three\n") :=
  ⟨logRuns3_free, logRuns3_between, by decide +kernel⟩

/-- A run that waits for the lock and begins while the other one ends: the lines of the first run are lost. -/
theorem log_lost : (logRun { file := some b!"old\n" } (logOverlap b!"- one\n- end\n" b!"- two\n- end\n")).map (·.file) = some (some b!"old\n- two\n- end\n") := by
  decide +kernel

end Ex

end CM
