import Verif.Spec.Attach
import Verif.Spec.Echo
import Verif.Lemmas.Monad
import Verif.Lemmas.Net
import Verif.Lemmas.Says
import Verif.Lemmas.CrashList
import Verif.Lemmas.Pack
import Verif.Props.FilterVar
import Verif.Props.Strings
import Verif.Props.Path
import Verif.Lemmas.Reply
import Verif.Lemmas.Readdress
import Verif.Lemmas.Example

/-! # File attaches and netmails that are not passed on (C112) -/

set_option linter.unusedSimpArgs false

namespace CM

/-! ## The names in a subject -/

/-- What the characters of a subject count as. -/
private def subjChar (c : UInt8) : UInt8 := if c = 44 then 32 else if c = 92 then 47 else c

theorem subjChar_sep {c : UInt8} (h : NameSep c) : subjChar c = 32 ∨ subjChar c = 9 := by
  rcases h with rfl | rfl | rfl <;> decide

theorem subjChar_name {w : Str} (h : AttachName w) : w.map subjChar = slashed w := by
  unfold slashed
  refine List.map_congr_left fun c hc => ?_
  unfold subjChar
  rw [if_neg]
  intro e
  exact (h.2.2 c hc).1 (.inr (.inr e))

theorem blankStr_seps {b : Str} (h : ∀ c ∈ b, NameSep c) : BlankStr (b.map subjChar) := by
  intro c hc
  obtain ⟨d, hd, rfl⟩ := List.mem_map.1 hc
  exact subjChar_sep (h d hd)

theorem written_slashed {w : Str} (h : AttachName w) : Written (slashed w) (slashed w) := by
  refine .bare _ ?_ ?_ ?_
  · intro e
    exact h.1 (List.map_eq_nil_iff.1 e)
  · unfold slashed
    rw [List.head?_map]
    intro e
    cases hw : w.head? with
    | none => rw [hw] at e; cases e
    | some c =>
      rw [hw, Option.map_some, Option.some.injEq] at e
      split at e
      · cases e
      · subst e; exact h.2.1 hw
  · intro c hc
    obtain ⟨d, hd, rfl⟩ := List.mem_map.1 hc
    obtain ⟨h1, h2⟩ := h.2.2 d hd
    split
    · decide
    · next h3 => exact ⟨fun e => h1 (.inl e), fun e => h1 (.inr (.inl e)), h2, h3⟩

theorem writtenLine_names {ws : List Str} {s : Str} (h : NamesIn ws s) : WrittenLine (ws.map slashed) (s.map subjChar) := by
  induction h with
  | nil b hb => exact .nil _ (blankStr_seps hb)
  | last b w hb hw =>
    rw [List.map_append, subjChar_name hw]
    exact .last _ _ _ (blankStr_seps hb) (written_slashed hw)
  | cons b w c ws r hb hw hc _ ih =>
    rw [List.map_append, List.map_append, subjChar_name hw, List.map_cons, List.map_cons]
    exact .cons _ _ _ _ _ _ (blankStr_seps hb) (written_slashed hw) (subjChar_sep hc) ih

theorem names_length {ws : List Str} {s : Str} (h : NamesIn ws s) : ws.length ≤ s.length ∧ ∀ w ∈ ws, w.length ≤ s.length := by
  induction h with
  | nil b hb => simp
  | last b w hb hw =>
    have := List.length_pos_iff.2 hw.1
    refine ⟨by simp; omega, ?_⟩
    intro x hx
    rw [List.mem_singleton] at hx
    subst hx
    simp
  | cons b w c ws r hb hw hc _ ih =>
    refine ⟨by simp; omega, ?_⟩
    intro x hx
    rcases List.mem_cons.1 hx with rfl | hx
    · simp; omega
    · have := ih.2 x hx
      simp; omega

/-- C112. Every subject without quotes and line feeds has names. -/
theorem names_exist (s : Str) (h : (34 : UInt8) ∉ s ∧ (10 : UInt8) ∉ s) : ∃ ws, NamesIn ws s := by
  suffices H : ∀ n (s : Str), s.length ≤ n → (34 : UInt8) ∉ s ∧ (10 : UInt8) ∉ s → ∃ ws, NamesIn ws s from H _ s (Nat.le_refl _) h
  intro n
  induction n with
  | zero =>
    intro s hs _
    rw [List.length_eq_zero_iff.1 (Nat.le_zero.1 hs)]
    exact ⟨[], .nil [] (by simp)⟩
  | succ n ih =>
    intro s hs h
    let sep : UInt8 → Bool := fun c => c = 32 || c = 9 || c = 44
    have hsep : ∀ c, sep c = true ↔ NameSep c := by intro c; simp [sep, NameSep, or_assoc]
    have e1 : s = s.takeWhile sep ++ s.dropWhile sep := List.takeWhile_append_dropWhile.symm
    have hb : ∀ c ∈ s.takeWhile sep, NameSep c := fun c hc => (hsep c).1 ((List.all_eq_true.1 (List.all_takeWhile (l := s) (p := sep))) c hc)
    cases hd : s.dropWhile sep with
    | nil =>
      rw [hd, List.append_nil] at e1
      exact ⟨[], by rw [e1]; exact .nil _ hb⟩
    | cons d t =>
      have hns : ¬ sep d = true := by
        have := List.head?_dropWhile_not sep s
        rw [hd] at this
        simpa using this
      let nsep : UInt8 → Bool := fun c => !sep c
      have e2 : d :: t = (d :: t).takeWhile nsep ++ (d :: t).dropWhile nsep := List.takeWhile_append_dropWhile.symm
      have hmem : ∀ c ∈ d :: t, c ∈ s := by intro c hc; rw [e1, hd]; exact List.mem_append_right _ hc
      have hw : AttachName ((d :: t).takeWhile nsep) := by
        refine ⟨?_, ?_, ?_⟩
        · rw [List.takeWhile_cons, if_pos (by simp [nsep, hns])]; simp
        · rw [List.takeWhile_cons, if_pos (by simp [nsep, hns])]
          intro e
          simp only [List.head?_cons, Option.some.injEq] at e
          subst e
          exact h.1 (hmem _ (by simp))
        · intro c hc
          have h1 := (List.all_eq_true.1 (List.all_takeWhile (l := d :: t) (p := nsep))) c hc
          refine ⟨fun x => ?_, fun e => ?_⟩
          · simp only [nsep, (hsep c).2 x] at h1; simp at h1
          · subst e
            exact h.2 (hmem _ ((List.takeWhile_sublist _).subset hc))
      cases hr : (d :: t).dropWhile nsep with
      | nil =>
        rw [hr, List.append_nil] at e2
        rw [hd, e2] at e1
        exact ⟨_, by rw [e1]; exact .last _ _ hb hw⟩
      | cons c r =>
        have hc : NameSep c := by
          have := List.head?_dropWhile_not nsep (d :: t)
          rw [hr] at this
          simp only [List.head?_cons] at this
          refine (hsep c).1 ?_
          simpa [nsep] using this
        rw [hr] at e2
        rw [hd, e2, ← List.append_assoc] at e1
        have hlen : r.length ≤ n := by
          have := congrArg List.length e1
          simp only [List.length_append, List.length_cons] at this
          omega
        obtain ⟨ws, hws⟩ := ih r hlen (by
          have : ∀ x ∈ r, x ∈ s := by intro x hx; rw [e1]; simp [hx]
          exact ⟨fun hx => h.1 (this _ hx), fun hx => h.2 (this _ hx)⟩)
        exact ⟨_, by rw [e1]; exact .cons _ _ _ _ _ hb hw hc hws⟩

theorem subjWords_rest : ∀ (ws : List Str) (x : Str) (f : Nat), Rest ws x → (∀ w ∈ ws, w.length < 80) → (ws.length < f) → subjWords f x = some ws := by
  intro ws
  induction ws with
  | nil =>
    intro x f h _ hf
    obtain ⟨f, rfl⟩ : ∃ g, f = g + 1 := ⟨f - 1, by simp at hf; omega⟩
    obtain ⟨e, h1, _⟩ := h.none 80
    unfold subjWords
    rw [h1]; rfl
  | cons w ws ih =>
    intro x f h hl hf
    obtain ⟨f, rfl⟩ : ∃ g, f = g + 1 := ⟨f - 1, by simp at hf; omega⟩
    obtain ⟨r, h1, h2⟩ := h.word (n := 80) (hl w (by simp))
    unfold subjWords
    rw [h1]
    dsimp only
    rw [if_pos rfl, ih r f h2 (fun v hv => hl v (by simp [hv])) (by simp at hf; omega)]
    rfl

theorem subjWords_names {ws : List Str} {s : Str} (h : NamesIn ws s) (hs : s.length < 72) :
    subjWords (s.length + 2) (s.map fun c => if c = 44 then 32 else if c = 92 then 47 else c) = some (ws.map slashed) := by
  refine subjWords_rest _ _ _ ⟨s.map subjChar, [], by rw [List.append_nil]; rfl, .inl rfl, writtenLine_names h⟩ ?_ ?_
  · intro w hw
    obtain ⟨v, hv, rfl⟩ := List.mem_map.1 hw
    have := (names_length h).2 v hv
    simp only [slashed, List.length_map]
    omega
  · have := (names_length h).1
    simp only [List.length_map]
    omega

/-! ## The files -/

theorem bareName_iff {f b : Str} : BareName f b ↔ getFilePart f = b := by
  rw [getFilePart_iff]
  unfold BareName
  simp only [List.append_assoc, List.cons_append, List.nil_append]

theorem path200 {dir f : Str} (hd : dir.length ≤ 99) (hf : f.length ≤ 90) : makeFullPath dir f 200 = pathIn dir f := by
  rw [fullPath_eq dir f hd hf, pathIn_eq]

theorem bareName_length {f b : Str} (h : BareName f b) : b.length ≤ f.length := by
  rcases h.2 with rfl | ⟨d, rfl⟩
  · exact Nat.le_refl _
  · simp; omega

theorem mm_has {m : MemMsg} {x : UInt16} : m.has x = true ↔ m.flags &&& x ≠ 0 := by
  unfold MemMsg.has; simp

theorem mm_hasNot {m : MemMsg} {x : UInt16} : m.has x = false ↔ m.flags &&& x = 0 := by
  unfold MemMsg.has; simp

theorem attachFile_ok {env : Env} {m : MemMsg} {dest : Node4D} {f : Str} {s t : HSt} (hf : f.length ≤ 90)
    (hp : s.cfg.packetDir.length ≤ 99) (hi : s.cfg.inbound.length ≤ 99) :
    attachFile env m dest f s = .ok () t ↔ ∃ es, FileSent env s.cfg m dest s.log f es ∧ t = { s with log := s.log ++ es } := by
  have hb : BareName f (getFilePart f) := bareName_iff.2 rfl
  have hl : (getFilePart f).length ≤ 90 := Nat.le_trans (bareName_length hb) hf
  unfold attachFile
  rw [get_bind]
  dsimp only
  rw [path200 hp hl, path200 hi hl]
  by_cases he : m.has MMFLAG_EXPORTED = true
  · rw [if_pos he]
    have he' := mm_has.1 he
    by_cases hx : env.fileExists s.log f = true
    · rw [if_pos hx]
      by_cases hc : env.copyOk s.log f (pathIn s.cfg.packetDir (getFilePart f)) = true
      · rw [if_pos hc, emit_bind, emit_run]
        simp only [List.append_assoc, List.cons_append, List.nil_append]
        constructor
        · intro h
          cases h
          exact ⟨_, .copied _ he' hb hx hc, rfl⟩
        · rintro ⟨es, h, rfl⟩
          cases h with
          | copied b h1 h2 h3 h4 => rw [bareName_iff] at h2; subst h2; rfl
          | absent h1 h2 => rw [hx] at h2; cases h2
          | moved b h1 => exact absurd h1 he'
          | stays b h1 => exact absurd h1 he'
      · rw [if_neg hc]
        constructor
        · intro h; cases h
        · rintro ⟨es, h, rfl⟩
          cases h with
          | copied b h1 h2 h3 h4 => rw [bareName_iff] at h2; subst h2; exact absurd h4 hc
          | absent h1 h2 => rw [hx] at h2; cases h2
          | moved b h1 => exact absurd h1 he'
          | stays b h1 => exact absurd h1 he'
    · rw [if_neg hx, emit_run]
      constructor
      · intro h
        cases h
        exact ⟨_, .absent he' (by simpa using hx), rfl⟩
      · rintro ⟨es, h, rfl⟩
        cases h with
        | copied b h1 h2 h3 h4 => exact absurd h3 hx
        | absent h1 h2 => rfl
        | moved b h1 => exact absurd h1 he'
        | stays b h1 => exact absurd h1 he'
  · rw [if_neg he]
    have he' := mm_hasNot.1 (Bool.not_eq_true _ ▸ he)
    by_cases hm : env.moveOk s.log (pathIn s.cfg.inbound (getFilePart f)) (pathIn s.cfg.packetDir (getFilePart f)) = true
    · rw [if_pos hm, emit_bind, emit_run]
      simp only [List.append_assoc, List.cons_append, List.nil_append]
      constructor
      · intro h
        cases h
        exact ⟨_, .moved _ he' hb hm, rfl⟩
      · rintro ⟨es, h, rfl⟩
        cases h with
        | copied b h1 => exact absurd he' h1
        | absent h1 h2 => exact absurd he' h1
        | moved b h1 h2 h3 => rw [bareName_iff] at h2; subst h2; rfl
        | stays b h1 h2 h3 => rw [bareName_iff] at h2; subst h2; rw [hm] at h3; cases h3
    · rw [if_neg hm, emit_run]
      constructor
      · intro h
        cases h
        exact ⟨_, .stays _ he' hb (by simpa using hm), rfl⟩
      · rintro ⟨es, h, rfl⟩
        cases h with
        | copied b h1 => exact absurd he' h1
        | absent h1 h2 => exact absurd he' h1
        | moved b h1 h2 h3 => rw [bareName_iff] at h2; subst h2; exact absurd h3 hm
        | stays b h1 h2 h3 => rw [bareName_iff] at h2; subst h2; rfl

theorem attachFile_fail {env : Env} {m : MemMsg} {dest : Node4D} {f : Str} {s : HSt} (hf : f.length ≤ 90)
    (hp : s.cfg.packetDir.length ≤ 99) : (∃ u, attachFile env m dest f s = .ok () u) ∨
      (attachFile env m dest f s = .fail s ∧ CopyFails env s.cfg m s.log f) := by
  have hb : BareName f (getFilePart f) := bareName_iff.2 rfl
  have hl : (getFilePart f).length ≤ 90 := Nat.le_trans (bareName_length hb) hf
  unfold attachFile
  rw [get_bind]
  dsimp only
  rw [path200 hp hl]
  by_cases he : m.has MMFLAG_EXPORTED = true
  · rw [if_pos he]
    by_cases hx : env.fileExists s.log f = true
    · rw [if_pos hx]
      by_cases hc : env.copyOk s.log f (pathIn s.cfg.packetDir (getFilePart f)) = true
      · rw [if_pos hc, emit_bind, emit_run]
        exact .inl ⟨_, rfl⟩
      · rw [if_neg hc]
        exact .inr ⟨rfl, mm_has.1 he, hx, _, hb, by simpa using hc⟩
    · rw [if_neg hx]
      exact .inl ⟨_, rfl⟩
  · rw [if_neg he]
    left
    split
    · exact ⟨_, rfl⟩
    · exact ⟨_, rfl⟩

theorem attachFiles_ok {env : Env} {m : MemMsg} {dest : Node4D} : ∀ (fs : List Str) (s t : HSt), (∀ f ∈ fs, f.length ≤ 90) →
    s.cfg.packetDir.length ≤ 99 → s.cfg.inbound.length ≤ 99 →
    (attachFiles env m dest fs s = .ok () t ↔ ∃ log, FilesSent env s.cfg m dest s.log fs log ∧ t = { s with log := log }) := by
  intro fs
  induction fs with
  | nil =>
    intro s t _ _ _
    constructor
    · intro h
      unfold attachFiles at h
      cases h
      exact ⟨_, .nil _, rfl⟩
    · rintro ⟨log, h, rfl⟩
      cases h
      rfl
  | cons f fs ih =>
    intro s t hf hp hi
    unfold attachFiles
    rw [bind_ok]
    constructor
    · rintro ⟨_, u, h1, h2⟩
      obtain ⟨es, h3, rfl⟩ := (attachFile_ok (hf f (by simp)) hp hi).1 h1
      obtain ⟨log, h4, rfl⟩ := (ih { s with log := s.log ++ es } _ (fun g hg => hf g (by simp [hg])) hp hi).1 h2
      exact ⟨log, .cons _ _ _ _ _ h3 h4, rfl⟩
    · rintro ⟨log, h, rfl⟩
      cases h with
      | cons _ _ _ es _ h1 h2 =>
        exact ⟨(), _, (attachFile_ok (hf f (by simp)) hp hi).2 ⟨es, h1, rfl⟩,
          (ih { s with log := s.log ++ es } _ (fun g hg => hf g (by simp [hg])) hp hi).2 ⟨log, h2, rfl⟩⟩

theorem attachFiles_fail {env : Env} {m : MemMsg} {dest : Node4D} : ∀ (fs : List Str) (s : HSt), (∀ f ∈ fs, f.length ≤ 90) →
    s.cfg.packetDir.length ≤ 99 → s.cfg.inbound.length ≤ 99 → (∃ t, attachFiles env m dest fs s = .ok () t) ∨
      ∃ gs f hs log, fs = gs ++ f :: hs ∧ FilesSent env s.cfg m dest s.log gs log ∧ CopyFails env s.cfg m log f ∧
        attachFiles env m dest fs s = .fail { s with log := log } := by
  intro fs
  induction fs with
  | nil => intro s _ _ _; exact .inl ⟨s, rfl⟩
  | cons f fs ih =>
    intro s hf hp hi
    rcases attachFile_fail (env := env) (m := m) (dest := dest) (f := f) (s := s) (hf f (by simp)) hp with ⟨u, h1⟩ | ⟨h1, h2⟩
    · obtain ⟨es, h3, rfl⟩ := (attachFile_ok (hf f (by simp)) hp hi).1 h1
      rcases ih { s with log := s.log ++ es } (fun g hg => hf g (by simp [hg])) hp hi with ⟨t, h4⟩ | ⟨gs, g, hs, log, h4, h5, h6, h7⟩
      · exact .inl ⟨t, by unfold attachFiles; rw [bind_of_ok h1, h4]⟩
      · refine .inr ⟨f :: gs, g, hs, log, by rw [h4]; rfl, .cons _ _ _ _ _ h3 h5, h6, ?_⟩
        unfold attachFiles
        rw [bind_of_ok h1, h7]
    · refine .inr ⟨[], f, fs, s.log, rfl, .nil _, h2, ?_⟩
      unfold attachFiles
      rw [bind_fail]
      exact .inl h1

/-! ## The message -/

theorem foldl_names : ∀ (ws : List Str) (s : Str), s ≠ [] →
    ws.foldl (fun s w => (if s = [] then s else s ++ [32]) ++ getFilePart w) s = blankJoin (s :: ws.map getFilePart) := by
  intro ws
  induction ws with
  | nil => intro s _; rfl
  | cons w ws ih =>
    intro s hs
    rw [List.foldl_cons, if_neg hs, ih _ (by simp [hs])]
    cases ws with
    | nil => simp [blankJoin]
    | cons v vs => simp [blankJoin]

/-- The first name is not empty: the names are joined. -/
theorem subject_names {fs bs : List Str} (hb : fs.map getFilePart = bs) (hn : ∀ b ∈ bs, b ≠ []) :
    fs.foldl (fun s w => (if s = [] then s else s ++ [32]) ++ getFilePart w) [] = blankJoin bs := by
  subst hb
  cases fs with
  | nil => rfl
  | cons f fs =>
    rw [List.foldl_cons, if_pos rfl, List.nil_append, foldl_names _ _ (hn _ (by simp)), List.map_cons]

/-- The bare names of the files. -/
def BareNames (ws : List Str) (bs : List Str) : Prop := bs.length = ws.length ∧ ∀ (i : Nat) (w : Str), ws[i]? = some w → ∃ b, bs[i]? = some b ∧ BareName (slashed w) b

theorem bareNames_map {ws bs : List Str} (h : BareNames ws bs) : (ws.map slashed).map getFilePart = bs := by
  refine List.ext_getElem? fun i => ?_
  rw [List.getElem?_map, List.getElem?_map]
  cases hw : ws[i]? with
  | none =>
    rw [List.getElem?_eq_none_iff] at hw
    have : bs[i]? = none := List.getElem?_eq_none_iff.2 (by rw [h.1]; exact hw)
    rw [this]; rfl
  | some w =>
    obtain ⟨b, h1, h2⟩ := h.2 i w hw
    rw [h1, Option.map_some, Option.map_some, bareName_iff.1 h2]

/-- C112. What is done with the files of a file attach on its way to the node `dest`: the files named
in the subject are sent one after the other, and the subject keeps the names alone. -/
theorem attach_sent {env : Env} {m m' : MemMsg} {dest : Node4D} {s t : HSt} {ws bs : List Str} (ha : m.attr &&& FLAG_FILEATTACH ≠ 0)
    (hs : m.subject.length < 72) (hn : NamesIn ws m.subject) (hb : BareNames ws bs) (hne : ∀ b ∈ bs, b ≠ [])
    (hp : s.cfg.packetDir.length ≤ 99) (hi : s.cfg.inbound.length ≤ 99) :
    handleAttach env m dest s = .ok m' t ↔ (∃ log, FilesSent env s.cfg m dest s.log (ws.map slashed) log ∧ t = { s with log := log }) ∧
      m' = { m with subject := blankJoin bs } := by
  have hlen : ∀ f ∈ ws.map slashed, f.length ≤ 90 := by
    intro f hf
    obtain ⟨w, hw, rfl⟩ := List.mem_map.1 hf
    have := (names_length hn).2 w hw
    simp only [slashed, List.length_map]
    omega
  unfold handleAttach
  rw [if_pos (by unfold MemMsg.attrHas; simpa using ha), subjWords_names hn hs, bind_of_ok (liftO_ok.2 ⟨rfl, rfl⟩), bind_ok]
  constructor
  · rintro ⟨_, u, h1, h2⟩
    cases h2
    exact ⟨(attachFiles_ok _ _ _ hlen hp hi).1 h1, by rw [subject_names (bareNames_map hb) hne]⟩
  · rintro ⟨h1, rfl⟩
    refine ⟨(), t, (attachFiles_ok _ _ _ hlen hp hi).2 h1, ?_⟩
    rw [subject_names (bareNames_map hb) hne]
    rfl

/-- C112. It can only fail because a file of a message written here cannot be copied. -/
theorem attach_fails {env : Env} {m : MemMsg} {dest : Node4D} {s : HSt} {ws : List Str} (ha : m.attr &&& FLAG_FILEATTACH ≠ 0)
    (hs : m.subject.length < 72) (hn : NamesIn ws m.subject) (hp : s.cfg.packetDir.length ≤ 99) (hi : s.cfg.inbound.length ≤ 99) :
    (∃ m' t, handleAttach env m dest s = .ok m' t) ∨
      ∃ gs f hs log, ws.map slashed = gs ++ f :: hs ∧ FilesSent env s.cfg m dest s.log gs log ∧ CopyFails env s.cfg m log f ∧
        handleAttach env m dest s = .fail { s with log := log } := by
  have hlen : ∀ f ∈ ws.map slashed, f.length ≤ 90 := by
    intro f hf
    obtain ⟨w, hw, rfl⟩ := List.mem_map.1 hf
    have := (names_length hn).2 w hw
    simp only [slashed, List.length_map]
    omega
  unfold handleAttach
  rw [if_pos (by unfold MemMsg.attrHas; simpa using ha), subjWords_names hn hs, bind_of_ok (liftO_ok.2 ⟨rfl, rfl⟩)]
  rcases attachFiles_fail (env := env) (m := m) (dest := dest) _ s hlen hp hi with ⟨t, h⟩ | ⟨gs, f, hs, log, h1, h2, h3, h4⟩
  · exact .inl ⟨_, t, by rw [bind_of_ok h]; rfl⟩
  · exact .inr ⟨gs, f, hs, log, h1, h2, h3, by rw [bind_fail]; exact .inl h4⟩

/-- C112. A message without the attach bit sends no files and keeps its subject. -/
theorem attach_none {env : Env} {m : MemMsg} {dest : Node4D} {s : HSt} (ha : m.attr &&& FLAG_FILEATTACH = 0) :
    handleAttach env m dest s = .ok m s := by
  unfold handleAttach
  rw [if_neg (by unfold MemMsg.attrHas; simp [ha])]
  rfl

/-! ## What a sent file is -/

/-- C112. A file that came with a message is only ever taken from the inbound: what a node is told to
fetch lies in the inbound or the packet directory, and no file is copied. -/
theorem tossed_file {env : Env} {cfg : Config} {m : MemMsg} {dest : Node4D} {log es : List Effect} {f : Str}
    (h : FileSent env cfg m dest log f es) (ht : m.flags &&& MMFLAG_EXPORTED = 0) :
    ∃ b, BareName f b ∧ ∀ e ∈ es, e = .moveFile (pathIn cfg.inbound b) (pathIn cfg.packetDir b) ∨
      e = .flow (pathIn cfg.packetDir b) dest m.type true ∨ e = .flow (pathIn cfg.inbound b) dest m.type true := by
  cases h with
  | copied b h1 => exact absurd ht h1
  | absent h1 => exact absurd ht h1
  | moved b _ h2 _ => exact ⟨b, h2, by simp⟩
  | stays b _ h2 _ => exact ⟨b, h2, by simp⟩

/-- C112. A file of a message written here is never moved and never marked for deletion; only its
copy is. -/
theorem exported_file {env : Env} {cfg : Config} {m : MemMsg} {dest : Node4D} {log es : List Effect} {f : Str}
    (h : FileSent env cfg m dest log f es) (ht : m.flags &&& MMFLAG_EXPORTED ≠ 0) (hf : ∀ b, BareName f b → f ≠ pathIn cfg.packetDir b) :
    (∀ a b, Effect.moveFile a b ∉ es) ∧ ∀ d p, Effect.flow f d p true ∉ es := by
  cases h with
  | copied b _ h2 _ _ =>
    refine ⟨by simp, ?_⟩
    intro d p hm
    simp only [List.mem_cons, List.not_mem_nil, or_false, reduceCtorEq, false_or, Effect.flow.injEq] at hm
    exact hf b h2 hm.1
  | absent => simp
  | moved b h1 => exact absurd h1 ht
  | stays b h1 => exact absurd h1 ht

/-- C112. For every file named exactly one file is entered for the node. -/
theorem files_entered {env : Env} {cfg : Config} {m : MemMsg} {dest : Node4D} {log log' : List Effect} {fs : List Str}
    (h : FilesSent env cfg m dest log fs log') : ∃ es, log' = log ++ es ∧
      (es.filter fun e => match e with | .flow _ d p _ => decide (d = dest) && p == m.type | _ => false).length = fs.length ∧
      ∀ d a x, Effect.netmail d a x ∉ es := by
  induction h with
  | nil log => exact ⟨[], by simp, rfl, by simp⟩
  | cons log f fs es log' h1 _ ih =>
    obtain ⟨r, h2, h3, h4⟩ := ih
    refine ⟨es ++ r, by rw [h2, List.append_assoc], ?_, ?_⟩
    · rw [List.filter_append, List.length_append, h3, List.length_cons, Nat.add_comm]
      congr 1
      cases h1 <;> simp
    · intro d a x hm
      rcases List.mem_append.1 hm with hm | hm
      · cases h1 <;> simp at hm
      · exact h4 d a x hm

/-! ## Netmails that are not passed on -/

theorem addr4_text (n : Node4D) (r : Str) : addr4 n ++ r = dec n.zone.toNat ++ b!":" ++ dec n.net.toNat ++ b!"/" ++ dec n.node.toNat ++ b!"." ++
    dec n.point.toNat ++ r := rfl

theorem unlisted_iff (cfg : Config) (m : MemMsg) :
    (cfg.nlConfigured && cfg.bounceList.any (fun p => compare4DPat cfg.nl p m.dest) && !cfg.nlCheck m.dest.boss) = true ↔
      Refusal.Holds cfg m .unlisted := by
  unfold Refusal.Holds bossOf Node4D.boss
  simp only [Bool.and_eq_true, List.any_eq_true, Bool.not_eq_true', and_assoc]

theorem noPoint_iff (cfg : Config) (m : MemMsg) :
    (cfg.has CFG_BOUNCEPOINTS && cfg.akas.any (fun a => compare4D a.node m.dest.boss == 0 && a.node.point == 0) && !cfg.isNode m.dest) = true ↔
      Refusal.Holds cfg m .noPoint := by
  unfold Refusal.Holds
  dsimp only
  rw [← isNode_configured]
  unfold bossOf Node4D.boss SameNode
  simp only [Bool.and_eq_true, List.any_eq_true, Bool.not_eq_true', and_assoc, beq_iff_eq, compare4D_eq_zero_iff, Bool.not_eq_true]
  constructor
  · rintro ⟨h1, ⟨a, h2, h3, h4, h5, h6, _⟩, h7⟩
    exact ⟨h1, ⟨a, h2, h3, h4, h5, h6⟩, h7⟩
  · rintro ⟨h1, ⟨a, h2, h3, h4, h5, h6⟩, h7⟩
    exact ⟨h1, ⟨a, h2, h3, h4, h5, h6, h5⟩, h7⟩

theorem noAttach_iff (cfg : Config) (m : MemMsg) :
    (m.attrHas FLAG_FILEATTACH && !m.has MMFLAG_EXPORTED && !cfg.fileAttachList.any (fun p => compare4DPat cfg.nl p m.dest)) = true ↔
      Refusal.Holds cfg m .noAttach := by
  unfold Refusal.Holds MemMsg.attrHas MemMsg.has
  simp only [Bool.and_eq_true, Bool.not_eq_true', and_assoc, bne_iff_ne, ne_eq, bne_eq_false_iff_eq, List.any_eq_false, Bool.not_eq_true]

/-- C112. A netmail is sent back for the first reason there is, and the sender is told which. -/
theorem refused_iff (cfg : Config) (m : MemMsg) (x : Str) :
    bounceReason cfg m = some x ↔ ∃ r, FirstRefusal cfg m r ∧ x = r.text m.dest := by
  unfold bounceReason
  by_cases h1 : Refusal.Holds cfg m .unlisted
  · rw [if_pos ((unlisted_iff cfg m).2 h1), Option.some.injEq]
    constructor
    · rintro rfl; exact ⟨_, .unlisted h1, rfl⟩
    · rintro ⟨r, h, rfl⟩
      cases h with
      | unlisted => rfl
      | noPoint h => exact absurd h1 h
      | noAttach h => exact absurd h1 h
  rw [if_neg (fun e => h1 ((unlisted_iff cfg m).1 e))]
  by_cases h2 : Refusal.Holds cfg m .noPoint
  · rw [if_pos ((noPoint_iff cfg m).2 h2), Option.some.injEq]
    constructor
    · rintro rfl; exact ⟨_, .noPoint h1 h2, by simp [Refusal.text, addr4]⟩
    · rintro ⟨r, h, rfl⟩
      cases h with
      | unlisted h => exact absurd h h1
      | noPoint _ h => simp [Refusal.text, addr4]
      | noAttach _ h => exact absurd h2 h
  rw [if_neg (fun e => h2 ((noPoint_iff cfg m).1 e))]
  by_cases h3 : Refusal.Holds cfg m .noAttach
  · rw [if_pos ((noAttach_iff cfg m).2 h3), Option.some.injEq]
    constructor
    · rintro rfl; exact ⟨_, .noAttach h1 h2 h3, by simp [Refusal.text, addr4]⟩
    · rintro ⟨r, h, rfl⟩
      cases h with
      | unlisted h => exact absurd h h1
      | noPoint _ h => exact absurd h h2
      | noAttach _ _ h => simp [Refusal.text, addr4]
  rw [if_neg (fun e => h3 ((noAttach_iff cfg m).1 e))]
  constructor
  · intro h; cases h
  · rintro ⟨r, h, rfl⟩
    cases h with
    | unlisted h => exact absurd h h1
    | noPoint _ h => exact absurd h h2
    | noAttach _ _ h => exact absurd h h3

theorem passed_iff (cfg : Config) (m : MemMsg) : bounceReason cfg m = none ↔ ∀ r, ¬ Refusal.Holds cfg m r := by
  constructor
  · intro h r hr
    have hx : ∃ r, FirstRefusal cfg m r := by
      by_cases h1 : Refusal.Holds cfg m .unlisted
      · exact ⟨_, .unlisted h1⟩
      by_cases h2 : Refusal.Holds cfg m .noPoint
      · exact ⟨_, .noPoint h1 h2⟩
      by_cases h3 : Refusal.Holds cfg m .noAttach
      · exact ⟨_, .noAttach h1 h2 h3⟩
      cases r
      · exact absurd hr h1
      · exact absurd hr h2
      · exact absurd hr h3
    obtain ⟨r', hr'⟩ := hx
    have := (refused_iff cfg m _).2 ⟨r', hr', rfl⟩
    rw [h] at this; cases this
  · intro h
    cases hb : bounceReason cfg m with
    | none => rfl
    | some x =>
      obtain ⟨r, hr, -⟩ := (refused_iff cfg m x).1 hb
      cases hr with
      | unlisted h1 => exact absurd h1 (h _)
      | noPoint _ h1 => exact absurd h1 (h _)
      | noAttach _ _ h1 => exact absurd h1 (h _)

/-- The message as it is routed. -/
def routedMsg (m : MemMsg) (pri : Pri) : MemMsg := { m with attr := routedAttr m, type := pri.toType }

/-- C112. A netmail for which there is a reason is not passed on: it is sent back with the text of the
reason, and no file of it is touched before. -/
theorem route_refused {env : Env} {self : MemMsg → M Unit} {m : MemMsg} {s : HSt} {dest aka : Node4D} {pri : Pri} {r : Refusal}
    (hr : routeNetmail s.cfg.nl s.cfg.routes s.cfg.changes m.dest (netmailPri s.cfg { m with attr := routedAttr m }) = some (dest, pri, aka))
    (hl : s.cfg.loopMode = 0) (hb : FirstRefusal s.cfg (routedMsg m pri) r) :
    routeOn env self m s = bounce env self (routedMsg m pri) (r.text m.dest) (s.cfg.has CFG_BOUNCEHEADERONLY) s := by
  have hx := (refused_iff _ _ _).2 ⟨r, hb, rfl⟩
  have hr' : routeNetmail s.cfg.nl s.cfg.routes s.cfg.changes m.dest (netmailPri s.cfg { m with attr := routedAttr m, type := (netmailPri s.cfg { m with attr := routedAttr m }).toType }) = some (dest, pri, aka) := hr
  unfold routeOn
  rw [get_bind]
  dsimp only
  rw [hr']
  dsimp only
  have hc : checkLoop env (routedMsg m pri) s = .ok () s := by
    unfold checkLoop
    rw [get_bind, if_neg (by simp [hl])]
    rfl
  unfold routedMsg at hc hx
  rw [bind_of_ok hc, hx]
  rfl

theorem via_same {m m' : MemMsg} {aka : Node4D} {time : Str} (ha : m.area = []) (h : mmAddLine m (viaLine aka time) = .ok (some m')) :
    m' = { m with text := m'.text } := by
  have hk : processKludge m (viaLine aka time) = .ok m := processKludge_other m 86 105 _ (by decide)
  rw [mmAddLine_kludge m _ m ha rfl hk] at h
  exact addText_keep h

/-- C112. A netmail that is passed on sends its files to the node it goes to and follows them. -/
theorem route_attach {env : Env} {self : MemMsg → M Unit} {m : MemMsg} {s t : HSt} {dest aka : Node4D} {pri : Pri} {ws bs : List Str}
    (har : m.area = [])
    (hr : routeNetmail s.cfg.nl s.cfg.routes s.cfg.changes m.dest (netmailPri s.cfg { m with attr := routedAttr m }) = some (dest, pri, aka))
    (hl : s.cfg.loopMode = 0) (hb : ∀ r, ¬ Refusal.Holds s.cfg (routedMsg m pri) r)
    (ha : routedAttr m &&& FLAG_FILEATTACH ≠ 0) (hau : routedAttr m &&& FLAG_AUDIT = 0)
    (hs : m.subject.length < 72) (hn : NamesIn ws m.subject) (hbs : BareNames ws bs) (hne : ∀ b ∈ bs, b ≠ [])
    (hp : s.cfg.packetDir.length ≤ 99) (hi : s.cfg.inbound.length ≤ 99) (h : routeOn env self m s = .ok () t) :
    ∃ log x, FilesSent env s.cfg (routedMsg m pri) dest s.log (ws.map slashed) log ∧ t = { s with log := log ++ [.netmail dest aka x] } ∧
      x = { routedMsg m pri with subject := blankJoin bs, text := x.text } := by
  have hx := (passed_iff _ _).2 hb
  have hr' : routeNetmail s.cfg.nl s.cfg.routes s.cfg.changes m.dest (netmailPri s.cfg { m with attr := routedAttr m, type := (netmailPri s.cfg { m with attr := routedAttr m }).toType }) = some (dest, pri, aka) := hr
  unfold routeOn at h
  rw [get_bind] at h
  dsimp only at h
  rw [hr'] at h
  dsimp only at h
  have hc : checkLoop env (routedMsg m pri) s = .ok () s := by
    unfold checkLoop
    rw [get_bind, if_neg (by simp [hl])]
    rfl
  unfold routedMsg at hc hx
  rw [bind_of_ok hc, hx] at h
  dsimp only at h
  rw [bind_ok] at h
  obtain ⟨m1, u, h1, h⟩ := h
  obtain ⟨⟨log, h2, rfl⟩, rfl⟩ := (attach_sent (by exact ha) (by exact hs) (by exact hn) hbs hne hp hi).1 h1
  rw [get_bind, bind_ok] at h
  obtain ⟨x, v, h3, h⟩ := h
  rw [liftO_ok] at h3
  obtain ⟨h3, rfl⟩ := h3
  have hk := mmAddLine_keep h3
  have hv := via_same (by exact har) h3
  rw [bind_ok] at h
  obtain ⟨_, v, h4, h⟩ := h
  unfold sendNetmail at h4
  split at h4
  · cases h4
    rw [if_neg] at h
    · cases h
      exact ⟨log, x, h2, rfl, hv⟩
    · rw [hk.attrHas]
      unfold MemMsg.attrHas
      rw [hau]
      simp
  · cases h4

/-! ## Concrete cases -/

namespace Ex

/-- A system that routes everything to 1:2/4. -/
def atCfg : Config where
  akas := [{ node := ⟨1, 2, 3, 0⟩ }]
  nodes := [node 4 0]
  routes := [⟨⟨.pattern, b!"*", b!"*", b!"*", b!"*"⟩, ⟨.pattern, b!"1", b!"2", b!"4", b!"0"⟩, ⟨1, 2, 3, 0⟩⟩]
  fileAttachList := [⟨.pattern, b!"*", b!"*", b!"*", b!"*"⟩]
  inbound := b!"/in"
  packetDir := b!"/pkt/"
  nl := ⟨false, fun _ => 0, fun _ => 0⟩
  nlCheck := fun _ => true

def atMsg (flags : UInt16) (subject : Str) : MemMsg :=
  { orig := ⟨1, 2, 3, 0⟩, dest := ⟨1, 2, 9, 0⟩, frm := b!"A", to := b!"B", date := b!"01 Jan 00  00:00:00", subject := subject
    attr := FLAG_FILEATTACH, flags := flags, text := [b!"hello\r"] }

/-- Files moved and copied, files entered and subjects sent. -/
def atLog (x : Out Unit) : List (Str × Str) :=
  match x with
  | .ok _ t => t.log.filterMap fun e => match e with
    | .copyFile a b => some (a, b)
    | .moveFile a b => some (a, b)
    | .flow f _ _ d => some (if d then b!"send, delete" else b!"send", f)
    | .netmail _ _ m => some (b!"mail", m.subject)
    | _ => none
  | _ => []

/-- Two files of a message that came in; the directory named by the sender does not matter. -/
theorem attach_two : atLog (routeOn env (fun _ => pure ()) (atMsg MMFLAG_TOSSED b!"C:\\UP\\A.ZIP,/etc/passwd") (st atCfg)) =
    [(b!"/in/A.ZIP", b!"/pkt/A.ZIP"), (b!"send, delete", b!"/pkt/A.ZIP"), (b!"/in/passwd", b!"/pkt/passwd"),
      (b!"send, delete", b!"/pkt/passwd"), (b!"mail", b!"A.ZIP passwd")] := by decide +kernel

/-- A file of a message written here that is not there. -/
theorem attach_absent : atLog (routeOn env (fun _ => pure ()) (atMsg MMFLAG_EXPORTED b!"/home/a.zip") (st atCfg)) =
    [(b!"send", b!"/home/a.zip"), (b!"mail", b!"a.zip")] := by decide +kernel

/-- The hypotheses of `route_attach` hold for the first of these. -/
theorem attach_hyps : NamesIn [b!"C:\\UP\\A.ZIP", b!"/etc/passwd"] (atMsg MMFLAG_TOSSED b!"C:\\UP\\A.ZIP,/etc/passwd").subject ∧
    BareNames [b!"C:\\UP\\A.ZIP", b!"/etc/passwd"] [b!"A.ZIP", b!"passwd"] ∧
    bounceReason atCfg (routedMsg (atMsg MMFLAG_TOSSED b!"C:\\UP\\A.ZIP,/etc/passwd") .normal) = none := by
  have n1 : AttachName b!"C:\\UP\\A.ZIP" := ⟨by decide, by decide, by unfold NameSep; decide⟩
  have n2 : AttachName b!"/etc/passwd" := ⟨by decide, by decide, by unfold NameSep; decide⟩
  refine ⟨.cons [] _ 44 _ _ (by simp) n1 (.inr (.inr rfl)) (.last [] _ (by simp) n2), ⟨rfl, ?_⟩, by decide +kernel⟩
  intro i w h
  match i, h with
  | 0, h => cases h; exact ⟨_, rfl, bareName_iff.2 (by decide)⟩
  | 1, h => cases h; exact ⟨_, rfl, bareName_iff.2 (by decide)⟩
  | n + 2, h => simp at h

/-- C112 (violated for `..`). The sender of a file attach can have the directory above the inbound
moved and sent instead of a file. -/
theorem attach_parent : atLog (routeOn env (fun _ => pure ()) (atMsg MMFLAG_TOSSED b!"..") (st atCfg)) =
    [(b!"/in/..", b!"/pkt/.."), (b!"send, delete", b!"/pkt/.."), (b!"mail", b!"..")] := by decide +kernel

/-- C112 (violated for names that end with a separator). Here it is the inbound itself. -/
theorem attach_inbound : atLog (routeOn env (fun _ => pure ()) (atMsg MMFLAG_TOSSED b!"files\\") (st atCfg)) =
    [(b!"/in/", b!"/pkt/"), (b!"send, delete", b!"/pkt/"), (b!"mail", [])] := by decide +kernel

/-- A system that takes no file attaches for others sends them back. -/
theorem attach_refused : FirstRefusal { atCfg with fileAttachList := [] } (atMsg MMFLAG_TOSSED b!"a") .noAttach := by
  refine .noAttach ?_ ?_ ⟨by decide, by decide, by simp⟩
  · rintro ⟨h, -⟩; exact absurd h (by decide)
  · rintro ⟨h, -⟩; exact absurd h (by decide)

end Ex

end CM
