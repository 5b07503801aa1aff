import Verif.Model.GetNode
import Verif.Spec.GetNode
import Verif.Props.Nodelist
/-! # Lemmas about CrashGetNode -/

set_option linter.unusedSimpArgs false

namespace CM

theorem dropWhile_mem_ne (p : UInt8 → Bool) (l : List UInt8) (c : UInt8) (h : c ∈ l) (hp : p c = false) :
    l.dropWhile p ≠ [] := by
  induction l with
  | nil => simp at h
  | cons a t ih =>
    rw [List.dropWhile_cons]
    split
    · next ha =>
      rcases List.mem_cons.1 h with rfl | h
      · rw [hp] at ha; cases ha
      · exact ih h
    · simp

/-- A line with a comma is no problem for `strip`. -/
theorem gnStrip_ok (s : Str) (h : (44 : UInt8) ∈ s) : ∃ t, gnStrip s = .ok t := by
  unfold gnStrip
  cases hx : s.reverse.dropWhile gnBlank with
  | nil => exact absurd hx (dropWhile_mem_ne _ _ 44 (List.mem_reverse.2 h) (by decide))
  | cons c r => exact ⟨_, rfl⟩

theorem gnStrip_text (t ws : Str) (c : UInt8) (hl : t.getLast? = some c) (h1 : 33 ≤ c) (h2 : c < 128)
    (hw : ∀ x ∈ ws, x < 33) : gnStrip (t ++ ws) = .ok t := by
  obtain ⟨t, rfl⟩ := List.getLast?_eq_some_iff.1 hl
  unfold gnStrip
  have e : (t ++ [c] ++ ws).reverse = ws.reverse ++ c :: t.reverse := by simp
  have hb : gnBlank c = false := by
    unfold gnBlank
    rw [Bool.or_eq_false_iff]
    constructor
    · simpa using h1
    · simpa using h2
  rw [e, List.dropWhile_append_of_pos (fun x hx => by
    have := hw x (List.mem_reverse.1 hx)
    simp [gnBlank, this]), List.dropWhile_cons_of_neg (by simp [hb])]
  simp

theorem takeWhile_noComma (f r : Str) (h : (44 : UInt8) ∉ f) (hr : r = [] ∨ r.head? = some 44) :
    (f ++ r).takeWhile (· != 44) = f ∧ (f ++ r).dropWhile (· != 44) = r := by
  have hp : ∀ c ∈ f, (c != 44) = true := by
    intro c hc
    simp only [bne_iff_ne, ne_eq]
    rintro rfl
    exact h hc
  rw [List.takeWhile_append_of_pos hp, List.dropWhile_append_of_pos hp]
  rcases hr with rfl | hr
  · simp
  · cases r with
    | nil => simp at hr
    | cons a t =>
      simp only [List.head?_cons, Option.some.injEq] at hr
      subst hr
      simp

theorem gnTok_field (f r : Str) (hf : f ≠ []) (h : (44 : UInt8) ∉ f) (hr : r = [] ∨ r.head? = some 44) :
    gnTok (f ++ r) = (some f, r.drop 1) := by
  have h2 := takeWhile_noComma f r h hr
  cases f with
  | nil => exact absurd rfl hf
  | cons a t =>
    have ha : a ≠ 44 := by rintro rfl; exact h (List.mem_cons_self ..)
    unfold gnTok
    rw [List.cons_append] at h2 ⊢
    rw [List.dropWhile_cons_of_neg (by simpa using ha)]
    dsimp only
    rw [h2.1, h2.2]

theorem gnTok_comma (s : Str) : gnTok (44 :: s) = gnTok s := rfl

/-- What follows a field. -/
def commaTail (r : List Str) : Str := if r = [] then [] else 44 :: commaJoin r

theorem commaJoin_cons (f : Str) (r : List Str) : commaJoin (f :: r) = f ++ commaTail r := by
  cases r with
  | nil => simp [commaJoin, commaTail]
  | cons g t => simp [commaJoin, commaTail]

theorem commaTail_head (r : List Str) : commaTail r = [] ∨ (commaTail r).head? = some 44 := by
  unfold commaTail
  split
  · exact .inl rfl
  · exact .inr rfl

theorem commaTail_drop (r : List Str) : (commaTail r).drop 1 = commaJoin r := by
  unfold commaTail
  split
  · next h => subst h; rfl
  · rfl

theorem gnTok_join (f : Str) (r : List Str) (hf : f ≠ []) (h : (44 : UInt8) ∉ f) :
    gnTok (commaJoin (f :: r)) = (some f, commaJoin r) := by
  rw [commaJoin_cons, gnTok_field f _ hf h (commaTail_head r), commaTail_drop]

/-- One field is shown, if there is one. -/
theorem gnShow_fields (label : Str) (fs : List Str) (hf : ∀ f ∈ fs.take 1, f ≠ []) (h : ∀ f ∈ fs, (44 : UInt8) ∉ f) :
    gnShow label (commaJoin fs) =
      ((List.zipWith (fun n f => n ++ b!": " ++ f ++ b!"\n") [label] fs).flatten, commaJoin (fs.drop 1)) := by
  cases fs with
  | nil => rfl
  | cons f r =>
    unfold gnShow
    rw [gnTok_join f r (hf f (by simp)) (h f (List.mem_cons_self ..))]
    simp

theorem show_all (f2 : List Str) (labels : List Str) (h : ∀ f ∈ f2, (44 : UInt8) ∉ f)
    (hf : ∀ f ∈ f2.take labels.length, f ≠ []) :
    labels.foldl (fun (p : Str × Str) l => (p.1 ++ (gnShow l p.2).1, (gnShow l p.2).2)) ([], commaJoin f2) =
      ((List.zipWith (fun n f => n ++ b!": " ++ f ++ b!"\n") labels f2).flatten, commaJoin (f2.drop labels.length)) := by
  have key : ∀ (labels : List Str) (acc : Str) (f2 : List Str), (∀ f ∈ f2, (44 : UInt8) ∉ f) →
      (∀ f ∈ f2.take labels.length, f ≠ []) →
      labels.foldl (fun (p : Str × Str) l => (p.1 ++ (gnShow l p.2).1, (gnShow l p.2).2)) (acc, commaJoin f2) =
      (acc ++ (List.zipWith (fun n f => n ++ b!": " ++ f ++ b!"\n") labels f2).flatten, commaJoin (f2.drop labels.length)) := by
    intro labels
    induction labels with
    | nil => intro acc f2 _ _; simp
    | cons l r ih =>
      intro acc f2 h hf
      rw [List.foldl_cons]
      dsimp only
      rw [gnShow_fields l f2 (by
        intro f hm
        refine hf f (?_)
        rw [List.length_cons]
        cases f2 with
        | nil => simp at hm
        | cons a t => simp at hm; subst hm; simp) h]
      dsimp only
      rw [ih _ (f2.drop 1) (fun f hm => h f (List.mem_of_mem_drop hm)) (by
        intro f hm
        refine hf f ?_
        cases f2 with
        | nil => simp at hm
        | cons a t =>
          simp only [List.length_cons, List.take_succ_cons, List.mem_cons]
          right
          simpa using hm)]
      cases f2 with
      | nil => simp
      | cons a t => simp
  have := key labels [] f2 h hf
  simpa using this

/-- Lines with LF at the end. -/
def lfLines (ls : List Str) : Str := ls.flatMap fun l => l ++ [10]

/-- What is shown about a line whose fields are not empty. -/
theorem gnLine_fields (line : Str) (fs : List Str) (h : LineOf line fs)
    (hne : ∀ f ∈ (fs.take 7).drop 1, f ≠ []) :
    gnLine line = .ok (lfLines ([b!"Node is listed as a " ++ (if fs.headD [] = [] then b!"Node" else fs.headD [])] ++
      List.zipWith (fun n f => n ++ b!": " ++ f) fieldNames (fs.drop 2) ++
      (if commaJoin (fs.drop 7) = [] then [] else [b!"Flags: " ++ commaJoin (fs.drop 7)]))) := by
  obtain ⟨ws, hl, hws⟩ := h.text
  obtain ⟨c, hc, h1, h2⟩ := h.ends
  cases fs with
  | nil => exact absurd h.two (by simp)
  | cons kw r =>
    cases r with
    | nil => exact absurd h.two (by simp)
    | cons num f2 =>
      have hkw : (44 : UInt8) ∉ kw := h.noComma _ (by simp)
      have hnum : (44 : UInt8) ∉ num := h.noComma _ (by simp)
      have hnn : num ≠ [] := hne _ (by simp)
      have hf2 : ∀ f ∈ f2, (44 : UInt8) ∉ f := fun f hf => h.noComma f (by simp [hf])
      unfold gnLine
      rw [hl, gnStrip_text _ _ c hc h1 h2 hws]
      have hk : (if (commaJoin (kw :: num :: f2)).head? = some 44 then (b!"Node", (gnTok (commaJoin (kw :: num :: f2))).2)
          else ((gnTok (commaJoin (kw :: num :: f2))).1.getD [], (gnTok (gnTok (commaJoin (kw :: num :: f2))).2).2)) =
          ((if kw = [] then b!"Node" else kw), commaJoin f2) := by
        cases kw with
        | nil =>
          have e : commaJoin ([] :: num :: f2) = 44 :: commaJoin (num :: f2) := rfl
          rw [e, if_pos rfl, gnTok_comma, gnTok_join num f2 hnn hnum]
          rfl
        | cons a t =>
          have ha : a ≠ 44 := by rintro rfl; exact hkw (List.mem_cons_self ..)
          rw [if_neg (by
            rw [commaJoin_cons]
            simpa using ha), gnTok_join _ _ (by simp) hkw]
          dsimp only
          rw [gnTok_join num f2 hnn hnum]
          simp
      dsimp only [bind, Except.bind]
      rw [hk]
      dsimp only
      have hs := show_all f2 fieldNames hf2 (by
        intro f hf
        refine hne f ?_
        simp [fieldNames] at hf
        simp [hf])
      simp only [fieldNames, List.foldl_cons, List.foldl_nil, List.nil_append, Prod.mk.injEq, List.length_cons,
        List.length_nil] at hs
      obtain ⟨hs1, hs2⟩ := hs
      rw [hs2]
      have hfl : gnFlags (commaJoin (f2.drop (0 + 1 + 1 + 1 + 1 + 1))) =
          lfLines (if commaJoin ((kw :: num :: f2).drop 7) = [] then [] else [b!"Flags: " ++ commaJoin ((kw :: num :: f2).drop 7)]) := by
        unfold gnFlags gnRest
        have e : (kw :: num :: f2).drop 7 = f2.drop (0 + 1 + 1 + 1 + 1 + 1) := rfl
        rw [e]
        by_cases hz : commaJoin (f2.drop (0 + 1 + 1 + 1 + 1 + 1)) = []
        · rw [if_pos hz, if_pos hz]; rfl
        · rw [if_neg hz, if_neg hz]; simp [lfLines]
      rw [hfl]
      have hz : ∀ (ls fs : List Str), (List.zipWith (fun n f => n ++ b!": " ++ f ++ b!"\n") ls fs).flatten =
          lfLines (List.zipWith (fun n f => n ++ b!": " ++ f) ls fs) := by
        intro ls
        induction ls with
        | nil => intro fs; rfl
        | cons l r ih =>
          intro fs
          cases fs with
          | nil => rfl
          | cons f t =>
            rw [List.zipWith_cons_cons, List.zipWith_cons_cons, List.flatten_cons, ih t]
            simp [lfLines]
      rw [hz] at hs1
      have hsplit : ∀ a b : List Str, lfLines (a ++ b) = lfLines a ++ lfLines b := by
        intro a b; simp [lfLines]
      rw [hsplit, hsplit]
      have e2 : (kw :: num :: f2).drop 2 = f2 := rfl
      rw [e2]
      have e3 : (kw :: num :: f2).headD [] = kw := rfl
      rw [e3, fieldNames, ← hs1]
      simp [lfLines]

/-! ## The first entry -/

theorem firstEntry_unique (fs : List TextList) (node : Node4D) {j j' k k' : Nat} {f f' : TextList} {e e' : NlEntry}
    (h : FirstEntry TextList.zone TextList.lines fs node j f k e)
    (h' : FirstEntry TextList.zone TextList.lines fs node j' f' k' e') : f = f' ∧ k = k' ∧ e = e' := by
  obtain ⟨h1, h2, h3, h4⟩ := h
  obtain ⟨g1, g2, g3, g4⟩ := h'
  have a := h4 j' f' k' e' g1 g2 g3
  have b := g4 j f k e h1 h2 h3
  have hj : j = j' := by omega
  have hk : k = k' := by omega
  subst hj hk
  rw [h1] at g1
  injection g1 with g1
  subst g1
  refine ⟨rfl, rfl, ?_⟩
  obtain ⟨_, _, _, _, _, r1, r2, r3⟩ := h2
  obtain ⟨_, _, _, _, _, s1, s2, s3⟩ := g2
  have er : e.region = e'.region := (latest_eq _ _ _ _ r1).trans (latest_eq _ _ _ _ s1).symm
  have eh : e.hub = e'.hub := (latest_eq _ _ _ _ r2).trans (latest_eq _ _ _ _ s2).symm
  cases e; cases e'
  simp only [NlEntry.mk.injEq] at *
  exact ⟨h3.trans g3.symm, er, eh, r3.trans s3.symm⟩

/-- The search finds the first entry or there is none. -/
theorem searchSays_first (fs : List TextList) (node : Node4D) (r : NlResult) (h : SearchSays fs node r) :
    (∃ j f k e, FirstEntry TextList.zone TextList.lines fs node j f k e ∧ r = .found f.label e.idx) ∨
    ((¬ ∃ f k e, f ∈ fs ∧ EntryAt f.zone f.lines k e ∧ e.addr = node) ∧ r = .notFound) := by
  rcases h with ⟨j, f, k, e, h1, h2, h3, h4, h5⟩ | h
  · exact .inl ⟨j, f, k, e, ⟨h1, h2, h3, h5⟩, h4⟩
  · exact .inr h

theorem entry_drop (t : TextList) (h : t.Ok) (k : Nat) (e : NlEntry) (he : EntryAt t.zone t.lines k e) :
    ∃ l r, t.lines[k]? = some l ∧ t.file.content.drop e.idx.offset.toNat = l ++ r ∧ (r = [] ∨ ∃ r', r = 10 :: r') := by
  obtain ⟨⟨l, k', v, hl, _⟩, _, _, _, _, _, _, hpos⟩ := id he
  have hp := entry_pos t h k e he
  have hoff : (e.idx).offset.toNat = posAfter (t.lines.take k) := by
    simp only [NlEntry.idx, UInt32.toNat_ofNat', posAfter]
    omega
  obtain ⟨r, hr, hr2⟩ := joinLines_at t.lastLf t.lines k l hl
  exact ⟨l, r, hl, by rw [hoff, TextList.file]; exact hr, hr2⟩

/-- The comma of an entry is in the buffer. -/
theorem fgetsRaw_mem (w r : List UInt8) (c : UInt8) (h : (10 : UInt8) ∉ w) : ∀ n, w.length < n →
    ∃ x, (fgetsRaw n (w ++ c :: r)).1 = w ++ c :: x := by
  induction w with
  | nil =>
    intro n hn
    obtain ⟨m, rfl⟩ : ∃ m, n = m + 1 := ⟨n - 1, by simp at hn; omega⟩
    rw [List.nil_append, fgetsRaw]
    split
    · exact ⟨[], rfl⟩
    · exact ⟨_, rfl⟩
  | cons a t ih =>
    intro n hn
    obtain ⟨m, rfl⟩ : ∃ m, n = m + 1 := ⟨n - 1, by simp at hn; omega⟩
    simp only [List.mem_cons, not_or] at h
    obtain ⟨x, hx⟩ := ih h.2 m (by simp at hn; omega)
    rw [List.cons_append, fgetsRaw, if_neg (by simpa using Ne.symm h.1)]
    exact ⟨x, by dsimp only; rw [hx]; rfl⟩

theorem fixCrLf_mem (s : Str) (c : UInt8) (h : c ∈ s) (h1 : c ≠ 10) (h2 : c ≠ 13) : c ∈ fixCrLf s := by
  unfold fixCrLf
  split
  · next hc =>
    obtain ⟨a, ha⟩ := List.getLast?_eq_some_iff.1 hc.2.1
    rw [ha, List.dropLast_concat] at hc ⊢
    obtain ⟨b, hb⟩ := List.getLast?_eq_some_iff.1 hc.2.2
    subst hb
    rw [List.dropLast_concat]
    rw [ha] at h
    simp only [List.mem_append, List.mem_cons, List.not_mem_nil, or_false] at h
    rcases h with (h | h) | h
    · exact List.mem_append_left _ h
    · exact absurd h h2
    · exact absurd h h1
  · exact h

end CM
