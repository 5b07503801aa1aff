import Verif.Props.Pack
/-! # Names of files in the outbound -/

set_option linter.unusedSimpArgs false

namespace CM

/-- A directory with the separator. -/
def dirPart (dir : Str) : Str := if dir = [] then [] else if dir.getLast? = some 47 then dir else dir ++ [47]

theorem fullPath_eq (dir name : Str) (hd : dir.length ≤ 99) (hn : name.length ≤ 90) :
    makeFullPath dir name 200 = dirPart dir ++ name := by
  unfold dirPart
  by_cases h : dir = []
  · subst h; rw [if_pos rfl, makeFullPath_nodir name 200 (by omega)]; rfl
  · rw [if_neg h, makeFullPath_fits dir name 200 h (by omega)]

theorem dirPart_length (dir : Str) (hd : dir.length ≤ 99) : (dirPart dir).length ≤ 100 := by
  unfold dirPart
  split
  · simp
  · split
    · omega
    · simp; omega

theorem dirPart_file (dir name : Str) (hs : (47 : UInt8) ∉ name) : getFilePart (dirPart dir ++ name) = name := by
  rw [getFilePart_iff]
  refine ⟨hs, ?_⟩
  unfold dirPart
  split
  · exact .inl rfl
  · split
    · rename_i h1 h2
      right
      refine ⟨dir.dropLast, ?_⟩
      have : dir = dir.dropLast ++ [47] := by
        rw [List.getLast?_eq_some_getLast h1] at h2
        simp only [Option.some.injEq] at h2
        conv => lhs; rw [← List.dropLast_concat_getLast h1, h2]
      rw [← this]
    · exact .inr ⟨dir, rfl⟩

/-- The last four characters, backwards. -/
def tail4 (s : Str) : Str := s.reverse.take 4

theorem tail4_append (a x : Str) (h : 4 ≤ x.length) : tail4 (a ++ x) = tail4 x := by
  unfold tail4
  rw [List.reverse_append, List.take_append_of_le_length (by simpa using h)]

theorem ne_tail4 {a b : Str} (h : tail4 a ≠ tail4 b) : a ≠ b := fun e => h (by rw [e])

/-- The name of a bundle in the outbound. -/
def IsBundle (dir arc : Str) : Prop := ∃ name b d k, BundleName b d k name ∧ arc = makeFullPath dir name 200

theorem bundle_form {b d k : Nat} {name : Str} (h : BundleName b d k name) :
    name.length = 12 ∧ isArc name = true ∧ (47 : UInt8) ∉ name ∧ (0 : UInt8) ∉ name ∧ (10 : UInt8) ∉ name ∧
      ∃ c, name.getLast? = some c ∧ isDigit c = true := by
  obtain ⟨x, rfl, h1, h2, rfl⟩ := (bundleName_iff _ _ _ _).1 h
  have hs : d * 10 + k < 70 := by omega
  obtain ⟨w, hl⟩ := bname_word x (d * 10 + k) hs
  have fin : ∀ s : Fin 70, (arcTail s.1).length = 3 ∧ (eqi ((arcTail s.1).take 2) b!"MO" || eqi ((arcTail s.1).take 2) b!"TU" ||
      eqi ((arcTail s.1).take 2) b!"WE" || eqi ((arcTail s.1).take 2) b!"TH" || eqi ((arcTail s.1).take 2) b!"FR" ||
      eqi ((arcTail s.1).take 2) b!"SA" || eqi ((arcTail s.1).take 2) b!"SU") = true ∧ (47 : UInt8) ∉ arcTail s.1 ∧
      ∃ c, (arcTail s.1).getLast? = some c ∧ isDigit c = true := by decide +kernel
  obtain ⟨f1, f2, f3, c, f4, f5⟩ := fin ⟨d * 10 + k, hs⟩
  dsimp only at f1 f2 f3 f4
  have hx := hexW_length 8 x.toNat
  have hhex := (hexFold_hexW 8 x.toNat (by have := x.toNat_lt; omega)).2
  refine ⟨hl, ?_, ?_, ?_, ?_, c, ?_, f5⟩
  · unfold isArc
    have e1 : (bname x (d * 10 + k)).take 8 = hexW 8 x.toNat := by unfold bname; exact List.take_left' hx
    have e2 : (bname x (d * 10 + k)).drop 9 = arcTail (d * 10 + k) := by
      unfold bname
      have e : hexW 8 x.toNat ++ 46 :: arcTail (d * 10 + k) = (hexW 8 x.toNat ++ [46]) ++ arcTail (d * 10 + k) := by simp
      rw [e]; exact List.drop_left' (by simp [hx])
    have e3 : (bname x (d * 10 + k))[8]? = some 46 := by
      unfold bname; rw [List.getElem?_append_right (by omega), hx]; rfl
    have e4 : (hexW 8 x.toNat).all arcNameChar = true := by
      rw [List.all_eq_true]
      intro c hc
      have := hhex c hc
      have key : ∀ c : UInt8, ((48 ≤ c.toNat ∧ c.toNat ≤ 57) ∨ (97 ≤ c.toNat ∧ c.toNat ≤ 102)) → arcNameChar c = true := by
        decide +kernel
      exact key c this
    rw [e1, e2, e3, e4, hl, f2]
    rfl
  · unfold bname
    simp only [List.mem_append, List.mem_cons, not_or]
    exact ⟨hexW_slash _ _, by decide, f3⟩
  · exact fun h => (w 0 h).plain.2.2.1 rfl
  · exact fun h => (w 10 h).plain.1.2.2.2.1 rfl
  · unfold bname
    rw [List.getLast?_append, List.getLast?_cons, f4]
    rfl

/-- A directory that can be written to flow files. -/
structure DirOK (dir : Str) : Prop where
  short : dir.length ≤ 99
  noMark : ∀ c, dir.head? = some c → c ≠ 35 ∧ c ≠ 126 ∧ c ≠ 94 ∧ c ≠ 45
  noNul : (0 : UInt8) ∉ dir
  noLf : (10 : UInt8) ∉ dir

theorem DirOK.part {dir : Str} (h : DirOK dir) : (0 : UInt8) ∉ dirPart dir ∧ (10 : UInt8) ∉ dirPart dir ∧
    ∀ c, (dirPart dir).head? = some c → c ≠ 35 ∧ c ≠ 126 ∧ c ≠ 94 ∧ c ≠ 45 := by
  have h1 := h.noNul; have h2 := h.noLf; have h3 := h.noMark
  unfold dirPart
  split
  · simp
  · split
    · exact ⟨h1, h2, h3⟩
    · rename_i hne _
      refine ⟨by simp [h1], by simp [h2], ?_⟩
      obtain ⟨c, t, rfl⟩ := List.exists_cons_of_ne_nil hne
      simpa using h3

/-- A file in such a directory can be listed. -/
theorem DirOK.fits {dir : Str} (h : DirOK dir) (name : Str) (hl : name.length ≤ 90) (h0 : (0 : UInt8) ∉ name) (h10 : (10 : UInt8) ∉ name)
    (hfirst : ∀ c, name.head? = some c → c ≠ 35 ∧ c ≠ 126 ∧ c ≠ 94 ∧ c ≠ 45) (hlast : ∃ c, name.getLast? = some c ∧ 33 ≤ c.toNat ∧ c.toNat < 128) :
    FlowFits (makeFullPath dir name 200) := by
  rw [fullPath_eq dir name h.short hl]
  obtain ⟨p1, p2, p3⟩ := h.part
  have hlen := dirPart_length dir h.short
  obtain ⟨c, hc, hv⟩ := hlast
  have hne : name ≠ [] := by rintro rfl; cases hc
  refine ⟨⟨by simp [hne], ?_, ?_⟩, by simp [p1, h0], by simp [p2, h10], by simp; omega⟩
  · cases hd : dirPart dir with
    | nil => simpa using hfirst
    | cons x t => rw [hd] at p3; simpa using p3
  · intro x hx
    rw [List.getLast?_append, hc] at hx
    cases hx
    exact hv

theorem IsBundle.form {dir arc : Str} (h : IsBundle dir arc) (hd : DirOK dir) : FlowFits arc ∧ arc.length ≤ 112 ∧
    ∃ c t, tail4 arc = c :: t ∧ isDigit c = true := by
  obtain ⟨name, b, d, k, hb, rfl⟩ := h
  obtain ⟨h1, h2, h3, h4, h5, c, h6, h7⟩ := bundle_form hb
  have vis : ∀ c : UInt8, isDigit c = true → 33 ≤ c.toNat ∧ c.toNat < 128 := by decide +kernel
  refine ⟨hd.fits name (by omega) h4 h5 ?_ ⟨c, h6, vis c h7⟩, ?_, c, ?_⟩
  · obtain ⟨x, rfl, g1, g2, rfl⟩ := (bundleName_iff _ _ _ _).1 hb
    intro c hc
    have hx := hexW_length 8 x.toNat
    have hm : c ∈ hexW 8 x.toNat := by
      cases he : hexW 8 x.toNat with
      | nil => rw [he] at hx; cases hx
      | cons y t => unfold bname at hc; rw [he] at hc; simp at hc; simp [hc]
    have := (hexFold_hexW 8 x.toNat (by have := x.toNat_lt; omega)).2 c hm
    have key : ∀ c : UInt8, ((48 ≤ c.toNat ∧ c.toNat ≤ 57) ∨ (97 ≤ c.toNat ∧ c.toNat ≤ 102)) → c ≠ 35 ∧ c ≠ 126 ∧ c ≠ 94 ∧ c ≠ 45 := by
      decide +kernel
    exact key c this
  · rw [fullPath_eq dir name hd.short (by omega)]
    have := dirPart_length dir hd.short
    simp; omega
  · rw [fullPath_eq dir name hd.short (by omega), tail4_append _ _ (by omega)]
    unfold tail4
    have hr : name.reverse.head? = some c := by rw [List.head?_reverse]; exact h6
    cases he : name.reverse with
    | nil => rw [he] at hr; cases hr
    | cons y t =>
      rw [he] at hr
      cases hr
      exact ⟨_, rfl, h7⟩

theorem getFilePart_bundle {dir name : Str} {b d k : Nat} (hb : BundleName b d k name) (hd : dir.length ≤ 99) :
    getFilePart (makeFullPath dir name 200) = name := by
  obtain ⟨h1, _, h3, _⟩ := bundle_form hb
  rw [fullPath_eq dir name hd (by omega), dirPart_file dir name h3]

end CM
