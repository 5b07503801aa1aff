import Verif.Lemmas.RequestWord
/-! # Requests: the lines of the text -/

set_option linter.unusedSimpArgs false
namespace CM

/-- Lines processed one after the other; empty ones can be left out. -/
inductive LinesRun (env : Env) (self : MemMsg → M Unit) (ci : Nat) (mynode : Node4D) :
    List Str → AfSt → HSt → AfSt → HSt → Prop where
  | nil {st : AfSt} {s : HSt} : LinesRun env self ci mynode [] st s st s
  | skip {ls : List Str} {st st' : AfSt} {s t : HSt} (h : LinesRun env self ci mynode ls st s st' t) :
    LinesRun env self ci mynode ([] :: ls) st s st' t
  | line {l : Str} {ls : List Str} {st st1 st' : AfSt} {s u t : HSt} (h1 : afLine env self ci mynode l st s = .ok st1 u)
      (h : LinesRun env self ci mynode ls st1 u st' t) : LinesRun env self ci mynode (l :: ls) st s st' t

theorem LinesRun.append {env : Env} {self : MemMsg → M Unit} {ci : Nat} {mynode : Node4D} {l1 l2 : List Str} {st st1 st' : AfSt}
    {s u t : HSt} (h1 : LinesRun env self ci mynode l1 st s st1 u) (h2 : LinesRun env self ci mynode l2 st1 u st' t) :
    LinesRun env self ci mynode (l1 ++ l2) st s st' t := by
  induction h1 with
  | nil => exact h2
  | skip _ ih => exact .skip (ih h2)
  | line h _ ih => exact .line h (ih h2)

theorem textRows_plain {s : Str} (h : ∀ c ∈ s, notEol c = true) : textRows s = [s] := by
  induction s with
  | nil => rfl
  | cons c s ih =>
    have hc := h c (by simp)
    unfold notEol at hc
    simp only [Bool.and_eq_true, bne_iff_ne, ne_eq] at hc
    unfold textRows
    rw [if_neg (by simp [hc]), ih fun x hx => h x (by simp [hx])]

theorem textRows_line {l r : Str} {e : UInt8} (h : ∀ c ∈ l, notEol c = true) (he : notEol e = false) :
    textRows (l ++ e :: r) = l :: textRows r := by
  induction l with
  | nil =>
    unfold notEol at he
    rw [List.nil_append, textRows, if_pos]
    by_cases h1 : e = 13
    · exact .inl h1
    · exact .inr (by simpa [h1] using he)
  | cons c s ih =>
    have hc := h c (by simp)
    unfold notEol at hc
    simp only [Bool.and_eq_true, bne_iff_ne, ne_eq] at hc
    rw [List.cons_append, textRows, if_neg (by simp [hc]), ih fun x hx => h x (by simp [hx])]

theorem take_line (s : Str) : (∀ c ∈ s.takeWhile notEol, notEol c = true) ∧
    ((s = s.takeWhile notEol ∧ s.drop ((s.takeWhile notEol).length + 1) = []) ∨
      ∃ e r, notEol e = false ∧ s = s.takeWhile notEol ++ e :: r ∧ s.drop ((s.takeWhile notEol).length + 1) = r) := by
  induction s with
  | nil => exact ⟨by simp, .inl ⟨rfl, rfl⟩⟩
  | cons c s ih =>
    cases hc : notEol c with
    | false =>
      rw [List.takeWhile_cons_of_neg (by simp [hc])]
      exact ⟨by simp, .inr ⟨c, s, hc, rfl, rfl⟩⟩
    | true =>
      rw [List.takeWhile_cons_of_pos hc]
      refine ⟨by simpa [hc] using ih.1, ?_⟩
      rcases ih.2 with ⟨e1, e2⟩ | ⟨e, r, e1, e2, e3⟩
      · exact .inl ⟨by rw [← e1], by simpa using e2⟩
      · exact .inr ⟨e, r, e1, by rw [List.cons_append, ← e2], by simpa using e3⟩

/-- A line that begins with three hyphens. -/
def Tear (l : Str) : Prop := (cstr l).take 3 = b!"---"

instance (l : Str) : Decidable (Tear l) := by unfold Tear; infer_instance

/-- The line as it is processed. -/
def inner (l : Str) : Str := trimEnd (striplead (cstr l))

theorem inner_nil : inner [] = [] := rfl

variable {env : Env} {self : MemMsg → M Unit} {ci : Nat} {mynode : Node4D}

theorem tear_iff (l : Str) : startsWith (cstr l) b!"---" = true ↔ Tear l := by
  unfold startsWith Tear
  simp

theorem afChunk_run {f : Nat} {c : Str} {st st' : AfSt} {stop : Bool} {s t : HSt} (hf : c.length < f)
    (h : afChunk env self ci mynode f c st s = .ok (st', stop) t) :
    (stop = false → (∀ l ∈ textRows c, ¬ Tear l) ∧ LinesRun env self ci mynode ((textRows c).map inner) st s st' t) ∧
    (stop = true → ∃ p l q, textRows c = p ++ l :: q ∧ (∀ l ∈ p, ¬ Tear l) ∧ Tear l ∧
      LinesRun env self ci mynode ((p ++ [l]).map inner) st s st' t) := by
  induction f generalizing c st s with
  | zero => omega
  | succ f ih =>
    unfold afChunk at h
    by_cases hc : c = []
    · rw [if_pos hc] at h
      cases h
      subst hc
      refine ⟨fun _ => ⟨?_, ?_⟩, fun e => by cases e⟩
      · intro l hl
        simp only [textRows, List.mem_singleton] at hl
        subst hl
        decide
      · exact .skip .nil
    · rw [if_neg hc] at h
      by_cases hl : 100 ≤ (c.takeWhile notEol).length
      · rw [if_pos hl] at h; cases h
      rw [if_neg hl, bind_ok] at h
      obtain ⟨st1, u, h1, h⟩ := h
      have hh : ∃ rest, textRows c = c.takeWhile notEol :: rest ∧
          (rest = textRows (c.drop ((c.takeWhile notEol).length + 1)) ∨
            (rest = [] ∧ c.drop ((c.takeWhile notEol).length + 1) = [])) ∧
          (c.drop ((c.takeWhile notEol).length + 1)).length < f := by
        obtain ⟨t1, t2 | ⟨e, r, t2, t3, t4⟩⟩ := take_line c
        · refine ⟨[], ?_, .inr ⟨rfl, t2.2⟩, ?_⟩
          · conv => lhs; rw [t2.1]
            exact textRows_plain t1
          · rw [t2.2]
            cases c with
            | nil => exact absurd rfl hc
            | cons x c => simp at hf ⊢; omega
        · refine ⟨_, ?_, .inl rfl, ?_⟩
          · rw [t4]
            conv => lhs; rw [t3]
            exact textRows_line t1 t2
          · rw [List.length_drop]
            cases c with
            | nil => exact absurd rfl hc
            | cons x c => simp at hf ⊢; omega
      obtain ⟨rest, r1, r2, r3⟩ := hh
      rw [r1]
      by_cases ht : startsWith (cstr (c.takeWhile notEol)) b!"---" = true
      · rw [if_pos ht] at h
        cases h
        refine ⟨fun e => (by cases e), fun _ => ⟨[], _, rest, rfl, by simp, (tear_iff _).1 ht, .line h1 .nil⟩⟩
      · rw [if_neg ht] at h
        have hnt : ¬ Tear (c.takeWhile notEol) := fun x => ht ((tear_iff _).2 x)
        obtain ⟨k1, k2⟩ := ih r3 h
        rcases r2 with r2 | ⟨r2, r4⟩
        · subst r2
          refine ⟨fun e => ?_, fun e => ?_⟩
          · obtain ⟨m1, m2⟩ := k1 e
            refine ⟨fun l hl => ?_, .line h1 m2⟩
            rcases List.mem_cons.1 hl with rfl | hl
            · exact hnt
            · exact m1 l hl
          · obtain ⟨p, l, q, m1, m2, m3, m4⟩ := k2 e
            refine ⟨c.takeWhile notEol :: p, l, q, by rw [m1]; rfl, fun l hl => ?_, m3, .line h1 m4⟩
            rcases List.mem_cons.1 hl with rfl | hl
            · exact hnt
            · exact m2 l hl
        · rw [r4] at h
          subst r2
          have hb : st' = st1 ∧ stop = false ∧ t = u := by
            cases f with
            | zero => omega
            | succ f =>
              unfold afChunk at h
              rw [if_pos rfl] at h
              cases h
              exact ⟨rfl, rfl, rfl⟩
          obtain ⟨rfl, rfl, rfl⟩ := hb
          refine ⟨fun _ => ⟨fun l hl => ?_, .line h1 .nil⟩, fun e => by cases e⟩
          rw [List.mem_singleton] at hl
          subst hl
          exact hnt

theorem toTear_go {p : List Str} (h : ∀ l ∈ p, ¬ Tear l) (q : List Str) :
    toTear ((p ++ q).map cstr) = p.map cstr ++ toTear (q.map cstr) := by
  induction p with
  | nil => rfl
  | cons l p ih =>
    rw [List.cons_append, List.map_cons, toTear, if_neg (show ¬ (cstr l).take 3 = b!"---" from h l (by simp)), ih fun x hx => h x (by simp [hx])]
    rfl

theorem toTear_stop {p q : List Str} {l : Str} (h : ∀ l ∈ p, ¬ Tear l) (ht : Tear l) :
    toTear ((p ++ l :: q).map cstr) = (p ++ [l]).map cstr := by
  rw [toTear_go h, List.map_cons, toTear, if_pos (show (cstr l).take 3 = b!"---" from ht)]
  simp

theorem inner_eq (ls : List Str) : ls.map inner = (ls.map cstr).map fun l => cutEnd (l.dropWhile fun c => c == 32) := by
  rw [List.map_map]
  apply List.map_congr_left
  intro l _
  unfold inner
  rw [trimEnd_eq]
  rfl

theorem afText_run {chunks : List Str} {st st' : AfSt} {s t : HSt} (h : afText env self ci mynode chunks st s = .ok st' t) :
    LinesRun env self ci mynode
      ((toTear ((chunks.flatMap textRows).map cstr)).map fun l => cutEnd (l.dropWhile fun c => c == 32)) st s st' t := by
  induction chunks generalizing st s with
  | nil => cases h; exact .nil
  | cons c cs ih =>
    unfold afText at h
    rw [bind_ok] at h
    obtain ⟨⟨st1, stop⟩, u, h1, h⟩ := h
    obtain ⟨k1, k2⟩ := afChunk_run (Nat.lt_succ_self _) h1
    dsimp only at h
    rw [List.flatMap_cons]
    cases stop with
    | true =>
      cases h
      obtain ⟨p, l, q, m1, m2, m3, m4⟩ := k2 rfl
      rw [m1, List.append_assoc, List.cons_append, toTear_stop m2 m3, ← inner_eq]
      exact m4
    | false =>
      obtain ⟨m1, m2⟩ := k1 rfl
      rw [toTear_go m1, List.map_append, ← inner_eq]
      exact m2.append (ih h)

/-- Lines that are not answered. -/
theorem afLine_blank {l : Str} {st st' : AfSt} {s t : HSt} (hl : l = [] ∨ l.head? = some 1)
    (hlive : ∀ a ∈ s.cfg.areas, a.type ≠ .deleted) (h : afLine env self ci mynode l st s = .ok st' t) : st' = st ∧ t = s := by
  unfold afLine at h
  rw [bind_ok] at h
  obtain ⟨st1, u, h1, h⟩ := h
  rw [bind_ok] at h
  obtain ⟨_, v, h2, h⟩ := h
  rw [removeDeleted_run] at h2
  cases h2
  cases h
  have hu : st' = st ∧ u = s := by
    rcases hl with rfl | hl
    · cases h1; exact ⟨rfl, rfl⟩
    · cases l with
      | nil => cases hl
      | cons c l =>
        injection hl with hl
        subst hl
        cases h1; exact ⟨rfl, rfl⟩
  obtain ⟨rfl, rfl⟩ := hu
  exact ⟨rfl, by rw [cleaned_same hlive]⟩

/-- The lines of a request and what they do. -/
theorem linesRun_answered (hs : Settled self) {lines : List Str} {st st' : AfSt} {s t : HSt} (g : st.r.Gen)
    (hn : ci < s.cfg.nodes.length) (hlive : ∀ a ∈ s.cfg.areas, a.type ≠ .deleted)
    (h : LinesRun env self ci mynode lines st s st' t) :
    ∃ as did ks, Answered env mynode ci s.cfg st.rescan (lines.filter fun l => l ≠ [] ∧ l.head? ≠ some 1) t.cfg as did ks ∧
      Replied env self st.r s as st'.r t ∧ st'.done = (st.done || did) ∧ (∀ k, st'.asks k = (st.asks k || decide (k ∈ ks))) ∧
      st'.r.Gen := by
  induction h with
  | nil => exact ⟨[], false, [], .nil, .nil, by simp, by simp, g⟩
  | skip _ ih =>
    obtain ⟨as, did, ks, k⟩ := ih g hn hlive
    refine ⟨as, did, ks, ?_, k.2⟩
    rw [List.filter_cons_of_neg (by simp)]
    exact k.1
  | @line l ls st st1 st' s u t h1 _ ih =>
    by_cases hl : l = [] ∨ l.head? = some 1
    · obtain ⟨rfl, rfl⟩ := afLine_blank hl hlive h1
      obtain ⟨as, did, ks, k⟩ := ih g hn hlive
      refine ⟨as, did, ks, ?_, k.2⟩
      rw [List.filter_cons_of_neg (by rcases hl with hl | hl <;> simp [hl])]
      exact k.1
    · have hl' : l ≠ [] ∧ l.head? ≠ some 1 := ⟨fun x => hl (.inl x), fun x => hl (.inr x)⟩
      rw [List.filter_cons_of_pos (by simpa using hl')]
      unfold afLine at h1
      rw [bind_ok] at h1
      obtain ⟨st2, v, h2, h1⟩ := h1
      rw [bind_ok] at h1
      obtain ⟨_, v2, h3, h1⟩ := h1
      rw [removeDeleted_run] at h3
      cases h3
      cases h1
      cases l with
      | nil => exact absurd rfl hl'.1
      | cons c l =>
        dsimp only at h2
        have hc1 : c ≠ 1 := fun e => hl'.2 (by rw [e]; rfl)
        by_cases hc : c = 37
        · rw [if_pos hc] at h2
          obtain ⟨as, turnedOn, did, ks, k1, k2, k3⟩ := afPercent_run hs g h2
          have hcf : ∀ {c' : Config} {as d1 d2 ks}, CommandAnswered s.cfg ci (c :: l) c' as d1 d2 ks →
              c'.areas = s.cfg.areas ∧ c'.nodes.length = s.cfg.nodes.length := by
            intro c' as d1 d2 ks h
            cases h <;> simp [resetNode]
          obtain ⟨e1, e2⟩ := hcf k1
          have hcl : cleaned v.cfg = v.cfg := cleaned_same (by rw [e1]; exact hlive)
          rw [hcl] at ih
          obtain ⟨bs, did2, ks2, m1, m2, m3, m4, m5⟩ := ih (k2.gen g) (by rw [e2]; exact hn) (by rw [e1]; exact hlive)
          refine ⟨as ++ bs, did || did2, ks ++ ks2, ?_, k2.trans m2, ?_, ?_, m5⟩
          · refine .command (by rw [hc]; rfl) k1 ?_
            rw [k3.rescan] at m1
            exact m1
          · rw [m3, k3.done, Bool.or_assoc]
          · intro k
            rw [m4, k3.asks, Bool.or_assoc]
            simp
        · rw [if_neg hc, if_neg hc1, bind_ok] at h2
          obtain ⟨r2, v2, h2, h4⟩ := h2
          cases h4
          obtain ⟨cn, hcn⟩ : ∃ cn, s.cfg.nodes[ci]? = some cn := ⟨_, List.getElem?_eq_getElem hn⟩
          obtain ⟨c2, as, k1, k2, k3⟩ := afAreaLine_run hs g hcn hlive h2
          have hlen : c2.nodes.length = s.cfg.nodes.length := by
            have henq : ∀ (q : List (Nat × Str)) (ns : List ConfigNode), (enqueue ns q).length = ns.length := by
              intro q
              induction q with
              | nil => intro _; rfl
              | cons e q ih =>
                intro ns
                have := ih (ns.modify e.1 fun n => { n with remoteAF := n.remoteAF ++ [e.2] })
                rw [List.length_modify] at this
                exact this
            obtain ⟨_, _, _, _, hcl⟩ := k1
            cases hcl with
            | unfound _ _ _ hu =>
              cases hu with
              | unknown _ => simp only [fulfilled, henq]
              | ordered _ _ _ _ _ => simp only [fulfilled, henq]
            | _ => simp only [fulfilled, henq]
          rw [k2] at ih
          obtain ⟨bs, did2, ks2, m1, m2, m3, m4, m5⟩ := ih (k3.gen g) (by dsimp only; rw [hlen]; exact hn)
            (by dsimp only; rw [← k2]; exact cleaned_live _)
          refine ⟨as ++ bs, true, ks2, ?_, ?_, ?_, m4, m5⟩
          · refine .areas (by intro e; injection e with e; exact hc e) k1 m1
          · refine k3.trans (Replied.other (u := { v with cfg := c2 }) (List.prefix_refl _) ?_ m2)
            dsimp only; rw [← k2]; rfl
          · rw [m3]; simp

end CM
