import Verif.Spec.Saved
import Verif.Lemmas.AreafixCfg
/-! # Handling messages marks what it changes -/

namespace CM

theorem AreasNow.refl : ∀ as : List Area, AreasNow as as
  | [] => .nil
  | a :: as => .same a (AreasNow.refl as)

theorem AreasNow.trans {as bs cs : List Area} (h1 : AreasNow as bs) (h2 : AreasNow bs cs) : AreasNow as cs := by
  induction h1 generalizing cs with
  | nil => exact h2
  | same a h ih =>
    cases h2 with
    | same _ h2 => exact .same a (ih h2)
    | changed _ b ht hk hc hl h2 => exact .changed a b ht hk hc hl (ih h2)
    | removed _ hl h2 => exact .removed a hl (ih h2)
  | changed a b ht hk hc hl h ih =>
    cases h2 with
    | same _ h2 => exact .changed a b ht hk hc hl (ih h2)
    | changed _ d ht' hk' hc' hl' h2 => exact .changed a d (ht'.trans ht) (hk'.trans hk) hc' hl (ih h2)
    | removed _ hl' h2 => exact .removed a hl (ih h2)
  | removed a hl h ih => exact .removed a hl (ih h2)

theorem AreasNow.split {as bs cs : List Area} (h : AreasNow (as ++ bs) cs) :
    ∃ c1 c2, cs = c1 ++ c2 ∧ AreasNow as c1 ∧ AreasNow bs c2 := by
  induction as generalizing cs with
  | nil => exact ⟨[], cs, rfl, .nil, h⟩
  | cons a as ih =>
    cases h with
    | same _ h =>
      obtain ⟨c1, c2, e, h1, h2⟩ := ih h
      exact ⟨_ :: c1, c2, by rw [e]; rfl, .same _ h1, h2⟩
    | changed _ b ht hk hc hl h =>
      obtain ⟨c1, c2, e, h1, h2⟩ := ih h
      exact ⟨_ :: c1, c2, by rw [e]; rfl, .changed _ _ ht hk hc hl h1, h2⟩
    | removed _ hl h =>
      obtain ⟨c1, c2, e, h1, h2⟩ := ih h
      exact ⟨c1, c2, e, .removed _ hl h1, h2⟩

theorem AreasNow.marked {as bs : List Area} (h : AreasNow as bs) (hm : ∀ a ∈ as, a.changed = true) :
    ∀ b ∈ bs, b.changed = true := by
  induction h with
  | nil => simp
  | same a _ ih =>
    intro b hb
    rcases List.mem_cons.1 hb with rfl | hb
    · exact hm _ List.mem_cons_self
    · exact ih (fun a ha => hm a (List.mem_cons_of_mem _ ha)) b hb
  | changed a b' ht hk hc hl _ ih =>
    intro b hb
    rcases List.mem_cons.1 hb with rfl | hb
    · exact hc
    · exact ih (fun a ha => hm a (List.mem_cons_of_mem _ ha)) b hb
  | removed a hl _ ih => exact ih fun a ha => hm a (List.mem_cons_of_mem _ ha)

theorem Fates.now {c : Config} {ci : Nat} {as : List Area} {fs : List (Option Area)} (h : Fates c ci as fs) :
    AreasNow as (fs.filterMap id) := by
  induction h with
  | nil => exact .nil
  | @cons a f as fs hf _ ih =>
    cases f with
    | none => exact .removed a (by have h := hf.1; intro e; rw [e] at h; cases h) ih
    | some b =>
      have hf : Evo c ci a b := hf
      simp only [List.filterMap_cons, id]
      by_cases he : b = a
      · subst he; exact .same b ih
      · refine .changed a b hf.fields.1 (by rw [hf.rest]) (hf.marked.resolve_left he) ?_ ih
        intro e
        exact he (hf.echo (by rw [e]; decide))

theorem Recorded.refl (c : Config) : Recorded c c :=
  ⟨rfl, rfl, fun i n n' h h' => by rw [h] at h'; cases h'; exact ⟨rfl, .inl rfl⟩,
    ⟨c.live, [], by simp, .refl _, by simp⟩, id,
    .inr ⟨rfl, fun i n n' h h' => by rw [h] at h'; cases h'; rfl⟩⟩

theorem Recorded.node {c c' : Config} (h : Recorded c c') {i : Nat} {n' : ConfigNode} (hn : c'.nodes[i]? = some n') :
    ∃ n, c.nodes[i]? = some n := by
  have hl : i < c.nodes.length := by
    rw [← h.count]; exact (List.getElem?_eq_some_iff.1 hn).1
  exact ⟨c.nodes[i], List.getElem?_eq_getElem hl⟩

theorem Recorded.trans {c d e : Config} (h1 : Recorded c d) (h2 : Recorded d e) : Recorded c e := by
  obtain ⟨k1, a1, e1, n1, m1⟩ := h1.areas
  obtain ⟨k2, a2, e2, n2, m2⟩ := h2.areas
  refine ⟨?_, h2.count.trans h1.count, fun i n n' h h' => ?_, ?_, fun h => h2.keeps (h1.keeps h), ?_⟩
  · have e1 := h1.rest
    have e2 := h2.rest
    rw [e1] at e2; exact e2
  · obtain ⟨x, hx⟩ := h2.node h'
    obtain ⟨p1, q1⟩ := h1.nodes i n x h hx
    obtain ⟨p2, q2⟩ := h2.nodes i x n' hx h'
    refine ⟨p2.trans p1, ?_⟩
    rcases q2 with q2 | q2
    · rcases q1 with q1 | q1
      · rw [q1] at q2; exact .inl q2
      · right; rw [q2]; exact q1
    · exact .inr q2
  · rw [e1] at n2
    obtain ⟨c1, c2, ec, s1, s2⟩ := n2.split
    refine ⟨c1, c2 ++ a2, by rw [e2, ec, List.append_assoc], n1.trans s1, fun a ha => ?_⟩
    rcases List.mem_append.1 ha with ha | ha
    · exact s2.marked m1 a ha
    · exact m2 a ha
  · rcases h2.noted with k2 | ⟨k2, j2⟩
    · exact .inl k2
    · rcases h1.noted with k1 | ⟨k1, j1⟩
      · exact .inl (h2.keeps k1)
      · refine .inr ⟨k2.trans k1, fun i n n' h h' => ?_⟩
        obtain ⟨x, hx⟩ := h2.node h'
        have e1 := j1 i n x h hx
        have e2 := j2 i x n' hx h'
        rw [e1] at e2; exact e2

theorem Allowed.recorded {env : Env} {ci : Nat} {c c' : Config} (h : Allowed env ci c c') : Recorded c c' := by
  obtain ⟨fs, new, h1, h2, h3⟩ := h.areas
  refine ⟨h.rest, h.len, fun i n n' hn hn' => ?_, ⟨_, new, h2, h1.now, fun a ha => ?_⟩, h.keeps, h.noted⟩
  · obtain ⟨-, e, -, k⟩ := h.nodes i n n' hn hn'
    exact ⟨by rw [e], k⟩
  · obtain ⟨a0, ⟨_, _, _, _, _, _, _, _, _, _, _, _, _, _, hm⟩, he⟩ := h3 a ha
    rcases he.marked with e | e
    · rw [e]; exact hm
    · exact e

theorem recorded_new (c : Config) (a : Area) (h : a.changed = true) :
    Recorded c { c with
      areas := c.areas ++ [a]
      changed := true } := by
  refine ⟨rfl, rfl, fun i n n' h h' => ?_, ⟨c.live, [a].filter fun a => a.type ≠ .deleted, ?_, .refl _, fun x hx => ?_⟩,
    fun _ => rfl, .inl rfl⟩
  · dsimp only at h'
    rw [h] at h'; cases h'; exact ⟨rfl, .inl rfl⟩
  · unfold Config.live
    dsimp only
    rw [List.filter_append]
  · have := (List.mem_filter.1 hx).1
    rw [List.mem_singleton] at this
    rw [this]; exact h

/-- The relation on states. -/
def Rec (s t : HSt) : Prop := Recorded s.cfg t.cfg

theorem Rec.great : Great Rec :=
  ⟨⟨fun _ => Recorded.refl _, fun _ _ _ h1 h2 => Recorded.trans h1 h2, fun _ _ _ => Recorded.refl _⟩,
    fun _ _ _ _ => Recorded.refl _, fun _ _ => Recorded.refl _, fun _ _ => Recorded.refl _,
    fun _ a h => recorded_new _ a h⟩

end CM
