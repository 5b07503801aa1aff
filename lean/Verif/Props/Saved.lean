import Verif.Lemmas.Saved
import Verif.Props.Areafix
import Verif.Props.Restart
/-! # C74: what messages change is saved -/
set_option linter.unusedSimpArgs false

namespace CM

/-- The message handler of this system. -/
def runMessage (env : Env) (n : Nat) (m : MemMsg) : M Unit := handleMessage env (areaFix env) n m

theorem runMessage_rec (env : Env) (n : Nat) (m : MemMsg) : Sat Rec (runMessage env n m) := by
  unfold runMessage
  induction n generalizing m with
  | zero => exact Sat.stuck
  | succ n ih =>
    unfold handleMessage
    split
    · refine handleNetmail_sat Rec.great.toGood env (fun m s => ?_) ih m
      refine ⟨fun a t h => ?_, fun t h => ?_⟩
      · rcases areafix_allowed env n m s t (.inl ⟨a, h⟩) with e | ⟨ci, -, e⟩
        · unfold Rec; rw [e]; exact Recorded.refl _
        · exact e.recorded
      · rcases areafix_allowed env n m s t (.inr h) with e | ⟨ci, -, e⟩
        · unfold Rec; rw [e]; exact Recorded.refl _
        · exact e.recorded
    · exact handleEchomail_sat Rec.great env (fun m _ => ih m) m

/-- Any number of messages handled one after the other. -/
inductive Handled (env : Env) : HSt → HSt → Prop
  | none (s) : Handled env s s
  | one {s t u} (n m) : Handled env s t → EndsIn (runMessage env n m) t u → Handled env s u

/-- C74. Whatever messages are handled, echomail, netmail or requests to AreaFix: every area and node that
differs afterwards is marked, and the configuration as a whole too. -/
theorem changes_recorded (env : Env) (s t : HSt) (h : Handled env s t) : Recorded s.cfg t.cfg := by
  induction h with
  | none => exact Recorded.refl _
  | one n m _ h ih =>
    refine ih.trans ?_
    rcases h with ⟨a, h⟩ | h
    · exact (runMessage_rec env n m _).1 _ _ h
    · exact (runMessage_rec env n m _).2 _ h

/-- The areas after the messages, compared by tag and address: first those of the file, perhaps without some,
in the same order; then new ones, with tags that are not in the file. So no area has been removed and then
created again. -/
def SameOrder (old new : List Area) : Prop :=
  ∃ kept added, new = kept ++ added ∧ (kept.map fun a => (a.tag, a.aka)).Sublist (old.map fun a => (a.tag, a.aka)) ∧
    DistinctTags (old ++ added)

theorem now_of_keys {old kept : List Area} (h : (kept.map fun a => (a.tag, a.aka)).Sublist (old.map fun a => (a.tag, a.aka)))
    (hd : DistinctTags old) (hm : ∀ a ∈ old, ∀ b ∈ kept, b.tag = a.tag → b = a ∨ (b.changed = true ∧ a.type ≠ .local))
    (hl : ∀ a ∈ old, a.type = .local → ∃ b ∈ kept, b.tag = a.tag) : AreasNow old kept := by
  induction old generalizing kept with
  | nil =>
    rw [List.map_nil, List.sublist_nil, List.map_eq_nil_iff] at h
    subst h; exact .nil
  | cons a old ih =>
    obtain ⟨hd1, hd2⟩ := List.pairwise_cons.1 hd
    rw [List.map_cons, List.sublist_cons_iff] at h
    rcases h with h | ⟨l, e, h⟩
    · refine .removed a (fun ht => ?_) (ih h hd2 (fun x hx => hm x (List.mem_cons_of_mem _ hx)) fun x hx => hl x (List.mem_cons_of_mem _ hx))
      obtain ⟨b, hb, e⟩ := hl a List.mem_cons_self ht
      have := h.mem (List.mem_map.2 ⟨b, hb, rfl⟩)
      obtain ⟨x, hx, e2⟩ := List.mem_map.1 this
      have := hd1 x hx
      rw [← e, ← (Prod.mk.inj e2).1, eqi_same_self] at this
      cases this
    · cases kept with
      | nil => cases e
      | cons b kept =>
        rw [List.map_cons] at e
        obtain ⟨e1, e2⟩ := List.cons.inj e
        obtain ⟨et, ek⟩ := Prod.mk.inj e1
        subst e2
        have hnow : AreasNow old kept := by
          refine ih h hd2 (fun x hx y hy => hm x (List.mem_cons_of_mem _ hx) y (List.mem_cons_of_mem _ hy)) fun x hx ht => ?_
          obtain ⟨y, hy, e3⟩ := hl x (List.mem_cons_of_mem _ hx) ht
          rcases List.mem_cons.1 hy with rfl | hy
          · have := hd1 x hx
            rw [← e3, ← et, eqi_same_self] at this
            cases this
          · exact ⟨y, hy, e3⟩
        rcases hm a List.mem_cons_self b List.mem_cons_self et with hb | ⟨h1, h2⟩
        · subst hb; exact .same b hnow
        · exact .changed a b et ek h1 h2 hnow

theorem AreasNow.mark {as bs : List Area} (h : AreasNow as bs) : ∀ b ∈ bs, b ∈ as ∨ b.changed = true := by
  induction h with
  | nil => simp
  | same a _ ih =>
    intro b hb
    rcases List.mem_cons.1 hb with rfl | hb
    · exact .inl (by simp)
    · exact (ih b hb).imp (fun h => List.mem_cons_of_mem _ h) id
  | changed a b' ht hk hc hl _ ih =>
    intro b hb
    rcases List.mem_cons.1 hb with rfl | hb
    · exact .inr hc
    · exact (ih b hb).imp (fun h => List.mem_cons_of_mem _ h) id
  | removed a hl _ ih =>
    intro b hb
    exact (ih b hb).imp (fun h => List.mem_cons_of_mem _ h) id

theorem Recorded.altered {c c' : Config} (h : Recorded c c') (hu : ∀ n ∈ c.nodes, unmarkN n = n)
    (hun : ∀ a ∈ c.areas, a.changed = false)
    (hl : ∀ a ∈ c.areas, a.type ≠ .deleted) (hl' : ∀ a ∈ c'.areas, a.type ≠ .deleted)
    (ho : SameOrder c.areas c'.areas) : Altered c c' := by
  have e : c.live = c.areas := List.filter_eq_self.2 fun a ha => by simpa using hl a ha
  have e' : c'.live = c'.areas := List.filter_eq_self.2 fun a ha => by simpa using hl' a ha
  obtain ⟨k0, a0, h1, h2, h3⟩ := h.areas
  rw [e'] at h1
  rw [e] at h2
  obtain ⟨kept, added, h4, h5, h6⟩ := ho
  obtain ⟨d1, d2, d3⟩ := List.pairwise_append.1 h6
  have hmark : ∀ b ∈ c'.areas, b ∈ c.areas ∨ b.changed = true := by
    intro b hb
    rw [h1] at hb
    rcases List.mem_append.1 hb with hb | hb
    · exact h2.mark b hb
    · exact .inr (h3 b hb)
  have huniq : ∀ a ∈ c.areas, ∀ b ∈ c.areas, eqi a.tag b.tag = true → a = b := by
    intro a ha b hb hab
    obtain ⟨i, hi⟩ := List.getElem?_of_mem ha
    obtain ⟨j, hj⟩ := List.getElem?_of_mem hb
    have := distinctTags_unique d1 hi hj (t := a.tag) (eqi_same_self _) hab
    subst this
    rw [hi] at hj
    exact Option.some.inj hj
  -- an area of the file that is still there is among the first
  have hkept : ∀ a ∈ c.areas, a ∈ c'.areas → a ∈ kept := by
    intro a ha hb
    rw [h4] at hb
    rcases List.mem_append.1 hb with hb | hb
    · exact hb
    · have := d3 a ha a hb
      rw [eqi_same_self] at this
      cases this
  have hlocal : ∀ a ∈ c.areas, a.type = .local → a ∈ kept := by
    intro a ha ht
    refine hkept a ha ?_
    rcases h2.fate a ha with hm | hm
    · rw [h1]; exact List.mem_append_left _ hm
    · exact absurd ht hm
  have htags : (kept.map (·.tag)).Sublist (c.areas.map (·.tag)) := by
    have := h5.map Prod.fst
    rw [List.map_map, List.map_map] at this
    exact this
  have hdk : DistinctTags kept := by
    have hp : ((c.areas.map (·.tag)).Pairwise fun x y => eqi x y = false) := List.pairwise_map.2 d1
    exact List.pairwise_map.1 (hp.sublist htags)
  have hone : ∀ a ∈ kept, ∀ b ∈ kept, a.tag = b.tag → a = b := by
    intro a ha b hb hab
    obtain ⟨i, hi⟩ := List.getElem?_of_mem ha
    obtain ⟨j, hj⟩ := List.getElem?_of_mem hb
    have := distinctTags_unique hdk hi hj (t := a.tag) (eqi_same_self _) (by rw [hab]; exact eqi_same_self _)
    subst this
    rw [hi] at hj
    exact Option.some.inj hj
  have hnow : AreasNow c.areas kept := by
    refine now_of_keys h5 d1 ?_ fun a ha ht => ⟨a, hlocal a ha ht, rfl⟩
    intro a ha b hb hab
    rcases hmark b (by rw [h4]; exact List.mem_append_left _ hb) with hm | hm
    · left
      exact huniq b hm a ha (by rw [hab]; exact eqi_same_self _)
    · by_cases ht : a.type = .local
      · left
        exact hone b hb a (hlocal a ha ht) hab
      · exact .inr ⟨hm, ht⟩
  refine ⟨?_, h.count, fun i n m hn hm => ?_, kept, added, h4, hnow, ?_, h6⟩
  · rw [h.rest]
  · obtain ⟨p, q⟩ := h.nodes i n m hn hm
    refine ⟨p, fun hc => ?_⟩
    rcases q with q | q
    · have := hu n (List.mem_of_getElem? hn)
      rw [q]
      exact this
    · rw [hc] at q; cases q
  · intro a ha
    rcases hmark a (by rw [h4]; exact List.mem_append_right _ ha) with hm | hm
    · have := d3 a hm a ha
      rw [eqi_same_self] at this
      cases this
    · exact hm

/-- C74 (partial). The configuration file is read, any number of messages is handled, and then the file is
rewritten. If the program is started again, it has the same areas, nodes and settings as before: nothing
that AreaFix did for a node and no area that was created is lost or different.

The conditions beside those on the messages are the ones of C73: what has changed can be written at all, no
area was removed and then created again, and nodes and packers stand before what refers to them. -/
theorem changes_survive_restart_partial (env : Env) (nl : Nodelist) (chk : Node4D → Bool) (file : Str) (r : RdSt) (s t : HSt)
    (hf : PlainFile file) (hr : readConfig nl chk file = .ok r) (hs : s.cfg = r.cfg) (h : Handled env s t)
    (hl : ∀ a ∈ t.cfg.areas, a.type ≠ .deleted) (ho : SameOrder r.cfg.areas t.cfg.areas) (W : Writable t.cfg)
    (F : LinesFit r.cfg t.cfg ((linesOf file).map copied)) :
    ∃ out, updateText t.cfg file = .ok out ∧ readConfig nl chk out =
      .ok { r with cfg := { t.cfg with areas := t.cfg.areas.map unmarkA, nodes := t.cfg.nodes.map unmarkN, changed := false } } := by
  obtain ⟨ok, -⟩ := read_config_ok nl chk file r hr
  have R := changes_recorded env s t h
  rw [hs] at R
  refine restart_reads_back_partial nl chk file r t.cfg hf hr (R.altered ?_ ?_ ?_ hl ho) W F
  · intro n hn
    obtain ⟨e1, e2⟩ := (ok.nodes n hn).unmarked
    unfold unmarkN
    cases n
    cases e1
    cases e2
    rfl
  · exact fun a ha => (ok.areas a ha).unmarked
  · intro a ha e
    have := (ok.areas a ha).kind
    unfold KindOk at this
    rw [e] at this
    exact this

namespace Ex

def savedFile : Str :=
  b!"SYSOP Me\nAKA 1:2/3\nROUTE \"*:*/*.*\" \"*:*/*.0\" 1:2/3\nAREAFIXNAME AreaFix\nNODE 1:2/4 \"\" \"\" AUTOADD\nAREAFIXINFO secret A\nNODE 1:2/5 \"\" \"\"\nAREA ONE 1:2/3 MSG one\nEXPORT 1:2/4 1:2/5\nGROUP A\nAREA TWO 1:2/3 JAM two\nEXPORT 1:2/5\nGROUP A\nAREA THREE 1:2/3\n"

/-- A message for an area that is not there yet. -/
def savedEcho : MemMsg := { request [] [b!"Hello"] with area := b!"NEWS", to := b!"All" }

/-- A node leaves one area, joins another, and changes its password. -/
def savedRequest : MemMsg := request b!"secret" [b!"+two", b!"-one", b!"%pwd other"]

def savedAreas : List Area :=
  [{ tag := b!"ONE", path := b!"one", aka := some 0, base := some 0, group := 65, tossNodes := [⟨1, 0⟩], changed := true },
   { tag := b!"TWO", path := b!"two", aka := some 0, base := some 1, group := 65, tossNodes := [⟨1, 0⟩, ⟨0, 0⟩], changed := true },
   { tag := b!"THREE", aka := some 0 },
   { tag := b!"NEWS", aka := some 0, tossNodes := [⟨0, 4⟩], changed := true }]

def savedNodes : List ConfigNode :=
  [{ node := ⟨1, 2, 4, 0⟩, areafixPW := b!"other", groups := b!"A", flags := NODE_AUTOADD, changed := true }, { node := ⟨1, 2, 5, 0⟩ }]

def savedCheck : Bool :=
  match readConfig rdNl (fun _ => true) savedFile with
  | .error _ => false
  | .ok r => match runMessage env 3 savedRequest (st r.cfg) with
    | .ok _ t => match runMessage env 3 savedEcho t with
      | .ok _ u => decide (u.cfg.areas = savedAreas ∧ u.cfg.nodes = savedNodes ∧ r.cfg.areas.map (fun a => (a.tag, a.aka)) =
          [(b!"ONE", some 0), (b!"TWO", some 0), (b!"THREE", some 0)] ∧ u.cfg.akas.map (·.node) = [⟨1, 2, 3, 0⟩] ∧ u.cfg.packers.length = 0)
      | _ => false
    | _ => false

theorem saved_check : savedCheck = true := by decide +kernel

theorem saved_plain : PlainFile savedFile := by
  refine ⟨⟨by unfold NoNul; decide +kernel, by decide +kernel⟩, .inr ⟨savedFile.dropLast, by decide +kernel⟩, ?_⟩
  have h : (linesOf savedFile).all (fun l => !([13, 13, 10] : Str).isSuffixOf l) = true := by decide +kernel
  intro l hl hs
  have := List.all_eq_true.1 h l hl
  rw [List.isSuffixOf_iff_suffix.2 hs] at this
  cases this

/-- The hypotheses of `changes_survive_restart_partial` are met together: a request to AreaFix and a message for
a new area. -/
theorem saved_case : ∃ r t out, readConfig rdNl (fun _ => true) savedFile = .ok r ∧ Handled env (st r.cfg) t ∧
    t.cfg.areas = savedAreas ∧ updateText t.cfg savedFile = .ok out ∧
    ∃ r', readConfig rdNl (fun _ => true) out = .ok r' ∧ r'.cfg.areas = savedAreas.map unmarkA ∧ r'.cfg.nodes = savedNodes.map unmarkN := by
  have h := saved_check
  unfold savedCheck at h
  split at h
  · cases h
  next r hr =>
  split at h
  case h_2 => cases h
  next x t ht =>
  split at h
  case h_2 => cases h
  next y u hu =>
  obtain ⟨ha, hn, hk, hkk, hp⟩ := of_decide_eq_true h
  clear h
  have hH : Handled env (st r.cfg) u := .one 3 savedEcho (.one 3 savedRequest (.none _) (.inl ⟨x, ht⟩)) (.inl ⟨y, hu⟩)
  have hW : Writable u.cfg := by
    have e1 : u.cfg.akas.length = 1 := by simpa using congrArg List.length hkk
    have hp0 : u.cfg.packers = [] := List.eq_nil_of_length_eq_zero hp
    refine ⟨?_, ?_, ?_, by rw [hkk]; decide, by rw [hn]; decide⟩
    · rw [e1, hn, ha]
      intro a hm hc
      simp only [savedAreas, List.mem_cons, List.not_mem_nil, or_false] at hm
      rcases hm with rfl | rfl | rfl | rfl
      · refine ⟨⟨by decide, by decide, by decide, ⟨0, rfl, by decide⟩, by decide, by decide, by decide, by decide, by unfold GroupLetter; decide, ?_, by decide, by decide, rfl⟩,
          by decide, by unfold NoNul; decide⟩
        exact ⟨by unfold BadTag; decide, by unfold DefaultTag; decide, rfl⟩
      · refine ⟨⟨by decide, by decide, by decide, ⟨0, rfl, by decide⟩, by decide, by decide, by decide, by decide, by unfold GroupLetter; decide, ?_, by decide, by decide, rfl⟩,
          by decide, by unfold NoNul; decide⟩
        exact ⟨by unfold BadTag; decide, by unfold DefaultTag; decide, rfl⟩
      · cases hc
      · refine ⟨⟨by decide, by decide, by decide, ⟨0, rfl, by decide⟩, by decide, by decide, by decide, by decide, by unfold GroupLetter; decide, ?_, by decide, by decide, rfl⟩,
          by decide, by unfold NoNul; decide⟩
        exact ⟨by unfold BadTag; decide, by unfold DefaultTag; decide, rfl⟩
    · rw [hp0, hn]
      intro n hm hc
      simp only [savedNodes, List.mem_cons, List.not_mem_nil, or_false] at hm
      rcases hm with rfl | rfl
      · exact ⟨⟨by decide, by decide, by unfold GroupList; decide, by unfold GroupList; decide, by unfold GroupList; decide, .inl rfl, by decide, by decide, by decide, by decide,
          fun i h => (by cases h), by decide, by decide, by decide, by decide⟩, fun i h => (by cases h), fun _ => by decide, by unfold NoNul; decide⟩
      · cases hc
    · rw [hp0]; intro p hp; cases hp
  have hF : LinesFit r.cfg u.cfg ((linesOf savedFile).map copied) := by
    have h1 : ∀ l ∈ (linesOf savedFile).map copied, (AreaLine l → ((argument l).all fun w => decide (w.length < 80)) = true) ∧
        (NodeLine l → ((argument l).all fun w => decide (w.length < 99)) = true) := by decide +kernel
    have h2 : ∀ i < ((linesOf savedFile).map copied).length, AreaLine (((linesOf savedFile).map copied)[i]?.getD []) →
        2 ≤ nodeLines (((linesOf savedFile).map copied).take i) := by decide +kernel
    have h3 : ∀ b ∈ savedAreas, (∀ t ∈ b.tossNodes, t.node < 2) ∧ ∀ x ∈ b.banned, x < 2 := by decide
    have h4 : ∀ x ∈ (linesOf savedFile).map copied, eqi (keyword x) b!"PACKER" = false := by decide +kernel
    refine ⟨?_, ?_, ?_, ?_⟩
    · intro l hl ha w hw
      have := (h1 l hl).1 ha
      rw [hw] at this
      simpa using this
    · intro l hl ha w hw
      have := (h1 l hl).2 ha
      rw [hw] at this
      simpa using this
    · intro pre l post w b e hl _ hb _ _
      have := h2 pre.length (by rw [e]; simp) (by rw [e]; simpa using hl)
      rw [e, List.take_left] at this
      rw [ha] at hb
      obtain ⟨p, q⟩ := h3 b hb
      exact ⟨fun t ht => Nat.lt_of_lt_of_le (p t ht) this, fun t ht => Nat.lt_of_lt_of_le (q t ht) this⟩
    · intro pre l post n m e _ _ _ _ x hx
      exact h4 x (by rw [e]; simp [hx])
  have hO : SameOrder r.cfg.areas u.cfg.areas := by
    rw [ha]
    refine ⟨savedAreas.take 3, savedAreas.drop 3, rfl, ?_, ?_⟩
    · rw [hk]; decide
    · have hp : ((r.cfg.areas ++ savedAreas.drop 3).map (·.tag)).Pairwise fun x y => eqi x y = false := by
        rw [List.map_append, show r.cfg.areas.map (·.tag) = (r.cfg.areas.map fun a => (a.tag, a.aka)).map Prod.fst by simp, hk]
        decide
      exact List.pairwise_map.1 hp
  obtain ⟨out, h1, h2⟩ := changes_survive_restart_partial env rdNl (fun _ => true) savedFile r (st r.cfg) u saved_plain hr rfl hH
    (by rw [ha]; decide) hO hW hF
  exact ⟨r, u, out, hr, hH, ha, h1, _, h2, by simp [ha], by simp [hn]⟩

end Ex

end CM
