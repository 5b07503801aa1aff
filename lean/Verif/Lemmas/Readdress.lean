import Verif.Spec.Readdress
import Verif.Lemmas.Keep
import Verif.Lemmas.Monad
set_option linter.unusedSimpArgs false
namespace CM

theorem shown_eq (n : Node4D) : shown n = addr4 n := by simp [shown, addr4]

theorem isLines_nil : IsLines [] [] := ⟨rfl, by simp⟩

/-- A text has only one division into lines. -/
theorem isLines_unique {t : Str} : ∀ {as bs : List Str}, IsLines t as → IsLines t bs → as = bs := by
  have key : ∀ (as bs : List Str), (∀ l ∈ as, ∃ q : Str, l = q ++ [13] ∧ 13 ∉ q) → (∀ l ∈ bs, ∃ q : Str, l = q ++ [13] ∧ 13 ∉ q) →
      as.flatten = bs.flatten → as = bs := by
    intro as
    induction as with
    | nil =>
      intro bs _ hb e
      cases bs with
      | nil => rfl
      | cons b bs => obtain ⟨q, rfl, _⟩ := hb b (by simp); simp at e
    | cons a as ih =>
      intro bs ha hb e
      obtain ⟨q, rfl, hq⟩ := ha a (by simp)
      cases bs with
      | nil => simp at e
      | cons b bs =>
        obtain ⟨r, rfl, hr⟩ := hb b (by simp)
        simp only [List.flatten_cons, List.append_assoc, List.singleton_append] at e
        have h1 : q = r ∧ as.flatten = bs.flatten := by
          clear ih ha hb
          induction q generalizing r with
          | nil =>
            cases r with
            | nil => simpa using e
            | cons x r => simp only [List.nil_append, List.cons_append, List.cons.injEq] at e; exact absurd (by rw [← e.1]; simp) hr
          | cons y q ihq =>
            cases r with
            | nil => simp only [List.nil_append, List.cons_append, List.cons.injEq] at e; exact absurd (by rw [e.1]; simp) hq
            | cons x r =>
              simp only [List.cons_append, List.cons.injEq] at e
              obtain ⟨e1, e2⟩ := ihq (fun h => hq (by simp [h])) r (fun h => hr (by simp [h])) e.2
              exact ⟨by rw [e.1, e1], e2⟩
        rw [h1.1, ih bs (fun l hl => ha l (by simp [hl])) (fun l hl => hb l (by simp [hl])) h1.2]
  intro as bs h1 h2
  exact key as bs h1.2 h2.2 (h1.1.trans h2.1.symm)

theorem isLines_append {a b : Str} {as bs : List Str} (h1 : IsLines a as) (h2 : IsLines b bs) : IsLines (a ++ b) (as ++ bs) := by
  refine ⟨by rw [List.flatten_append, h1.1, h2.1], fun l hl => ?_⟩
  rcases List.mem_append.1 hl with h | h
  · exact h1.2 l h
  · exact h2.2 l h

theorem takeWhile_split13 (s : Str) (h : (s.takeWhile (· != 13)).length ≠ s.length) :
    s = s.takeWhile (· != 13) ++ 13 :: s.drop ((s.takeWhile (· != 13)).length + 1) ∧ 13 ∉ s.takeWhile (· != 13) := by
  constructor
  · induction s with
    | nil => exact absurd rfl h
    | cons a s ih =>
      by_cases ha : a = 13
      · subst ha; simp
      · have e : (a :: s).takeWhile (· != 13) = a :: s.takeWhile (· != 13) := by simp [ha]
        rw [e] at h ⊢
        simp only [List.length_cons, ne_eq, Nat.add_right_cancel_iff] at h
        simpa using ih h
  · intro hm
    have : ∀ (t : Str), (13 : UInt8) ∉ t.takeWhile (· != 13) := by
      intro t
      induction t with
      | nil => simp
      | cons a t ih =>
        by_cases ha : a = 13
        · simp [ha]
        · simp only [List.takeWhile_cons, bne_iff_ne, ne_eq, ha, not_false_eq_true, if_true, List.mem_cons, not_or]
          exact ⟨fun e => ha e.symm, ih⟩
    exact this s hm

theorem chunkLines_ok : ∀ (f : Nat) (s : Str), s.length < f → EndsCR s → ∃ ls, chunkLines f s = .ok ls ∧ IsLines s ls
  | 0, _, h, _ => absurd h (by omega)
  | f + 1, s, h, he => by
    by_cases hs : s = []
    · subst hs; exact ⟨[], by simp [chunkLines], isLines_nil⟩
    · have hne : (s.takeWhile (· != 13)).length ≠ s.length := by
        intro e
        rcases he with he | he
        · exact hs he
        · have hall : s.takeWhile (· != 13) = s := by
            have := List.takeWhile_append_dropWhile (p := (· != 13)) (l := s)
            have h2 : (s.dropWhile (· != 13)) = [] := by
              apply List.eq_nil_of_length_eq_zero
              have := congrArg List.length this
              simp only [List.length_append] at this
              omega
            rw [h2, List.append_nil] at this
            exact this
          obtain ⟨q, rfl⟩ := List.getLast?_eq_some_iff.1 he
          have : (13 : UInt8) ∈ (q ++ [13]).takeWhile (· != 13) := by rw [hall]; simp
          exact absurd this (by
            intro hm
            have key : ∀ t : Str, (13 : UInt8) ∉ t.takeWhile (· != 13) := by
              intro t
              induction t with
              | nil => simp
              | cons a t ih =>
                by_cases ha : a = 13
                · simp [ha]
                · simp only [List.takeWhile_cons, bne_iff_ne, ne_eq, ha, not_false_eq_true, if_true, List.mem_cons, not_or]
                  exact ⟨fun e => ha e.symm, ih⟩
            exact key _ hm)
      obtain ⟨h1, h2⟩ := takeWhile_split13 s hne
      have hr : EndsCR (s.drop ((s.takeWhile (· != 13)).length + 1)) := by
        rcases he with he | he
        · exact absurd he hs
        · by_cases e : s.drop ((s.takeWhile (· != 13)).length + 1) = []
          · exact .inl e
          · refine .inr ?_
            rw [h1] at he
            rw [List.getLast?_append, List.getLast?_cons] at he
            cases hx : (s.drop ((s.takeWhile (· != 13)).length + 1)).getLast? with
            | none => rw [List.getLast?_eq_none_iff] at hx; exact absurd hx e
            | some x => rw [hx] at he; simpa using he
      obtain ⟨ls, e1, e2⟩ := chunkLines_ok f (s.drop ((s.takeWhile (· != 13)).length + 1)) (by have := List.length_pos_iff.2 hs; simp only [List.length_drop]; omega) hr
      refine ⟨(s.takeWhile (· != 13) ++ [13]) :: ls, ?_, ?_⟩
      · rw [chunkLines, if_neg hs]
        dsimp only
        rw [if_neg hne, e1]
        rfl
      · refine ⟨?_, ?_⟩
        · rw [List.flatten_cons, e2.1]
          conv => rhs; rw [h1]
          simp
        · intro l hl
          rcases List.mem_cons.1 hl with rfl | hl
          · exact ⟨_, rfl, h2⟩
          · exact e2.2 l hl

theorem allLines_ok : ∀ (cs : List Str), (∀ c ∈ cs, EndsCR c) → ∃ lss, allLines cs = .ok lss ∧ IsLines cs.flatten lss.flatten ∧
    lss.length = cs.length ∧ (∀ (i : Nat) (c : Str), cs[i]? = some c → ∃ ls, lss[i]? = some ls ∧ IsLines c ls)
  | [], _ => ⟨[], rfl, isLines_nil, rfl, by simp⟩
  | c :: cs, h => by
    obtain ⟨ls, e1, e2⟩ := chunkLines_ok (c.length + 1) c (by omega) (h c (by simp))
    obtain ⟨lss, f1, f2, f3, f4⟩ := allLines_ok cs fun x hx => h x (by simp [hx])
    refine ⟨ls :: lss, ?_, ?_, by simp [f3], ?_⟩
    · unfold allLines at f1 ⊢
      rw [List.mapM_cons, e1]
      simp only [bind, Except.bind, f1, pure, Except.pure]
    · simp only [List.flatten_cons]; exact isLines_append e2 f2
    · intro i x hx
      cases i with
      | zero => simp only [List.getElem?_cons_zero, Option.some.injEq] at hx ⊢; subst hx; exact ⟨ls, rfl, e2⟩
      | succ i => simp only [List.getElem?_cons_succ] at hx ⊢; exact f4 i x hx

theorem addBufs_ok : ∀ (ls : List Str) (cs : List Str) (s : HSt), TextOK cs → (∀ l ∈ ls, l.length + chunkLen < 2 ^ 32) →
    ∃ r, addBufs cs ls s = .ok r s ∧ r.flatten = cs.flatten ++ ls.flatten ∧ TextOK r
  | [], cs, s, h, _ => ⟨cs, rfl, by simp, h⟩
  | l :: ls, cs, s, h, hl => by
    obtain ⟨r, e1, e2, e3⟩ := mmAddBuf_appends cs l h (hl l (by simp))
    obtain ⟨q, f1, f2, f3⟩ := addBufs_ok ls r s e3 fun x hx => hl x (by simp [hx])
    refine ⟨q, ?_, by rw [f2, e2]; simp, f3⟩
    rw [addBufs, bind_ok]
    exact ⟨r, s, liftO_ok.2 ⟨e1, rfl⟩, f1⟩

theorem line_length {t : Str} {ls : List Str} (h : IsLines t ls) : ∀ l ∈ ls, l.length ≤ t.length := by
  intro l hl
  rw [← h.1]
  exact (List.sublist_flatten_of_mem hl).length_le

theorem mem_lss {cs : List Str} {lss : List (List Str)} (hc : TextOK cs)
    (hlen : lss.length = cs.length) (h : ∀ (i : Nat) (c : Str), cs[i]? = some c → ∃ ls, lss[i]? = some ls ∧ IsLines c ls) :
    ∀ l ∈ lss.flatten, l.length ≤ chunkLen := by
  intro l hl
  obtain ⟨ls, h1, h2⟩ := List.mem_flatten.1 hl
  obtain ⟨i, hi⟩ := List.mem_iff_getElem?.1 h1
  have hlt : i < cs.length := by
    have := (List.getElem?_eq_some_iff.1 hi).1; omega
  obtain ⟨ls', e1, e2⟩ := h i cs[i] (List.getElem?_eq_getElem hlt)
  rw [hi] at e1
  cases e1
  exact Nat.le_trans (line_length e2 l h2) (hc.1 _ (List.getElem_mem hlt))

theorem addrLine_eq {l : Str} (h : ∃ q : Str, l = q ++ [13] ∧ 13 ∉ q) : isAddrKludge l = addrLine l := by
  obtain ⟨q, rfl, hq⟩ := h
  have hp : ∀ p : Str, startsWith (q ++ [13]) p = p.isPrefixOf (q ++ [13]) := by
    intro p
    rw [Bool.eq_iff_iff, startsWith_iff, List.isPrefixOf_iff_prefix]
  unfold isAddrKludge addrLine
  rw [hp, hp, hp]
  cases hx : ((1 :: b!"INTL").isPrefixOf (q ++ [13]) || (1 :: b!"FMPT").isPrefixOf (q ++ [13]) || (1 :: b!"TOPT").isPrefixOf (q ++ [13]))
  · simp
  · have : 5 < (q ++ [13]).length := by
      have key : ∀ p : Str, p.length = 5 → p.getLast? ≠ some 13 → p.isPrefixOf (q ++ [13]) = true → 5 < (q ++ [13]).length := by
        intro p h5 hl hp
        rw [List.isPrefixOf_iff_prefix] at hp
        obtain ⟨r, hr⟩ := hp
        cases r with
        | nil => rw [List.append_nil] at hr; rw [hr] at hl; simp at hl
        | cons a r => rw [← hr]; simp; omega
      simp only [Bool.or_eq_true] at hx
      rcases hx with (hx | hx) | hx
      · exact key _ (by decide) (by decide) hx
      · exact key _ (by decide) (by decide) hx
      · exact key _ (by decide) (by decide) hx
    simpa using this

theorem newName_ok {old pat : Str} (h : pat.length < 36) : newName old pat = .ok (named pat old) := by
  unfold newName named
  by_cases e : pat = b!"*"
  · rw [if_pos e, if_pos e]
  · rw [if_neg e, if_pos h, if_neg (by exact e)]

/-- A control line none of the kludges ProcessKludge knows. -/
theorem processKludge_other (m : MemMsg) (a b : UInt8) (r : Str)
    (h : (a, b) ∉ [((82 : UInt8), (69 : UInt8)), (77, 83), (70, 77), (84, 79), (73, 78)]) : processKludge m (1 :: a :: b :: r) = .ok m := by
  simp only [List.mem_cons, Prod.mk.injEq, List.mem_nil_iff, or_false, not_or, not_and] at h
  obtain ⟨h1, h2, h3, h4, h5⟩ := h
  have st : ∀ (x y : UInt8) (p : Str), ¬ (a = x ∧ b = y) → startsWith (1 :: a :: b :: r) (1 :: x :: y :: p) = false := by
    intro x y p hn
    rw [Bool.eq_false_iff, ne_eq, startsWith_iff]
    rintro ⟨t, ht⟩
    simp only [List.cons_append, List.cons.injEq, true_and] at ht
    exact hn ⟨ht.1.symm, ht.2.1.symm⟩
  have e1 : startsWith (1 :: a :: b :: r) (1 :: b!"RESCANNED") = false := st _ _ _ (by rintro ⟨x, y⟩; exact h1 x y)
  have e2 : startsWith (1 :: a :: b :: r) (1 :: b!"MSGID:") = false := st _ _ _ (by rintro ⟨x, y⟩; exact h2 x y)
  have e3 : startsWith (1 :: a :: b :: r) (1 :: b!"REPLY:") = false := st _ _ _ (by rintro ⟨x, y⟩; exact h1 x y)
  have e4 : startsWith (1 :: a :: b :: r) (1 :: b!"FMPT") = false := st _ _ _ (by rintro ⟨x, y⟩; exact h3 x y)
  have e5 : startsWith (1 :: a :: b :: r) (1 :: b!"TOPT") = false := st _ _ _ (by rintro ⟨x, y⟩; exact h4 x y)
  have e6 : startsWith (1 :: a :: b :: r) (1 :: b!"INTL") = false := st _ _ _ (by rintro ⟨x, y⟩; exact h5 x y)
  unfold processKludge kRescanned kMsgid kReply kFmpt kTopt kIntl
  rw [e1, e2, e3, e4, e5, e6]
  simp [bind, Except.bind]

theorem addr4_length (n : Node4D) : (addr4 n).length ≤ 23 := by
  have h1 := dec5 n.zone; have h2 := dec5 n.net; have h3 := dec5 n.node; have h4 := dec5 n.point
  simp [addr4]; omega

/-- A control line of this program. -/
theorem addNote (m : MemMsg) (l : Str) (s : HSt) (hm : m.area = []) (ht : TextOK m.text) (hl : l.length + chunkLen < 2 ^ 32)
    (hk : processKludge m l = .ok m) (h1 : l.head? = some 1) (ls : List Str) :
    ∃ t, mmAddLines m (l :: ls) s = mmAddLines { m with text := t } ls s ∧ t.flatten = m.text.flatten ++ l ∧ TextOK t := by
  obtain ⟨t, e1, e2, e3⟩ := addText_ok m l ht hl
  refine ⟨t, ?_, e3, e2⟩
  rw [mmAddLines, mmAddLine_kludge m l m hm h1 hk, e1]
  rfl

theorem filterRemap_spec {m : MemMsg} {name : Str} {p : Pat4} {s : HSt} (hm : m.area = []) (ht : WholeText m.text)
    (hn : name.length < 36) (ho : m.to.length < 36)
    (hb : (named name m.to).length + (shown (expandNodePat s.cfg.nl p m.dest)).length +
      (shown (towards s.cfg (expandNodePat s.cfg.nl p m.dest))).length ≤ 77) :
    ∃ m', filterRemap m name p s = .ok m' s ∧ Remapped s.cfg m name (expandNodePat s.cfg.nl p m.dest) m' ∧ TextOK m'.text := by
  unfold filterRemap
  rw [if_neg (show ¬ m.area ≠ [] by simp [hm]), get_bind]
  dsimp only
  rw [newName_ok hn]
  obtain ⟨d, hd⟩ : ∃ d, d = expandNodePat s.cfg.nl p m.dest := ⟨_, rfl⟩
  rw [← hd] at hb ⊢
  obtain ⟨to, hto⟩ : ∃ to, to = named name m.to := ⟨_, rfl⟩
  rw [← hto] at hb ⊢
  obtain ⟨t, e1, e2, e3⟩ := makeNetmailKludges_text (s.cfg.has CFG_FORCEINTL) { m with
    text := []
    dest := d
    to := to } ⟨by simp, by simp⟩
  obtain ⟨lss, f1, f2, f3, f4⟩ := allLines_ok m.text ht.2
  have hlen := mem_lss ht.1 f3 f4
  obtain ⟨cs, g1, g2, g3⟩ := addBufs_ok (lss.flatten.filter fun l => !isAddrKludge l) t s e3 (by
    intro l hl
    have := hlen l (List.mem_filter.1 hl).1
    simp only [chunkLen] at this ⊢
    omega)
  have hl1 : (1 :: b!"Remapped to " ++ to ++ b!" at " ++ addr4 d ++ b!" by " ++ addr4 (towards s.cfg d) ++ [13]).length < 100 := by
    rw [shown_eq, shown_eq] at hb
    simp; omega
  have hl2 : (1 :: b!"Message originally to " ++ m.to ++ b!" at " ++ addr4 m.dest ++ b!"d").length < 100 := by
    have := addr4_length m.dest
    simp; omega
  obtain ⟨l1, q1⟩ : ∃ l, l = 1 :: b!"Remapped to " ++ to ++ b!" at " ++ addr4 d ++ b!" by " ++ addr4 (towards s.cfg d) ++ [13] := ⟨_, rfl⟩
  obtain ⟨l2, q2⟩ : ∃ l, l = 1 :: b!"Message originally to " ++ m.to ++ b!" at " ++ addr4 m.dest ++ b!"d" := ⟨_, rfl⟩
  rw [← q1] at hl1
  rw [← q2] at hl2
  obtain ⟨t1, h1, h2, h3⟩ := addNote { m with
    to := to
    dest := d
    text := cs } l1 s hm g3 (by simp only [chunkLen]; omega) (by rw [q1]; exact processKludge_other _ 82 101 _ (by decide)) (by rw [q1]; rfl)
    [l2]
  obtain ⟨t2, i1, i2, i3⟩ := addNote { m with
    to := to
    dest := d
    text := t1 } l2 s hm h3 (by simp only [chunkLen]; omega) (by rw [q2]; exact processKludge_other _ 77 101 _ (by decide)) (by rw [q2]; rfl) []
  refine ⟨{ m with
    to := to
    dest := d
    text := t2 }, ?_, ⟨hto, rfl, rfl, lss.flatten, f2, ?_⟩, i3⟩
  · refine bind_ok.2 ⟨to, s, lift_ok.2 ⟨rfl, rfl⟩, ?_⟩
    refine bind_ok.2 ⟨_, s, liftO_ok.2 ⟨e1, rfl⟩, ?_⟩
    refine bind_ok.2 ⟨lss, s, lift_ok.2 ⟨f1, rfl⟩, ?_⟩
    refine bind_ok.2 ⟨cs, s, g1, ?_⟩
    rw [q1] at hl1 h1
    rw [q2] at h1 i1
    exact (congrFun (if_neg (Nat.not_le.2 hl1)) s).trans (h1.trans i1)
  · have hf : lss.flatten.filter (fun l => !isAddrKludge l) = lss.flatten.filter (!addrLine ·) :=
      List.filter_congr fun l hl => by rw [addrLine_eq (f2.2 l hl)]
    dsimp only at i2 h2 e2 ⊢
    rw [i2, h2, g2, e2, hf, q1, q2]
    simp only [remapNote, shown_eq, List.flatten_nil, List.nil_append, List.append_assoc, List.cons_append]

/-! ## Another sender -/

theorem dropWhile_tail32 (s : Str) (h : 32 ∈ s) : s.dropWhile (· != 32) = 32 :: (s.dropWhile (· != 32)).drop 1 := by
  induction s with
  | nil => simp at h
  | cons a s ih =>
    by_cases e : a = 32
    · subst e; simp
    · have h' : 32 ∈ s := by
        rcases List.mem_cons.1 h with h | h
        · exact absurd h.symm e
        · exact h
      simp only [List.dropWhile_cons, bne_iff_ne, ne_eq, e, not_false_eq_true, if_true]
      exact ih h'

theorem newSerial_ok {kludge old : Str} {o : Node4D} (hk : kludge.length = 5) (h : (relabel (shown o) old).length ≤ 70) :
    newSerial kludge o old = (relabel (shown o) old, if 32 ∈ old then [1 :: kludge ++ b!": " ++ relabel (shown o) old ++ [13]] else []) := by
  unfold newSerial
  by_cases e : 32 ∈ old
  · have e' : old.contains 32 = true := by simpa using e
    have hv : addr4 o ++ b!" " ++ (old.dropWhile (· != 32)).drop 1 = relabel (shown o) old := by
      unfold relabel
      rw [if_pos e, shown_eq]
      conv => rhs; rw [dropWhile_tail32 old e]
      simp
    rw [if_pos e', if_pos e]
    dsimp only
    rw [hv, List.take_of_length_le (by omega), List.take_of_length_le (by simp; omega)]
  · have e' : ¬ old.contains 32 = true := by simpa using e
    rw [if_neg e', if_neg e]
    unfold relabel
    rw [if_neg e]

theorem mem32_relabel {a old : Str} (ha : 32 ∉ a) : 32 ∈ relabel a old ↔ 32 ∈ old := by
  unfold relabel
  by_cases e : 32 ∈ old
  · rw [if_pos e]
    refine ⟨fun _ => e, fun _ => List.mem_append_right _ ?_⟩
    rw [dropWhile_tail32 old e]; simp
  · rw [if_neg e]

theorem dec_no32 (n : Nat) : (32 : UInt8) ∉ dec n := by
  intro h
  exact absurd (dec_digits n _ h) (by decide)

theorem shown_no32 (o : Node4D) : (32 : UInt8) ∉ shown o := by
  simp [shown, dec_no32]

theorem prefix_lt {p q : Str} (hl : p.getLast? ≠ some 13) (h : p.isPrefixOf (q ++ [13]) = true) : p.length < (q ++ [13]).length := by
  rw [List.isPrefixOf_iff_prefix] at h
  obtain ⟨r, hr⟩ := h
  cases r with
  | nil => rw [List.append_nil] at hr; rw [hr] at hl; simp at hl
  | cons a r => rw [← hr]; simp

theorem startsWith_prefix (s p : Str) : startsWith s p = p.isPrefixOf s := by
  rw [Bool.eq_iff_iff, startsWith_iff, List.isPrefixOf_iff_prefix]

theorem and_prefix {p q : Str} {n : Nat} (hl : p.getLast? ≠ some 13) (hn : p.length = n) :
    (decide ((q ++ [13]).length > n) && startsWith (q ++ [13]) p) = p.isPrefixOf (q ++ [13]) := by
  rw [startsWith_prefix]
  cases h : p.isPrefixOf (q ++ [13]) with
  | false => simp
  | true => have := prefix_lt hl h; simp only [Bool.and_true, decide_eq_true_eq]; omega

/-- The lines that are left out. -/
theorem skip_eq {l : Str} (netmail : Bool) (h : ∃ q : Str, l = q ++ [13] ∧ 13 ∉ q) :
    ((decide (l.length > 6) && (startsWith l (1 :: b!"MSGID") || (netmail && startsWith l (1 :: b!"REPLY")))) ||
      ((decide (l.length > 5) && isAddrKludge l) || (decide (l.length > 4) && startsWith l (1 :: b!"Via")))) = senderLine netmail l := by
  have ha := addrLine_eq h
  obtain ⟨q, rfl, hq⟩ := h
  have h1 := and_prefix (q := q) (p := 1 :: b!"MSGID") (n := 6) (by decide) (by decide)
  have h2 := and_prefix (q := q) (p := 1 :: b!"REPLY") (n := 6) (by decide) (by decide)
  have h3 := and_prefix (q := q) (p := 1 :: b!"Via") (n := 4) (by decide) (by decide)
  have h4 : (decide ((q ++ [13]).length > 5) && isAddrKludge (q ++ [13])) = addrLine (q ++ [13]) := by
    rw [← ha]
    unfold isAddrKludge
    cases decide ((q ++ [13]).length > 5) <;> simp
  unfold senderLine
  rw [h4, h3, ← h1, ← h2]
  cases addrLine (q ++ [13]) <;> cases (1 :: b!"Via").isPrefixOf (q ++ [13]) <;> cases decide ((q ++ [13]).length > 6) <;>
    cases netmail <;> simp

theorem star_not_sender {l : Str} (netmail : Bool) (h : l[1]? = some 42) : senderLine netmail l = false := by
  match l, h with
  | a :: b :: r, h =>
    simp only [List.getElem?_cons_succ, List.getElem?_cons_zero, Option.some.injEq] at h
    subst h
    simp [senderLine, addrLine, List.isPrefixOf]

theorem originAt_star {x y z l : Str} (h : OriginAt x y z l) : l[1]? = some 42 ∧ l.length > 9 ∧ startsWith l b!" * Origin" = true ∧
    (l.drop 9).contains 40 = true ∧ l.take 9 ++ (l.drop 9).takeWhile (· != 40) ++ [40] = b!" * Origin" ++ x ++ [40] ∧
    l = (b!" * Origin" ++ x ++ [40]) ++ (y ++ 41 :: z) := by
  obtain ⟨rfl, hx, hy⟩ := h
  have e : (b!" * Origin" ++ x ++ 40 :: (y ++ 41 :: z)).drop 9 = x ++ 40 :: (y ++ 41 :: z) := by simp
  refine ⟨by simp, by simp; omega, ?_, ?_, ?_, by simp⟩
  · rw [startsWith_iff]; exact ⟨x ++ 40 :: (y ++ 41 :: z), by simp⟩
  · rw [e]; simp
  · rw [e]
    have : (x ++ 40 :: (y ++ 41 :: z)).takeWhile (· != 40) = x := by
      rw [List.takeWhile_append_of_pos (by intro a ha; simp only [bne_iff_ne, ne_eq]; rintro rfl; exact hx ha)]
      simp
    rw [this]
    simp

theorem masqLine_ok {l : Str} {netmail : Bool} {o : Node4D} (next : Option UInt8) (h : ∃ q : Str, l = q ++ [13] ∧ 13 ∉ q)
    (ho : b!" * Origin" <+: l → 40 ∈ l → ∃ x y z, OriginAt x y z l) :
    ∃ out, masqLine netmail o l next = .ok out ∧ MasqLine netmail (shown o) l out.flatten ∧ ∀ x ∈ out, x.length ≤ l.length + 23 := by
  have hs := skip_eq netmail h
  unfold masqLine
  by_cases h1 : l[1]? = some 42 ∧ l.length > 9
  · have hf := star_not_sender netmail h1.1
    have hskip : ((decide (l.length > 5) && isAddrKludge l) || (decide (l.length > 4) && startsWith l (1 :: b!"Via"))) = false := by
      rw [hf] at hs
      exact (Bool.or_eq_false_iff.1 hs).2
    rw [if_pos h1]
    by_cases h2 : startsWith l b!" * Origin" = true ∧ (l.drop 9).contains 40 = true
    · rw [if_pos h2]
      obtain ⟨x, y, z, hxyz⟩ := ho ((startsWith_iff _ _).1 h2.1) (List.mem_of_mem_drop (by simpa using h2.2))
      obtain ⟨_, _, _, _, e1, e2⟩ := originAt_star hxyz
      dsimp only
      rw [e1]
      have e3 : l.drop (b!" * Origin" ++ x ++ [40]).length = y ++ 41 :: z := by
        conv => lhs; rw [e2]
        exact List.drop_left
      rw [e3, if_pos (by simp)]
      have e4 : (y ++ 41 :: z).dropWhile (· != 41) = 41 :: z := by
        rw [List.dropWhile_append_of_pos (by intro a ha; simp only [bne_iff_ne, ne_eq]; rintro rfl; exact hxyz.2.2 ha)]
        simp
      rw [e4]
      refine ⟨_, rfl, ?_, ?_⟩
      · have := MasqLine.origin (netmail := netmail) (a := shown o) hxyz
        rw [shown_eq] at this ⊢
        simpa using this
      · have hlen := congrArg List.length e2
        have ha := addr4_length o
        simp only [List.length_append, List.length_cons, List.length_nil] at hlen
        intro w hw
        simp only [List.mem_cons, List.mem_nil_iff, or_false] at hw
        rcases hw with rfl | rfl | rfl
        · simp only [List.length_append, List.length_cons, List.length_nil]; omega
        · omega
        · simp only [List.length_cons]; omega
    · rw [if_neg h2]
      dsimp only
      rw [hskip]
      refine ⟨[l], rfl, ?_, by simp⟩
      simp only [List.flatten_cons, List.flatten_nil, List.append_nil]
      refine .kept hf fun x y z hxyz => ?_
      obtain ⟨_, _, a, b, _⟩ := originAt_star hxyz
      exact h2 ⟨a, b⟩
  · rw [if_neg h1]
    dsimp only
    rw [hs]
    cases hf : senderLine netmail l with
    | true => exact ⟨[], rfl, .gone hf, by simp⟩
    | false =>
      refine ⟨[l], rfl, ?_, by simp⟩
      simp only [List.flatten_cons, List.flatten_nil, List.append_nil]
      refine .kept hf fun x y z hxyz => ?_
      obtain ⟨a, b, _⟩ := originAt_star hxyz
      exact h1 ⟨a, b⟩

theorem masqText_append {netmail : Bool} {a : Str} {ls os ls' os' : List Str} (h : MasqText netmail a ls os) (h' : MasqText netmail a ls' os') :
    MasqText netmail a (ls ++ ls') (os ++ os') := by
  induction h with
  | nil => exact h'
  | cons h _ ih => exact .cons h ih

theorem masqLines_ok {netmail : Bool} {o : Node4D} {n : Nat} : ∀ (ls : List Str), (∀ l ∈ ls, ∃ q : Str, l = q ++ [13] ∧ 13 ∉ q) →
    (∀ l ∈ ls, b!" * Origin" <+: l → 40 ∈ l → ∃ x y z, OriginAt x y z l) → (∀ l ∈ ls, l.length ≤ n) →
    ∃ out os, masqLines netmail o ls = .ok out ∧ MasqText netmail (shown o) ls os ∧ out.flatten = os.flatten ∧ ∀ x ∈ out, x.length ≤ n + 23
  | [], _, _, _ => ⟨[], [], rfl, .nil, rfl, by simp⟩
  | l :: ls, h, ho, hn => by
    obtain ⟨a, e1, e2, e3⟩ := masqLine_ok (netmail := netmail) (o := o) (ls.head?.bind List.head?) (h l (by simp)) (ho l (by simp))
    obtain ⟨b, os, f1, f2, f3, f4⟩ := masqLines_ok (netmail := netmail) (o := o) ls (fun x hx => h x (by simp [hx])) (fun x hx => ho x (by simp [hx]))
      (fun x hx => hn x (by simp [hx]))
    refine ⟨a ++ b, a.flatten :: os, ?_, .cons e2 f2, by rw [List.flatten_append, f3]; simp, ?_⟩
    · rw [masqLines, e1]
      simp only [bind, Except.bind, f1]
    · intro x hx
      have h0 := hn l (by simp)
      rcases List.mem_append.1 hx with hx | hx
      · have := e3 x hx; omega
      · exact f4 x hx

theorem masqChunks_ok {netmail : Bool} {o : Node4D} {n : Nat} : ∀ (lss : List (List Str)), (∀ l ∈ lss.flatten, ∃ q : Str, l = q ++ [13] ∧ 13 ∉ q) →
    (∀ l ∈ lss.flatten, b!" * Origin" <+: l → 40 ∈ l → ∃ x y z, OriginAt x y z l) → (∀ l ∈ lss.flatten, l.length ≤ n) →
    ∃ outs os, lss.mapM (masqLines netmail o) = .ok outs ∧ MasqText netmail (shown o) lss.flatten os ∧ outs.flatten.flatten = os.flatten ∧
      ∀ x ∈ outs.flatten, x.length ≤ n + 23
  | [], _, _, _ => ⟨[], [], rfl, .nil, rfl, by simp⟩
  | ls :: lss, h, ho, hn => by
    obtain ⟨a, os, e1, e2, e3, e4⟩ := masqLines_ok (netmail := netmail) (o := o) (n := n) ls (fun x hx => h x (by simp [hx]))
      (fun x hx => ho x (by simp [hx])) (fun x hx => hn x (by simp [hx]))
    obtain ⟨b, os', f1, f2, f3, f4⟩ := masqChunks_ok (netmail := netmail) (o := o) (n := n) lss (fun x hx => h x (by simp only [List.flatten_cons, List.mem_append]; exact .inr hx))
      (fun x hx => ho x (by simp only [List.flatten_cons, List.mem_append]; exact .inr hx)) (fun x hx => hn x (by simp only [List.flatten_cons, List.mem_append]; exact .inr hx))
    refine ⟨a :: b, os ++ os', ?_, by rw [List.flatten_cons]; exact masqText_append e2 f2, by simp [e3, f3], ?_⟩
    · rw [List.mapM_cons, e1]
      simp only [bind, Except.bind, f1, pure, Except.pure]
    · intro x hx
      rw [List.flatten_cons] at hx
      rcases List.mem_append.1 hx with hx | hx
      · exact e4 x hx
      · exact f4 x hx

theorem idLine_eq {kludge old : Str} {o : Node4D} :
    (if 32 ∈ old then [1 :: kludge ++ b!": " ++ relabel (shown o) old ++ [13]] else []).flatten = idLine kludge (relabel (shown o) old) := by
  unfold idLine
  by_cases h : 32 ∈ old
  · rw [if_pos h, if_pos ((mem32_relabel (shown_no32 o)).2 h)]; simp
  · rw [if_neg h, if_neg (fun e => h ((mem32_relabel (shown_no32 o)).1 e))]; simp

theorem firstPath (o : Node4D) : addNodePath [] o.boss = some [[dec o.net.toNat ++ 47 :: dec o.node.toNat]] := by
  have : hopText o.boss = dec o.net.toNat ++ 47 :: dec o.node.toNat := by
    unfold hopText pointText Node4D.boss
    simp
  unfold addNodePath
  rw [show lastHop [] = some none from rfl]
  dsimp only
  rw [if_neg (by simp [sameHop])]
  rw [show ([] : List (List Str)).getLast? = none from rfl, this]
  rfl

theorem filterMasquerade_spec {m : MemMsg} {name : Str} {p : Pat4} {s : HSt} (ht : WholeText m.text)
    (hn : name.length < 36) (hi : IdsFit m (expandNodePat s.cfg.nl p m.orig)) (hc : OriginsClosed m.text.flatten) :
    ∃ m', filterMasquerade m name p s = .ok m' s ∧ Masqueraded s.cfg m name (expandNodePat s.cfg.nl p m.orig) m' ∧ TextOK m'.text := by
  unfold filterMasquerade
  rw [get_bind]
  dsimp only
  rw [newName_ok hn]
  obtain ⟨o, ho⟩ : ∃ o, o = expandNodePat s.cfg.nl p m.orig := ⟨_, rfl⟩
  rw [← ho] at hi ⊢
  rw [newSerial_ok (by decide) hi.1, newSerial_ok (by decide) hi.2, firstPath]
  dsimp only
  obtain ⟨frm, hfrm⟩ : ∃ f, f = named name m.frm := ⟨_, rfl⟩
  rw [← hfrm]
  obtain ⟨l1, q1⟩ : ∃ l, l = (if 32 ∈ m.msgid then [1 :: b!"MSGID" ++ b!": " ++ relabel (shown o) m.msgid ++ [13]] else []) := ⟨_, rfl⟩
  obtain ⟨l2, q2⟩ : ∃ l, l = (if 32 ∈ m.reply then [1 :: b!"REPLY" ++ b!": " ++ relabel (shown o) m.reply ++ [13]] else []) := ⟨_, rfl⟩
  rw [← q1, ← q2]
  have k1 : ∀ l ∈ l1, l.length ≤ 100 := by
    intro l hl
    rw [q1] at hl
    split at hl
    · simp only [List.mem_singleton] at hl; subst hl; have := hi.1; simp; omega
    · simp at hl
  have k2 : ∀ l ∈ l2, l.length ≤ 100 := by
    intro l hl
    rw [q2] at hl
    split at hl
    · simp only [List.mem_singleton] at hl; subst hl; have := hi.2; simp; omega
    · simp at hl
  obtain ⟨reply, r1, r2⟩ : ∃ r : Str × List Str, r = (if m.area = [] then (relabel (shown o) m.reply, l2) else (m.reply, [])) ∧ ∀ l ∈ r.2, l.length ≤ 100 := by
    refine ⟨_, rfl, ?_⟩
    split
    · exact k2
    · simp
  rw [← r1]
  obtain ⟨cs, a1, a2, a3⟩ := addBufs_ok (l1 ++ reply.2) [] s ⟨by simp, by simp⟩ (by
    intro l hl
    simp only [chunkLen]
    rcases List.mem_append.1 hl with hl | hl
    · have := k1 l hl; omega
    · have := r2 l hl; omega)
  obtain ⟨n, b1, b2, b3, b4⟩ : ∃ t, (if m.area = [] then M.liftO (makeNetmailKludges (s.cfg.has CFG_FORCEINTL) { m with
        frm := frm
        msgid := relabel (shown o) m.msgid
        reply := reply.1
        orig := o
        text := cs })
      else pure { m with
        frm := frm
        msgid := relabel (shown o) m.msgid
        reply := reply.1
        orig := o
        origin4D := o
        text := cs } : M MemMsg) s = .ok t s ∧ TextOK t.text ∧
      t.text.flatten = cs.flatten ++ (if m.area = [] then (netmailKludgeLines (s.cfg.has CFG_FORCEINTL) o m.dest).flatten else []) ∧
      t = { m with
        frm := frm
        msgid := relabel (shown o) m.msgid
        reply := reply.1
        orig := o
        origin4D := if m.area = [] then m.origin4D else o
        text := t.text } := by
    by_cases ha : m.area = []
    · obtain ⟨t, e1, e2, e3⟩ := makeNetmailKludges_text (s.cfg.has CFG_FORCEINTL) { m with
        frm := frm
        msgid := relabel (shown o) m.msgid
        reply := reply.1
        orig := o
        text := cs } a3
      rw [if_pos ha]
      refine ⟨_, liftO_ok.2 ⟨e1, rfl⟩, e3, ?_, ?_⟩
      · rw [if_pos ha]; exact e2
      · rw [if_pos ha]
    · rw [if_neg ha]
      refine ⟨_, rfl, a3, ?_, ?_⟩
      · rw [if_neg ha]; simp
      · rw [if_neg ha]
  obtain ⟨lss, f1, f2, f3, f4⟩ := allLines_ok m.text ht.2
  have hlen := mem_lss ht.1 f3 f4
  obtain ⟨outs, os, g1, g2, g3, g4⟩ := masqChunks_ok (netmail := m.area == []) (o := o) lss f2.2 (hc _ f2) hlen
  obtain ⟨cs', h1, h2, h3⟩ := addBufs_ok outs.flatten n.text s b2 (by
    intro l hl
    have := g4 l hl
    simp only [chunkLen] at this ⊢
    omega)
  refine ⟨{ n with
    text := cs'
    seenBy := mmAddNodes2D [] (o.net, o.node)
    path := [[dec o.net.toNat ++ 47 :: dec o.node.toNat]] }, ?_, ?_, h3⟩
  · refine bind_ok.2 ⟨frm, s, lift_ok.2 ⟨rfl, rfl⟩, ?_⟩
    refine bind_ok.2 ⟨cs, s, a1, ?_⟩
    refine bind_ok.2 ⟨n, s, b1, ?_⟩
    refine bind_ok.2 ⟨lss, s, lift_ok.2 ⟨f1, rfl⟩, ?_⟩
    refine bind_ok.2 ⟨outs, s, lift_ok.2 ⟨g1, rfl⟩, ?_⟩
    refine bind_ok.2 ⟨cs', s, h1, ?_⟩
    exact bind_ok.2 ⟨_, s, liftO_ok.2 ⟨rfl, rfl⟩, rfl⟩
  · have hreply : reply.1 = if m.area = [] then relabel (shown o) m.reply else m.reply := by
      rw [r1]; split <;> rfl
    refine { frm := ?_, orig := ?_, msgid := ?_, reply := ?_, origin := ?_, seenBy := ?_, path := rfl, others := ?_, text := ?_ }
    · rw [b4]; exact hfrm
    · rw [b4]
    · rw [b4]
    · rw [b4]; exact hreply
    · rw [b4]
    · rfl
    · rw [b4]
    · refine ⟨lss.flatten, os, f2, g2, ?_⟩
      dsimp only
      rw [h2, g3, b3, a2]
      have e1 : n.msgid = relabel (shown o) m.msgid := by rw [b4]
      have e2 : n.reply = reply.1 := by rw [b4]
      rw [e1, e2, hreply, ← idLine_eq, ← q1]
      have e3 : reply.2.flatten = if m.area = [] then idLine b!"REPLY" (if m.area = [] then relabel (shown o) m.reply else m.reply) else [] := by
        rw [r1]
        by_cases ha : m.area = []
        · rw [if_pos ha, if_pos ha, if_pos ha, ← idLine_eq, ← q2]
        · rw [if_neg ha, if_neg ha]; rfl
      rw [← e3]
      simp

end CM
