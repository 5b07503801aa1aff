import Verif.Lemmas.Readdress
import Verif.Props.Bounce
/-! # C106: netmail is remapped to whom it should be, and messages get the sender they should have -/

set_option linter.unusedSimpArgs false
namespace CM

/-- C106. REMAPMSG sends a netmail to the name and address asked for: recipient and address change, nothing else does;
the lines that tell the addresses are replaced by lines for the new ones, all other lines are kept in their order, and
a note is added. What is missing: the note must fit into its buffer, and its last line is not ended
(`remap_unterminated`). -/
theorem remap_partial {env : Env} {gen : MemMsg → M Unit} {m : MemMsg} {name : Str} {p : Pat4} {s : HSt} (hm : m.area = []) (ht : WholeText m.text)
    (hn : name.length < 36) (ho : m.to.length < 36)
    (hb : (named name m.to).length + (shown (expandNodePat s.cfg.nl p m.dest)).length +
      (shown (towards s.cfg (expandNodePat s.cfg.nl p m.dest))).length ≤ 77) :
    ∃ m', runCommand env gen m (.remap name p) s = .ok m' s ∧ Remapped s.cfg m name (expandNodePat s.cfg.nl p m.dest) m' ∧ TextOK m'.text :=
  filterRemap_spec hm ht hn ho hb

/-- C106. Echomail is not remapped. -/
theorem remap_echomail {env : Env} {gen : MemMsg → M Unit} {m : MemMsg} {name : Str} {p : Pat4} {s : HSt} (hm : m.area ≠ []) :
    runCommand env gen m (.remap name p) s = .ok m s := by
  simp only [runCommand, filterRemap]
  rw [if_pos hm]
  rfl

theorem not_addrLine {l : Str} (h : addrLine l = false) : ¬ AddrKludge l := by
  unfold addrLine at h
  simp only [Bool.or_eq_false_iff] at h
  rintro (h' | h' | h')
  · rw [← List.isPrefixOf_iff_prefix, h.1.2] at h'; cases h'
  · rw [← List.isPrefixOf_iff_prefix, h.2] at h'; cases h'
  · rw [← List.isPrefixOf_iff_prefix, h.1.1] at h'; cases h'

theorem not_addr_second {a : UInt8} {r : Str} (h : a ≠ 70 ∧ a ≠ 84 ∧ a ≠ 73) : ¬ AddrKludge (1 :: a :: r) := by
  rintro (⟨t, ht⟩ | ⟨t, ht⟩ | ⟨t, ht⟩) <;> simp only [List.cons_append, List.cons.injEq, true_and] at ht
  · exact h.1 ht.1.symm
  · exact h.2.1 ht.1.symm
  · exact h.2.2 ht.1.symm

theorem piecesFrom_short (t cur : Str) (h : 13 ∉ t ∧ 10 ∉ t) (hl : cur.length + t.length ≤ 197) (hc : cur ++ t ≠ []) : piecesFrom cur t = [cur ++ t] := by
  induction t generalizing cur with
  | nil => rw [List.append_nil] at hc ⊢; rw [piecesFrom, if_neg hc]
  | cons d t ih =>
    simp only [List.mem_cons, not_or, List.length_cons] at h hl
    rw [piecesFrom, if_neg (by
      rintro (rfl | rfl | h')
      · exact h.2.1 rfl
      · exact h.1.1 rfl
      · omega), ih _ ⟨h.1.2, h.2.2⟩ (by simp; omega) (by simp)]
    simp

theorem shown_neat (n : Node4D) : (13 : UInt8) ∉ shown n ∧ (10 : UInt8) ∉ shown n ∧ (shown n).length ≤ 23 := by
  have h : ∀ k : Nat, (13 : UInt8) ∉ dec k ∧ (10 : UInt8) ∉ dec k := fun k =>
    ⟨fun hc => absurd (dec_digits k _ hc) (by decide), fun hc => absurd (dec_digits k _ hc) (by decide)⟩
  refine ⟨by simp [shown, h], by simp [shown, h], ?_⟩
  rw [shown_eq]; exact addr4_length n

/-- C106. Whoever reads the remapped netmail from a packet finds the name and the address it was remapped to. For the
addresses to come back the lines of the text must be lines for the reader, too: short ones without LF. -/
theorem remap_read (cfg : PktCfg) (po pd : Node4D) {c : Config} {m m' : MemMsg} {name : Str} {d : Node4D} (h : Remapped c m name d m')
    (hp : Packable m') (hl : ∀ ls, IsLines m.text.flatten ls → ∀ l ∈ ls, FullLine l)
    (ha : ¬ b!"AREA:" <+: m'.text.flatten) (h1 : 13 ∉ m.to ∧ 10 ∉ m.to ∧ m.to.length ≤ 35) (h2 : 13 ∉ name ∧ 10 ∉ name) :
    ∃ r, interpMsg cfg po pd (toRaw m' m'.text.flatten) = .ok (some r) ∧ r.text.flatten = m'.text.flatten ∧ r.area = [] ∧
      r.to = named name m.to ∧ r.frm = m.frm ∧ r.subject = m.subject ∧ r.date = m.date ∧ r.attr = m.attr ∧
      (HasIntl (c.has CFG_FORCEINTL) m.orig d → r.orig = m.orig ∧ r.dest = d) ∧
      (¬ HasIntl (c.has CFG_FORCEINTL) m.orig d → r.orig = { m.orig with zone := 0 } ∧ r.dest = { d with zone := po.zone }) := by
  obtain ⟨ls, e1, e2⟩ := h.text
  have eo : m'.orig = m.orig := by rw [h.others]
  have ed := h.dest
  have hto : (13 : UInt8) ∉ m'.to ∧ (10 : UInt8) ∉ m'.to := by
    rw [h.to]
    unfold named
    split
    · exact ⟨h1.1, h1.2.1⟩
    · exact h2
  have hs1 := shown_neat d
  have hs2 := shown_neat (towards c d)
  have hs3 := shown_neat m.dest
  have htl := hp.to.2
  obtain ⟨r, g1, g2, g3, g4, g5, g6, g7, g8, _, _, _, _, _, g13, g14⟩ := netmail_roundtrip cfg po pd m' hp (c.has CFG_FORCEINTL)
    ((ls.filter (!addrLine ·)).flatten ++ remapNote c m'.to d m.to m.dest) (by rw [e2, eo, ed, List.append_assoc]) ha (by
      intro l hl'
      unfold remapNote at hl'
      rw [pieces_full _ _ fun l hl' => hl ls e1 l (List.mem_filter.1 hl').1] at hl'
      rcases List.mem_append.1 hl' with hl' | hl'
      · obtain ⟨hm, hk⟩ := List.mem_filter.1 hl'
        refine ⟨fun _ => ?_, not_addrLine (by simpa using hk)⟩
        obtain ⟨q, rfl, _⟩ := e1.2 l hm
        exact .inr (.inl (by simp))
      · rw [List.append_assoc _ [13], List.singleton_append, pieces_line _ _ (by simp [hto, hs1, hs2]) (by simp; omega)] at hl'
        unfold pieces at hl'
        rw [piecesFrom_short _ _ (by simp [h1, hs3]) (by simp; omega) (by simp)] at hl'
        simp only [List.mem_cons, List.mem_nil_iff, or_false] at hl'
        rcases hl' with rfl | rfl
        · exact ⟨fun _ => .inr (.inl List.getLast?_concat), not_addr_second (by decide)⟩
        · exact ⟨fun _ => .inl (by simp), not_addr_second (by decide)⟩)
  refine ⟨r, g1, g2, g3, g4.trans h.to, ?_, ?_, ?_, ?_, ?_, ?_⟩
  · rw [g5, h.others]
  · rw [g6, h.others]
  · rw [g7, h.others]
  · rw [g8, h.others]
  · rw [← eo, ← ed]; exact g13
  · rw [← eo, ← ed]; exact g14

theorem note_last (c : Config) (to : Str) (d : Node4D) (oldTo : Str) (old : Node4D) (t : Str) :
    (t ++ remapNote c to d oldTo old).getLast? = some 100 := by
  unfold remapNote
  rw [List.getLast?_append, List.getLast?_append, List.getLast?_append]
  rfl

/-- C106, violated. The last line of the note is not ended, so that the next line, which is the Via line of the system
itself, is not a line of its own. -/
theorem remap_unterminated {c : Config} {m m' : MemMsg} {name : Str} {d : Node4D} (h : Remapped c m name d m') {via : Str} {ls : List Str}
    (hv : IsLines (m'.text.flatten ++ via) ls) : via ∉ ls.getLast? := by
  intro hvia
  obtain ⟨ks, e1, e2⟩ := h.text
  simp only [Option.mem_def] at hvia
  obtain ⟨qs, rfl⟩ := List.getLast?_eq_some_iff.1 hvia
  have e3 := hv.1
  rw [List.flatten_append] at e3
  simp only [List.flatten_cons, List.flatten_nil, List.append_nil] at e3
  have e4 := List.append_cancel_right e3
  have hl : qs.flatten.getLast? = some 100 := by
    rw [e4, e2]; exact note_last c _ d _ _ _
  have hq : qs.flatten = [] ∨ qs.flatten.getLast? = some 13 := by
    rcases List.eq_nil_or_concat qs with rfl | ⟨as, a, rfl⟩
    · left; rfl
    · right
      obtain ⟨q, hq, _⟩ := hv.2 a (by simp)
      simp [hq]
  rcases hq with hq | hq
  · rw [hq] at hl; simp at hl
  · rw [hq] at hl; cases hl

theorem loopLines_open (cfg : Config) : ∀ (f : Nat) (s : Str), s.length < f → ¬ EndsCR s →
    loopLines cfg f s = .error .uninit ∨ loopLines cfg f s = .ok true
  | 0, _, h, _ => absurd h (by omega)
  | f + 1, s, h, he => by
    have hs : s ≠ [] := fun e => he (.inl e)
    rw [loopLines, if_neg hs]
    dsimp only
    by_cases hne : (s.takeWhile (· != 13)).length = s.length
    · rw [if_pos hne]; exact .inl rfl
    · rw [if_neg hne]
      split
      · exact .inr rfl
      · obtain ⟨h1, _⟩ := takeWhile_split13 s hne
        refine loopLines_open cfg f _ (by have := List.length_pos_iff.2 hs; simp only [List.length_drop]; omega) ?_
        intro hr
        apply he
        right
        rw [h1, List.getLast?_append, List.getLast?_cons]
        rcases hr with hr | hr
        · rw [hr]; rfl
        · rw [hr]; rfl

theorem isLoopMail_open (cfg : Config) : ∀ (cs : List Str), (∃ c ∈ cs, ¬ EndsCR c) → isLoopMail cfg cs = .error .uninit ∨ isLoopMail cfg cs = .ok true ∨
    ∃ u, isLoopMail cfg cs = .error u
  | [], h => by obtain ⟨c, hc, _⟩ := h; simp at hc
  | c :: cs, h => by
    rw [isLoopMail]
    obtain ⟨x, hx, he⟩ := h
    cases hl : loopLines cfg (c.length + 1) c with
    | error u => exact .inr (.inr ⟨u, rfl⟩)
    | ok b =>
      cases b with
      | true => exact .inr (.inl rfl)
      | false =>
        rcases List.mem_cons.1 hx with rfl | hx
        · rcases loopLines_open cfg (x.length + 1) x (by omega) he with e | e <;> rw [hl] at e <;> cases e
        · exact isLoopMail_open cfg cs ⟨x, hx, he⟩

/-- C106, violated. Looking for loops in a remapped message goes beyond its text, unless one is found. -/
theorem remap_loop_check {c : Config} {m m' : MemMsg} {name : Str} {d : Node4D} (h : Remapped c m name d m') (cfg : Config) :
    isLoopMail cfg m'.text ≠ .ok false := by
  obtain ⟨ks, e1, e2⟩ := h.text
  have hl : m'.text.flatten.getLast? = some 100 := by
    rw [e2]; exact note_last c _ d _ _ _
  have hopen : ∃ x ∈ m'.text, ¬ EndsCR x := by
    refine Classical.byContradiction fun hn => ?_
    have hall : ∀ x ∈ m'.text, EndsCR x := fun x hx => Classical.byContradiction fun he => hn ⟨x, hx, he⟩
    have key : ∀ cs : List Str, (∀ x ∈ cs, EndsCR x) → EndsCR cs.flatten := by
      intro cs
      induction cs with
      | nil => intro _; exact .inl rfl
      | cons x cs ih =>
        intro h
        rcases ih fun y hy => h y (by simp [hy]) with e | e
        · rw [List.flatten_cons, e, List.append_nil]; exact h x (by simp)
        · right; rw [List.flatten_cons, List.getLast?_append, e]; rfl
    rcases key _ hall with e | e
    · rw [e] at hl; simp at hl
    · rw [e] at hl; cases hl
  rcases isLoopMail_open cfg m'.text hopen with e | e | ⟨u, e⟩ <;> rw [e] <;> simp

/-- C106. MASQUERADE makes a message one of the name and address asked for: sender, address, the address in the
identification and in the origin line, SEEN-BY and PATH are those of the new sender; every line that tells the old one or
the way from it is gone; everything else is left. What is missing: identifications must fit into their lines, and
addresses in origin lines be closed. -/
theorem masquerade_partial {env : Env} {gen : MemMsg → M Unit} {m : MemMsg} {name : Str} {p : Pat4} {s : HSt} (ht : WholeText m.text)
    (hn : name.length < 36) (hi : IdsFit m (expandNodePat s.cfg.nl p m.orig)) (hc : OriginsClosed m.text.flatten) :
    ∃ m', runCommand env gen m (.masquerade name p) s = .ok m' s ∧ Masqueraded s.cfg m name (expandNodePat s.cfg.nl p m.orig) m' ∧ TextOK m'.text :=
  filterMasquerade_spec ht hn hi hc

theorem masqText_hides {netmail : Bool} {a : Str} {ls out : List Str} (h : MasqText netmail a ls out) :
    (∀ o ∈ out, o = [] ∨ senderLine netmail o = false) ∧ (∀ l ∈ ls, senderLine netmail l = false → (∀ x y z, ¬ OriginAt x y z l) → l ∈ out) := by
  induction h with
  | nil => simp
  | cons h _ ih =>
    constructor
    · intro o ho
      rcases List.mem_cons.1 ho with rfl | ho
      · cases h with
        | gone h => exact .inl rfl
        | origin h => exact .inr (star_not_sender _ (by simp))
        | kept h _ => exact .inr h
      · exact ih.1 o ho
    · intro l hl h1 h2
      rcases List.mem_cons.1 hl with rfl | hl
      · cases h with
        | gone h => rw [h] at h1; cases h1
        | origin h => exact absurd h (h2 _ _ _)
        | kept _ _ => simp
      · exact List.mem_cons_of_mem _ (ih.2 l hl h1 h2)

/-- C106. Nothing below the new control lines tells who had sent the message, and no other line is lost. -/
theorem masquerade_hides {c : Config} {m m' : MemMsg} {name : Str} {o : Node4D} (h : Masqueraded c m name o m') :
    ∃ (head : Str) (ls out : List Str), IsLines m.text.flatten ls ∧ m'.text.flatten = head ++ out.flatten ∧
      head = idLine b!"MSGID" m'.msgid ++ (if m.area = [] then idLine b!"REPLY" m'.reply else []) ++
        (if m.area = [] then (netmailKludgeLines (c.has CFG_FORCEINTL) o m.dest).flatten else []) ∧
      (∀ l ∈ out, l = [] ∨ senderLine (m.area == []) l = false) ∧
      (∀ l ∈ ls, senderLine (m.area == []) l = false → (∀ x y z, ¬ OriginAt x y z l) → l ∈ out) := by
  obtain ⟨ls, out, e1, e2, e3⟩ := h.text
  obtain ⟨h1, h2⟩ := masqText_hides e2
  exact ⟨_, ls, out, e1, e3, rfl, h1, h2⟩

/-! ## Concrete cases -/

namespace Ex

/-- Netmail to 1:2/3 goes to C at 1:2/9 instead. -/
def movedTo : Pat4 := ⟨.pattern, b!"1", b!"2", b!"9", b!"0"⟩

def moved : MemMsg := { letter with text := [1 :: b!"INTL 1:2/3 1:2/4\r" ++ b!"hello\r"] }

def mover (loop : Nat) : Config := { bouncer 3 9 with
  filters := [⟨b!"TOADDR=1:2/3.0", [.remap b!"C" movedTo]⟩]
  loopMode := loop }

def ranTo (x : Out MemMsg) : Option MemMsg := match x with
  | .ok m _ => some m
  | _ => none

/-- C106. The remapped letter. -/
theorem remapped : (ranTo (runCommand env (fun _ => M.fail) moved (.remap b!"C" movedTo) (st (mover 0)))).map (fun m => (m.to, m.dest, m.orig, m.text)) =
    some (b!"C", ⟨1, 2, 9, 0⟩, ⟨1, 2, 4, 0⟩,
      [b!"hello\r" ++ 1 :: b!"Remapped to C at 1:2/9.0 by 1:2/3.0\r" ++ 1 :: b!"Message originally to B at 1:2/3.0d"]) := by
  decide +kernel

/-- C106. The conditions of `remap_partial` are met. -/
theorem moved_whole : WholeText moved.text ∧ moved.area = [] ∧ (named b!"C" moved.to).length +
    (shown (expandNodePat (mover 0).nl movedTo moved.dest)).length +
      (shown (towards (mover 0) (expandNodePat (mover 0).nl movedTo moved.dest))).length ≤ 77 := by
  refine ⟨⟨⟨by decide, by simp [moved]⟩, ?_⟩, rfl, by decide +kernel⟩
  intro c hc
  simp only [moved, List.mem_singleton] at hc
  subst hc
  exact .inr (by decide)

/-- C106, violated. What the next system gets: the Via line is part of another one. -/
theorem remap_via : (hop (mover 0) (bouncer 9 3) moved).map (fun x => (x.to, x.dest, x.text.flatten)) =
    [(b!"C", ⟨1, 2, 9, 0⟩, b!"hello\r" ++ 1 :: b!"Remapped to C at 1:2/9.0 by 1:2/3.0\r" ++
      1 :: b!"Message originally to B at 1:2/3.0d" ++ 1 :: b!"Via 1:2/3 @20000101.000000 CrashMail II/Linux 1.5.1\r")] := by
  decide +kernel

/-- C106, violated. With a check for loops, memory that was never written is read. -/
theorem remap_uninit : (match handleMessage env noAf 3 moved (st (mover 1)) with
    | .ub .uninit => true
    | _ => false) = true := by
  decide +kernel

/-- C106, violated. Long addresses and a long name overflow the buffer of the note. -/
theorem remap_overflow : (match runCommand env (fun _ => M.fail) moved (.remap (List.replicate 35 65) ⟨.pattern, b!"32767", b!"32767", b!"32767", b!"32767"⟩)
      (st { mover 0 with routes := [⟨⟨.pattern, b!"*", b!"*", b!"*", b!"*"⟩, ⟨.pattern, b!"*", b!"*", b!"*", b!"0"⟩, ⟨32767, 32767, 32767, 32767⟩⟩] }) with
    | .ub .oobWrite => true
    | _ => false) = true := by
  decide +kernel

/-- An echomail from a point. -/
def posting (id : Str) : MemMsg :=
  { orig := ⟨1, 2, 4, 5⟩, area := b!"TEST", frm := b!"A", to := b!"All", msgid := id, reply := b!"1:2/8 0000beef"
    text := [1 :: b!"MSGID: " ++ id ++ b!"\r" ++ 1 :: b!"REPLY: 1:2/8 0000beef\r" ++ b!"hello (you)\r * Origin: here (1:2/4.5)\r" ++ 1 :: b!"Via 1:2/4\r"]
    seenBy := [[(2, 4), (2, 8)]], path := [[b!"2/4"]] }

def mask : Pat4 := ⟨.pattern, b!"*", b!"*", b!"7", b!"0"⟩

/-- C106. The masked posting. -/
theorem masked : ∃ m, ranTo (runCommand env (fun _ => M.fail) (posting b!"1:2/4.5 1234abcd") (.masquerade b!"B" mask) (st (mover 0))) = some m ∧
    m.frm = b!"B" ∧ m.orig = ⟨1, 2, 7, 0⟩ ∧ m.msgid = b!"1:2/7.0 1234abcd" ∧ m.reply = b!"1:2/8 0000beef" ∧ m.seenBy = [[(2, 7)]] ∧
    m.path = [[b!"2/7"]] ∧ m.text.flatten = 1 :: b!"MSGID: 1:2/7.0 1234abcd\r" ++ 1 :: b!"REPLY: 1:2/8 0000beef\r" ++
      b!"hello (you)\r * Origin: here (1:2/7.0)\r" := by
  refine ⟨_, rfl, ?_⟩
  decide +kernel

/-- The lines of the posting. -/
theorem posting_lines : IsLines (posting b!"1:2/4.5 1234abcd").text.flatten [1 :: b!"MSGID: 1:2/4.5 1234abcd\r", 1 :: b!"REPLY: 1:2/8 0000beef\r",
    b!"hello (you)\r", b!" * Origin: here (1:2/4.5)\r", 1 :: b!"Via 1:2/4\r"] := by
  refine ⟨by decide, ?_⟩
  intro l hl
  refine ⟨l.dropLast, ?_⟩
  revert l
  decide

/-- C106. The conditions of `masquerade_partial` are met. -/
theorem posting_whole : WholeText (posting b!"1:2/4.5 1234abcd").text ∧ IdsFit (posting b!"1:2/4.5 1234abcd") ⟨1, 2, 7, 0⟩ ∧
    OriginsClosed (posting b!"1:2/4.5 1234abcd").text.flatten := by
  refine ⟨⟨⟨by decide, by simp [posting]⟩, ?_⟩, ⟨by decide +kernel, by decide +kernel⟩, ?_⟩
  · intro c hc
    simp only [posting, List.mem_singleton] at hc
    subst hc
    exact .inr (by decide)
  · intro ls h
    rw [isLines_unique h posting_lines]
    intro l hl hp _
    simp only [List.mem_cons, List.mem_nil_iff, or_false] at hl
    rcases hl with rfl | rfl | rfl | rfl | rfl
    · exact absurd hp (by decide)
    · exact absurd hp (by decide)
    · exact absurd hp (by decide)
    · exact ⟨b!": here ", b!"1:2/4.5", b!"\r", by decide, by decide, by decide⟩
    · exact absurd hp (by decide)

/-- C106, violated. A long identification leaves no room for the end of its line: the next line becomes a part of it. -/
theorem masked_long : (ranTo (runCommand env (fun _ => M.fail) (posting (b!"1:2/4.5 " ++ List.replicate 63 97)) (.masquerade b!"B" mask) (st (mover 0)))).map
      (fun m => m.text.flatten.take 110) =
    some (1 :: b!"MSGID: 1:2/7.0 " ++ List.replicate 63 97 ++ 1 :: b!"REPLY: 1:2/8 0000beef\r" ++ b!"hello (y") := by
  decide +kernel

/-- C106, violated. An identification without a space is dropped. -/
theorem masked_dropped : (ranTo (runCommand env (fun _ => M.fail) (posting b!"<1234@example>") (.masquerade b!"B" mask) (st (mover 0)))).map
      (fun m => m.text) =
    some [1 :: b!"REPLY: 1:2/8 0000beef\r" ++ b!"hello (you)\r * Origin: here (1:2/7.0)\r"] := by
  decide +kernel

/-- C106, violated. In netmail the reference to somebody else's message becomes one to the new sender's. -/
theorem masked_reply : (ranTo (runCommand env (fun _ => M.fail) { posting b!"1:2/4.5 1234abcd" with area := [], dest := ⟨1, 2, 8, 0⟩ }
      (.masquerade b!"B" mask) (st (mover 0)))).map (fun m => (m.reply, m.text.flatten.take 49)) =
    some (b!"1:2/7.0 0000beef", 1 :: b!"MSGID: 1:2/7.0 1234abcd\r" ++ 1 :: b!"REPLY: 1:2/7.0 0000beef") := by
  decide +kernel

end Ex

end CM
