import Verif.Props.PktFile
/-! # C12: what is written to a packet is what is read from it -/

set_option linter.unusedSimpArgs false
namespace CM

/-! ## Cutting text into lines -/

theorem piecesFrom_cr (cur a b : Str) (c : UInt8) (hc : c = 10 ∨ c = 13) :
    piecesFrom cur (a ++ c :: b) = piecesFrom cur (a ++ [c]) ++ pieces b := by
  have hc' : ∀ n : Nat, c = 10 ∨ c = 13 ∨ n = 197 := fun n => by rcases hc with h | h <;> simp [h]
  induction a generalizing cur with
  | nil => simp [piecesFrom, hc', pieces]
  | cons d a ih =>
    simp only [List.cons_append, piecesFrom]
    split
    · rw [ih]; rfl
    · exact ih _

theorem pieces_line (l b : Str) (hl : 13 ∉ l ∧ 10 ∉ l) (hlen : l.length ≤ 197) :
    pieces (l ++ 13 :: b) = (l ++ [13]) :: pieces b := by
  have gen : ∀ (l cur : Str), 13 ∉ l ∧ 10 ∉ l → cur.length + l.length ≤ 197 →
      piecesFrom cur (l ++ [13]) = [cur ++ l ++ [13]] := by
    intro l
    induction l with
    | nil => intro cur _ _; simp [piecesFrom]
    | cons d l ih =>
      intro cur h hle
      simp only [List.mem_cons, not_or, List.length_cons] at h hle
      simp only [List.cons_append, piecesFrom]
      rw [if_neg (by
        rintro (rfl | rfl | h')
        · exact h.2.1 rfl
        · exact h.1.1 rfl
        · omega), ih _ ⟨h.1.2, h.2.2⟩ (by simp; omega)]
      simp
  unfold pieces
  rw [piecesFrom_cr [] l b 13 (Or.inr rfl), gen l [] hl (by simpa using hlen)]
  rfl

/-- A complete line of at most 198 bytes. -/
def FullLine (l : Str) : Prop := ∃ q, l = q ++ [13] ∧ (13 ∉ q ∧ 10 ∉ q) ∧ q.length ≤ 197

theorem pieces_full (ls : List Str) (b : Str) (h : ∀ l ∈ ls, FullLine l) :
    pieces (ls.flatten ++ b) = ls ++ pieces b := by
  induction ls with
  | nil => simp
  | cons l ls ih =>
    obtain ⟨q, rfl, h1, h2⟩ := h l (by simp)
    simp only [List.flatten_cons, List.append_assoc, List.cons_append, List.nil_append]
    rw [pieces_line q _ h1 h2, ih (fun x hx => h x (by simp [hx]))]

theorem pieces_lines (ls : List Str) (b : Str) (h : ∀ l ∈ ls, (13 ∉ l ∧ 10 ∉ l) ∧ l.length ≤ 197) :
    pieces (ls.flatMap (· ++ [13]) ++ b) = ls.map (· ++ [13]) ++ pieces b := by
  induction ls with
  | nil => simp
  | cons l ls ih =>
    obtain ⟨h1, h2⟩ := h l (by simp)
    simp only [List.flatMap_cons, List.append_assoc, List.map_cons, List.cons_append, List.nil_append]
    rw [pieces_line l _ h1 h2, ih (fun x hx => h x (by simp [hx]))]

/-- Text that is empty or ends in a CR. -/
def EndsCR (t : Str) : Prop := t = [] ∨ t.getLast? = some 13

theorem pieces_append (a b : Str) (h : EndsCR a) : pieces (a ++ b) = pieces a ++ pieces b := by
  rcases h with rfl | h
  · simp [pieces, piecesFrom]
  · obtain ⟨q, rfl⟩ := List.getLast?_eq_some_iff.1 h
    simp only [List.append_assoc, List.cons_append, List.nil_append, pieces]
    rw [piecesFrom_cr [] q b 13 (Or.inr rfl)]
    rfl

theorem pieces_len {t l : Str} (h : l ∈ pieces t) : l.length ≤ 198 := by
  have : ∀ (t cur l : Str), cur.length ≤ 197 → l ∈ piecesFrom cur t → l.length ≤ 198 := by
    intro t
    induction t with
    | nil => intro cur l hc h; simp only [piecesFrom] at h; split at h <;> simp_all; omega
    | cons c t ih =>
      intro cur l hc h
      simp only [piecesFrom] at h
      split at h
      · simp only [List.mem_cons] at h
        rcases h with rfl | h
        · simp; omega
        · exact ih [] l (by simp) h
      · rename_i hn
        simp only [not_or] at hn
        exact ih _ l (by simp; omega) h
  exact this t [] l (by simp) h

/-! ## Feeding safe lines -/

/-- Address control lines of netmail. -/
def AddrKludge (l : Str) : Prop :=
  (1 :: b!"FMPT") <+: l ∨ (1 :: b!"TOPT") <+: l ∨ (1 :: b!"INTL") <+: l

theorem addText_orig {m m' : MemMsg} {l : Str} (h : addText m l = .ok (some m')) :
    m'.orig = m.orig ∧ m'.dest = m.dest := by
  unfold addText at h
  cases ht : mmAddBuf m.text l with
  | error e => rw [ht] at h; simp [bind, Except.bind] at h
  | ok o =>
    rw [ht] at h
    cases o with
    | none => simp [bind, Except.bind] at h
    | some t =>
      simp only [bind, Except.bind, Option.map_some, Except.ok.injEq, Option.some.injEq] at h
      subst h; exact ⟨rfl, rfl⟩

theorem mmAddLine_orig {m m' : MemMsg} {l : Str} (hk : ¬ AddrKludge l) (h : mmAddLine m l = .ok (some m')) :
    m'.orig = m.orig ∧ m'.dest = m.dest := by
  unfold mmAddLine at h
  split at h
  · cases hs : strAt l 9 with
    | error e => rw [hs] at h; simp [bind, Except.bind] at h
    | ok v =>
      rw [hs] at h
      simp only [bind, Except.bind, Except.ok.injEq, Option.map_eq_some_iff] at h
      obtain ⟨a, _, rfl⟩ := h
      exact ⟨rfl, rfl⟩
  · split at h
    · cases hs : strAt l 7 with
      | error e => rw [hs] at h; simp [bind, Except.bind] at h
      | ok v =>
        rw [hs] at h
        simp only [bind, Except.bind] at h
        cases hp : mmAddPath v m.path with
        | error e => rw [hp] at h; simp at h
        | ok p =>
          rw [hp] at h
          simp only [Except.ok.injEq, Option.some.injEq] at h
          subst h; exact ⟨rfl, rfl⟩
    · split at h
      · cases hs : extractAddress l with
        | error e => rw [hs] at h; simp [bind, Except.bind] at h
        | ok o =>
          rw [hs] at h
          simp only [bind, Except.bind] at h
          cases o with
          | none => exact addText_orig h
          | some a => have hx := addText_orig h; exact hx
      · split at h
        · cases hs : processKludge m l with
          | error e => rw [hs] at h; simp [bind, Except.bind] at h
          | ok m1 =>
            rw [hs] at h
            simp only [bind, Except.bind] at h
            obtain ⟨h1, h2⟩ := addText_orig h
            have : m1.orig = m.orig ∧ m1.dest = m.dest := by
              simp only [AddrKludge, not_or, ← startsWith_iff, Bool.not_eq_true] at hk
              obtain ⟨k1, k2, k3⟩ := hk
              simp only [processKludge, bind, Except.bind, kFmpt, kTopt, kIntl, k1, k2, k3, Bool.false_eq_true,
                if_false] at hs
              have hr : ∀ m : MemMsg, (kRescanned m l).orig = m.orig ∧ (kRescanned m l).dest = m.dest := by
                intro m; unfold kRescanned; split <;> exact ⟨rfl, rfl⟩
              have ha : ∀ m m' : MemMsg, kMsgid m l = .ok m' → m'.orig = m.orig ∧ m'.dest = m.dest := by
                intro m m' h
                simp only [kMsgid, bind, Except.bind] at h
                split at h
                · cases hx : strAt l 8 with
                  | error e => rw [hx] at h; simp at h
                  | ok v => rw [hx] at h; simp only [Except.ok.injEq] at h; subst h; exact ⟨rfl, rfl⟩
                · simp only [Except.ok.injEq] at h; subst h; exact ⟨rfl, rfl⟩
              have hb : ∀ m m' : MemMsg, kReply m l = .ok m' → m'.orig = m.orig ∧ m'.dest = m.dest := by
                intro m m' h
                simp only [kReply, bind, Except.bind] at h
                split at h
                · cases hx : strAt l 8 with
                  | error e => rw [hx] at h; simp at h
                  | ok v => rw [hx] at h; simp only [Except.ok.injEq] at h; subst h; exact ⟨rfl, rfl⟩
                · simp only [Except.ok.injEq] at h; subst h; exact ⟨rfl, rfl⟩
              cases q1 : kMsgid (kRescanned m l) l with
              | error e => rw [q1] at hs; simp at hs
              | ok m2 =>
                rw [q1] at hs
                simp only at hs
                cases q2 : kReply m2 l with
                | error e => rw [q2] at hs; simp at hs
                | ok m3 =>
                  rw [q2] at hs
                  simp only [ite_self, Except.ok.injEq] at hs
                  subst hs
                  exact ⟨(hb _ _ q2).1.trans ((ha _ _ q1).1.trans (hr m).1),
                    (hb _ _ q2).2.trans ((ha _ _ q1).2.trans (hr m).2)⟩
            exact ⟨h1.trans this.1, h2.trans this.2⟩
        · exact addText_orig h

/-- Feeding safe text lines keeps the fields, appends the text, and leaves SEEN-BY and PATH alone. -/
theorem addLines_text (m : MemMsg) (ls : List Str) (hi : MsgInv m) (hl : ∀ l ∈ ls, l.length ≤ 198)
    (hn : m.area = [] → ∀ l ∈ ls, SafeKludge l) (he : m.area ≠ [] → ∀ l ∈ ls, SafeEcho l)
    (hc : ∀ l ∈ ls, ¬ EchoControl m l) :
    ∃ m', addLines m ls = .ok (some m') ∧ MsgInv m' ∧ LFrame m m' ∧ m'.text.flatten = m.text.flatten ++ ls.flatten ∧
      m'.seenBy = m.seenBy ∧ m'.path = m.path ∧
      ((∀ l ∈ ls, ¬ AddrKludge l) → m'.orig = m.orig ∧ m'.dest = m.dest) := by
  induction ls generalizing m with
  | nil => exact ⟨m, rfl, hi, .refl m, by simp, rfl, rfl, fun _ => ⟨rfl, rfl⟩⟩
  | cons l ls ih =>
    have hl0 := hl l (by simp)
    obtain ⟨m1, h1, ha⟩ := mmAddLine_safe m l hi (by simp only [chunkLen]; omega) (fun h => hn h l (by simp))
      (fun h => he h l (by simp))
    have hcl := hc l (by simp)
    have earea := ha.frame.area
    obtain ⟨m2, g1, g2, g3, g4, g5, g6, g7⟩ := ih m1 ha.inv (fun x hx => hl x (by simp [hx]))
      (fun h x hx => hn (by rw [← earea]; exact h) x (by simp [hx]))
      (fun h x hx => he (by rw [← earea]; exact h) x (by simp [hx]))
      (fun x hx => by unfold EchoControl; rw [earea]; exact hc x (by simp [hx]))
    refine ⟨m2, by simp only [addLines, h1, g1], g2, ha.frame.trans g3, ?_, ?_, ?_, ?_⟩
    · rw [g4, ha.text, if_neg hcl]; simp
    · rw [g5, ha.seenBy hcl]
    · rw [g6, ha.path hcl]
    · intro hk
      obtain ⟨k1, k2⟩ := mmAddLine_orig (hk l (by simp)) h1
      obtain ⟨k3, k4⟩ := g7 (fun x hx => hk x (by simp [hx]))
      exact ⟨k3.trans k1, k4.trans k2⟩

/-! ## Messages as written -/

/-- A message as it is packed, with the given text. -/
def toRaw (m : MemMsg) (t : Str) : RawMsg := ⟨msgHeaderFixed m, m.date, m.to, m.frm, m.subject, t⟩

/-- The strings of a message fit the packet format. -/
structure Packable (m : MemMsg) : Prop where
  date : NoNul m.date ∧ m.date.length ≤ 19
  to : NoNul m.to ∧ m.to.length ≤ 35
  frm : NoNul m.frm ∧ m.frm.length ≤ 35
  subject : NoNul m.subject ∧ m.subject.length ≤ 71

theorem toRaw_bytes (m : MemMsg) (t : Str) : msgHeader m ++ (t ++ [0]) = (toRaw m t).bytes := by
  simp [msgHeader, RawMsg.bytes, toRaw]

theorem msgHeaderFixed_word (m : MemMsg) :
    (msgHeaderFixed m).length = 14 ∧ word (msgHeaderFixed m) 0 = 2 ∧ word (msgHeaderFixed m) 2 = m.orig.node ∧
    word (msgHeaderFixed m) 4 = m.dest.node ∧ word (msgHeaderFixed m) 6 = m.orig.net ∧
    word (msgHeaderFixed m) 8 = m.dest.net ∧ word (msgHeaderFixed m) 10 = m.attr ∧ word (msgHeaderFixed m) 12 = m.cost := by
  refine ⟨by simp [msgHeaderFixed, le16_length], ?_, ?_, ?_, ?_, ?_, ?_, ?_⟩ <;>
    exact rd16_le16 _

theorem toRaw_ok (m : MemMsg) (t : Str) (h : Packable m) (ht : NoNul t) : (toRaw m t).OK := by
  obtain ⟨h1, h2, _⟩ := msgHeaderFixed_word m
  refine ⟨h1, ?_, h.date, h.to, h.frm, h.subject, ht⟩
  rw [u16At_of_word (by show 0 + 1 < (msgHeaderFixed m).length; omega)]
  show (word (msgHeaderFixed m) 0).toNat = 2
  rw [h2]; rfl

theorem rawStart_toRaw (cfg : PktCfg) (po pd : Node4D) (m : MemMsg) (t : Str) :
    rawStart cfg po pd (toRaw m t) =
      { orig := ⟨0, m.orig.net, m.orig.node, 0⟩
        dest := ⟨po.zone, m.dest.net, m.dest.node, 0⟩
        attr := m.attr
        cost := m.cost
        pktOrig := po
        pktDest := pd
        flags := if cfg.noSecurity then 8 else 0
        date := m.date
        to := m.to
        frm := m.frm
        subject := m.subject } := by
  obtain ⟨_, _, h3, h4, h5, h6, h7, h8⟩ := msgHeaderFixed_word m
  simp only [rawStart, toRaw, h3, h4, h5, h6, h7, h8]

theorem rawStart_inv (cfg : PktCfg) (po pd : Node4D) (m : MemMsg) (t : Str) (h : Packable m) :
    MsgInv (rawStart cfg po pd (toRaw m t)) := by
  constructor
  · simp [rawStart, TextOK]
  · simp [rawStart]
  · exact h.to.2
  · exact h.frm.2
  · exact h.subject.2
  · exact h.date.2
  · simp [rawStart]
  · simp [rawStart]
  · simp [rawStart, Blocks]
  · intro c hc; simp [rawStart] at hc

theorem interpText_plain (m : MemMsg) (t : Str) (h : ¬ b!"AREA:" <+: t) :
    interpText m t = addLines m (pieces t) := by
  unfold interpText
  cases hp : pieces t with
  | nil => rfl
  | cons l ls =>
    have : startsWith l b!"AREA:" = false := by
      rw [Bool.eq_false_iff]
      intro hs
      apply h
      rw [← pieces_flatten t, hp]
      exact ((startsWith_iff _ _).1 hs).trans (by simp)
    simp only [firstLine, this, Bool.false_eq_true, if_false, addLines]
    cases mmAddLine m l with
    | error e => rfl
    | ok o => cases o <;> rfl

theorem kludge_full (force : Bool) (orig dest : Node4D) :
    ∀ l ∈ netmailKludgeLines force orig dest, FullLine l := by
  have hd : ∀ p : UInt16, 13 ∉ dec p.toNat ∧ 10 ∉ dec p.toNat ∧ (dec p.toNat).length ≤ 5 := by
    intro p
    refine ⟨fun h => ?_, fun h => ?_, dec5 p⟩
    · exact absurd (dec_digits _ _ h) (by decide)
    · exact absurd (dec_digits _ _ h) (by decide)
  obtain ⟨a1, a2, a3⟩ := hd orig.zone
  obtain ⟨b1, b2, b3⟩ := hd orig.net
  obtain ⟨c1, c2, c3⟩ := hd orig.node
  obtain ⟨d1, d2, d3⟩ := hd orig.point
  obtain ⟨e1, e2, e3⟩ := hd dest.zone
  obtain ⟨f1, f2, f3⟩ := hd dest.net
  obtain ⟨g1, g2, g3⟩ := hd dest.node
  obtain ⟨h1, h2, h3⟩ := hd dest.point
  intro l hl
  simp only [netmailKludgeLines, List.mem_append, List.mem_ite_nil_right, List.mem_singleton] at hl
  rcases hl with (⟨_, rfl⟩ | ⟨_, rfl⟩) | ⟨_, rfl⟩
  · exact ⟨_, rfl, by simp [d1, d2], by simp; omega⟩
  · exact ⟨_, rfl, by simp [h1, h2], by simp; omega⟩
  · exact ⟨_, rfl, by simp [a1, a2, b1, b2, c1, c2, e1, e2, f1, f2, g1, g2], by simp; omega⟩

/-- C12, netmail. A netmail whose text has complete control lines and does not begin with `AREA:` is
read back with the same text, names, subject, date, attributes and cost; its addresses come back from
the header and the address lines, if these lines are the ones the program writes. -/
theorem netmail_roundtrip (cfg : PktCfg) (po pd : Node4D) (m : MemMsg) (h : Packable m) (force : Bool) (body : Str)
    (ht : m.text.flatten = (netmailKludgeLines force m.orig m.dest).flatten ++ body)
    (ha : ¬ b!"AREA:" <+: m.text.flatten) (hs : ∀ l ∈ pieces body, SafeKludge l ∧ ¬ AddrKludge l) :
    ∃ m', interpMsg cfg po pd (toRaw m m.text.flatten) = .ok (some m') ∧ m'.text.flatten = m.text.flatten ∧
      m'.area = [] ∧ m'.to = m.to ∧ m'.frm = m.frm ∧ m'.subject = m.subject ∧ m'.date = m.date ∧
      m'.attr = m.attr ∧ m'.cost = m.cost ∧ m'.pktOrig = po ∧ m'.pktDest = pd ∧ m'.seenBy = [] ∧ m'.path = [] ∧
      (HasIntl force m.orig m.dest → m'.orig = m.orig ∧ m'.dest = m.dest) ∧
      (¬ HasIntl force m.orig m.dest → m'.orig = { m.orig with zone := 0 } ∧ m'.dest = { m.dest with zone := po.zone }) := by
  obtain ⟨ks, hks⟩ : ∃ ks, ks = netmailKludgeLines force m.orig m.dest := ⟨_, rfl⟩
  have hfull := kludge_full force m.orig m.dest
  have hpl : pieces m.text.flatten = ks ++ pieces body := by rw [ht, hks]; exact pieces_full _ _ hfull
  have hst := rawStart_toRaw cfg po pd m m.text.flatten
  have hinv := rawStart_inv cfg po pd m m.text.flatten h
  unfold interpMsg
  rw [interpText_plain _ _ (by exact ha), show (toRaw m m.text.flatten).text = m.text.flatten from rfl, hpl]
  generalize rawStart cfg po pd (toRaw m m.text.flatten) = s0 at *
  have hs0 : s0.area = [] := by rw [hst]
  have hec : ∀ m : MemMsg, m.area = [] → ∀ l, ¬ EchoControl m l := fun m h l hc => hc.1 h
  obtain ⟨m1, a1, a2, a3, a4, a5, a6, _⟩ := addLines_text s0 ks hinv (by
      intro l hl; rw [hks] at hl
      obtain ⟨q, rfl, _, hq⟩ := hfull l hl
      simp; omega) (fun _ l hl => by
      rw [hks] at hl
      obtain ⟨q, rfl, _⟩ := hfull l hl
      intro _; right; left; simp) (fun h => absurd hs0 h) (fun l _ => hec s0 hs0 l)
  obtain ⟨m1', b1, b2, b3, b4⟩ := netmailKludges_restore force m.orig m.dest s0 hs0 hinv.text
    (by rw [hst]; exact ⟨rfl, rfl, rfl⟩) (by rw [hst]; exact ⟨rfl, rfl, rfl⟩)
  rw [← hks, a1] at b1
  simp only [Except.ok.injEq, Option.some.injEq] at b1
  subst b1
  have hm1 : m1.area = [] := by rw [a3.area, hs0]
  obtain ⟨m2, c1, c2, c3, c4, c5, c6, c7⟩ := addLines_text m1 (pieces body) a2
    (fun l hl => pieces_len hl) (fun _ l hl => (hs l hl).1) (fun h => absurd hm1 h) (fun l _ => hec m1 hm1 l)
  obtain ⟨d1, d2⟩ := c7 (fun l hl => (hs l hl).2)
  rw [addLines_append _ _ _ _ a1, c1]
  have hf := a3.trans c3
  refine ⟨_, rfl, ?_, ?_, ?_, ?_, ?_, ?_, ?_, ?_, ?_, ?_, ?_, ?_, ?_, ?_⟩
  · show m2.text.flatten = _
    rw [c4, a4, pieces_flatten, ht, ← hks, hst]; simp
  · exact hf.area.trans hs0
  · exact hf.to.trans (by rw [hst])
  · exact hf.frm.trans (by rw [hst])
  · exact hf.subject.trans (by rw [hst])
  · exact hf.date.trans (by rw [hst])
  · exact hf.attr.trans (by rw [hst])
  · exact hf.cost.trans (by rw [hst])
  · exact hf.pktOrig.trans (by rw [hst])
  · exact hf.pktDest.trans (by rw [hst])
  · exact c5.trans (a5.trans (by rw [hst]))
  · exact c6.trans (a6.trans (by rw [hst]))
  · intro hi
    exact ⟨d1.trans (b3 hi).1, d2.trans (b3 hi).2⟩
  · intro hi
    refine ⟨d1.trans ((b4 hi).1.trans ?_), d2.trans ((b4 hi).2.trans ?_)⟩ <;> rw [hst]

/-! ## Echomail -/

/-- An area name that survives being written and read: it fits, has no line ends, does not begin with
a space and ends in a visible character. -/
structure AreaName (a : Str) : Prop where
  len : a.length ≤ 79
  noCR : 13 ∉ a ∧ 10 ∉ a
  noNul : NoNul a
  first : a.head? ≠ some 32
  last : ∃ c, a.getLast? = some c ∧ below33 c = false

/-- The SEEN-BYs meant to be sent to a node: only the two systems across zones or for nodes with short
SEEN-BYs, none if the node wants none, otherwise all. Points are never listed. -/
def sentSeenBy (m : MemMsg) (node : ConfigNode) (aka : Node4D) : List N2 :=
  if node.node.zone ≠ aka.zone ∨ node.has NODE_TINYSEENBY = true then
    ((if node.node.point = 0 then [(node.node.net, node.node.node)] else []) ++
      (if aka.point = 0 then [(aka.net, aka.node)] else [])).eraseDups
  else if node.has NODE_NOSEENBY = true then [] else m.seenBy.flatten

theorem mmSort_any (bs : List (List N2)) (h : Blocks bs ∨ bs = [[]]) :
    ∃ r, mmSortNodes2D bs = .ok r ∧ r.flatten = isort compareSort bs.flatten := by
  rcases h with h | rfl
  · obtain ⟨r, h1, h2, _⟩ := mmSort_spec bs h
    exact ⟨r, h1, h2⟩
  · exact ⟨[[]], rfl, rfl⟩

theorem echoSeenBy_spec (m : MemMsg) (node : ConfigNode) (aka : Node4D) (hb : Blocks m.seenBy) :
    ∃ bs, echoSeenBy m node aka = mmMakeSeenByBuf bs ∧ bs.flatten = isort compareSort (sentSeenBy m node aka) := by
  unfold echoSeenBy sentSeenBy
  by_cases h1 : node.node.zone ≠ aka.zone ∨ node.has NODE_TINYSEENBY = true
  · rw [if_pos h1, if_pos h1]
    have bl : ∀ x, Blocks (mmAddNodes2D [[]] x) := by
      intro x; simp [mmAddNodes2D, Blocks, num2D]
    have fl : ∀ x, (mmAddNodes2D [[]] x).flatten = [x] := by
      intro x; rw [mmAddNodes2D_flatten]; simp
    by_cases p1 : node.node.point = 0 <;> by_cases p2 : aka.point = 0
    all_goals simp only [p1, p2, if_true, if_false]
    · obtain ⟨r, e1, e2⟩ := mmSort_any _ (Or.inl (mmAddNodes2D_blocks _ (aka.net, aka.node) (bl (node.node.net, node.node.node))))
      refine ⟨r, by rw [e1]; rfl, ?_⟩
      rw [e2, mmAddNodes2D_flatten, fl]
      congr 1
      by_cases he : (aka.net, aka.node) = (node.node.net, node.node.node)
      · rw [he]; simp [List.eraseDups_cons]
      · have he' : ¬ (node.node.net, node.node.node) = (aka.net, aka.node) := fun h => he h.symm
        rw [if_neg (by simpa using he)]
        simp only [List.cons_append, List.nil_append, List.eraseDups_cons, List.filter_cons, List.filter_nil]
        rw [if_pos (by simpa using he)]
        simp [List.eraseDups_cons]
    · obtain ⟨r, e1, e2⟩ := mmSort_any _ (Or.inl (bl (node.node.net, node.node.node)))
      exact ⟨r, by rw [e1]; rfl, by rw [e2, fl]; simp [List.eraseDups_cons]⟩
    · obtain ⟨r, e1, e2⟩ := mmSort_any _ (Or.inl (bl (aka.net, aka.node)))
      exact ⟨r, by rw [e1]; rfl, by rw [e2, fl]; simp [List.eraseDups_cons]⟩
    · obtain ⟨r, e1, e2⟩ := mmSort_any [[]] (Or.inr rfl)
      exact ⟨r, by rw [e1]; rfl, by rw [e2]; rfl⟩
  · rw [if_neg h1, if_neg h1]
    by_cases h2 : node.has NODE_NOSEENBY = true
    · rw [if_pos h2, if_pos h2]
      exact ⟨[], rfl, rfl⟩
    · rw [if_neg h2, if_neg h2]
      obtain ⟨r, e1, e2⟩ := mmSort_any _ (Or.inl hb)
      exact ⟨r, by rw [e1]; rfl, e2⟩

theorem pathBytes_lines (ps : List (List Str)) (h : ∀ l ∈ ps.flatten, l ≠ []) :
    pathBytes ps = (ps.flatten.map pathLine).flatten := by
  unfold pathBytes
  rw [List.filter_eq_self.2 (by intro l hl; simpa using h l hl)]
  rw [List.flatMap_def]; rfl

/-- A PATH line that survives being written and read. -/
def PathLineOK (l : Str) : Prop :=
  13 ∉ l ∧ 10 ∉ l ∧ NoNul l ∧ l.length < 100 ∧ ∃ c, l.getLast? = some c ∧ below33 c = false

/-- The text part of an echomail as written. -/
def echoText (m : MemMsg) (sb : Str) : Str :=
  b!"AREA:" ++ (m.area ++ 13 :: (m.text.flatten ++ (sb ++ pathBytes m.path)))

/-! ## The message identifier -/

/-- The identifier of a message after a line: a MSGID line sets it. -/
def idFrom (id l : Str) : Str :=
  if (1 :: b!"MSGID:") <+: l then ((l.drop 8).takeWhile (· ≠ 13)).take 79 else id

/-- The identifier of a message with this text: that of the last MSGID line. -/
def msgidOf (text : Str) : Str := (pieces text).foldl idFrom []

theorem addText_id {m m' : MemMsg} {l : Str} (h : addText m l = .ok (some m')) :
    m'.msgid = m.msgid ∧ m'.flags = m.flags ∧ m'.seenBy = m.seenBy ∧ m'.area = m.area := by
  unfold addText at h
  cases ht : mmAddBuf m.text l with
  | error e => rw [ht] at h; simp [bind, Except.bind] at h
  | ok o =>
    rw [ht] at h
    cases o with
    | none => simp [bind, Except.bind] at h
    | some t =>
      simp only [bind, Except.bind, Option.map_some, Except.ok.injEq, Option.some.injEq] at h
      subst h; exact ⟨rfl, rfl, rfl, rfl⟩

theorem processKludge_id {m m' : MemMsg} {l : Str} (hne : m.area ≠ []) (h : processKludge m l = .ok m') :
    m'.msgid = idFrom m.msgid l ∧ (¬ (1 :: b!"RESCANNED") <+: l → m'.flags = m.flags) := by
  have hr : (kRescanned m l).msgid = m.msgid ∧ (kRescanned m l).area = m.area ∧
      (¬ (1 :: b!"RESCANNED") <+: l → (kRescanned m l).flags = m.flags) := by
    unfold kRescanned
    split
    · next hx => exact ⟨rfl, rfl, fun hn => absurd ((startsWith_iff _ _).1 hx) hn⟩
    · exact ⟨rfl, rfl, fun _ => rfl⟩
  have hm : ∀ {a b : MemMsg}, kMsgid a l = .ok b → b.msgid = idFrom a.msgid l ∧ b.flags = a.flags ∧ b.area = a.area := by
    intro a b h
    unfold kMsgid at h
    unfold idFrom
    split at h
    · next hx =>
      rw [if_pos ((startsWith_iff _ _).1 hx)]
      simp only [bind, Except.bind] at h
      unfold strAt at h
      split at h
      · cases h
      · next v hv =>
        split at hv
        · cases hv; cases h
          refine ⟨?_, rfl, rfl⟩
          show ((l.drop 8).takeWhile (· != 13)).take 79 = _
          congr 2
          funext c
          by_cases hc : c = 13 <;> simp [hc]
        · cases hv
    · next hx =>
      rw [if_neg (fun hp => hx ((startsWith_iff _ _).2 hp))]
      cases h
      exact ⟨rfl, rfl, rfl⟩
  have hy : ∀ {a b : MemMsg}, kReply a l = .ok b → b.msgid = a.msgid ∧ b.flags = a.flags ∧ b.area = a.area := by
    intro a b h
    unfold kReply at h
    split at h
    · simp only [bind, Except.bind] at h
      split at h
      · cases h
      · cases h; exact ⟨rfl, rfl, rfl⟩
    · cases h; exact ⟨rfl, rfl, rfl⟩
  unfold processKludge at h
  simp only [bind, Except.bind] at h
  cases q1 : kMsgid (kRescanned m l) l with
  | error e => rw [q1] at h; cases h
  | ok m1 =>
    rw [q1] at h
    dsimp only at h
    cases q2 : kReply m1 l with
    | error e => rw [q2] at h; cases h
    | ok m2 =>
      rw [q2] at h
      obtain ⟨a1, a2, a3⟩ := hm q1
      obtain ⟨b1, b2, b3⟩ := hy q2
      dsimp only at h
      rw [if_neg (by rw [b3, a3, hr.2.1]; exact hne)] at h
      cases h
      exact ⟨b1.trans (a1.trans (by rw [hr.1])), fun hn => b2.trans (a2.trans (hr.2.2 hn))⟩

/-- What a line of an echomail does to the identifier, the marks and the SEEN-BY entries. -/
theorem mmAddLine_id {m m' : MemMsg} {l : Str} (hne : m.area ≠ []) (h : mmAddLine m l = .ok (some m')) :
    m'.msgid = idFrom m.msgid l ∧ (¬ (1 :: b!"RESCANNED") <+: l → m'.flags = m.flags) ∧
      (Blocks m.seenBy → Blocks m'.seenBy) ∧ m'.area = m.area := by
  have none : ∀ {p : Str} {c : UInt8}, p.head? = some c → c ≠ 1 → p <+: l → ¬ (1 :: b!"MSGID:") <+: l := by
    rintro p c hp hc ⟨t, rfl⟩ ⟨u, e⟩
    cases p with
    | nil => cases hp
    | cons d p =>
      simp only [List.cons_append, List.cons.injEq] at e
      cases hp
      exact hc e.1.symm
  unfold mmAddLine at h
  split at h
  · next hx =>
    cases hs : strAt l 9 with
    | error e => rw [hs] at h; simp [bind, Except.bind] at h
    | ok v =>
      rw [hs] at h
      simp only [bind, Except.bind, Except.ok.injEq, Option.map_eq_some_iff] at h
      obtain ⟨a, ha, rfl⟩ := h
      exact ⟨by rw [idFrom, if_neg (none (c := 83) rfl (by decide) ((startsWith_iff _ _).1 hx.2))], fun _ => rfl, fun hb => addSeenby_blocks ha hb, rfl⟩
  · split at h
    · next hx =>
      cases hs : strAt l 7 with
      | error e => rw [hs] at h; simp [bind, Except.bind] at h
      | ok v =>
        rw [hs] at h
        simp only [bind, Except.bind] at h
        cases hp : mmAddPath v m.path with
        | error e => rw [hp] at h; simp at h
        | ok p =>
          rw [hp] at h
          simp only [Except.ok.injEq, Option.some.injEq] at h
          subst h
          refine ⟨?_, fun _ => rfl, id, rfl⟩
          rw [idFrom, if_neg]
          obtain ⟨t, e⟩ := (startsWith_iff _ _).1 hx.2
          rintro ⟨u, e'⟩
          rw [← e] at e'
          simp at e'
    · split at h
      · next hx =>
        have hno := none (c := 32) rfl (by decide) ((startsWith_iff _ _).1 hx.2)
        cases hs : extractAddress l with
        | error e => rw [hs] at h; simp [bind, Except.bind] at h
        | ok o =>
          rw [hs] at h
          simp only [bind, Except.bind] at h
          rw [idFrom, if_neg hno]
          cases o with
          | none =>
            obtain ⟨a1, a2, a3, a4⟩ := addText_id h
            exact ⟨a1, fun _ => a2, fun hb => (by rw [a3]; exact hb), a4⟩
          | some a =>
            obtain ⟨a1, a2, a3, a4⟩ := addText_id h
            exact ⟨a1, fun _ => a2, fun hb => (by rw [a3]; exact hb), a4⟩
      · split at h
        · cases hs : processKludge m l with
          | error e => rw [hs] at h; simp [bind, Except.bind] at h
          | ok m1 =>
            rw [hs] at h
            simp only [bind, Except.bind] at h
            obtain ⟨a1, a2, a3, a4⟩ := addText_id h
            obtain ⟨b1, b2⟩ := processKludge_id hne hs
            have hk := processKludge_frame hs
            exact ⟨a1.trans b1, fun hn => a2.trans (b2 hn), fun hb => (by rw [a3, hk.seenBy]; exact hb), a4.trans hk.area⟩
        · next hx =>
          obtain ⟨a1, a2, a3, a4⟩ := addText_id h
          refine ⟨?_, fun _ => a2, fun hb => (by rw [a3]; exact hb), a4⟩
          rw [a1, idFrom, if_neg]
          rintro ⟨u, rfl⟩
          exact hx rfl

theorem addLines_id {ls : List Str} : ∀ {m m' : MemMsg}, m.area ≠ [] → addLines m ls = .ok (some m') →
    m'.msgid = ls.foldl idFrom m.msgid ∧ ((∀ l ∈ ls, ¬ (1 :: b!"RESCANNED") <+: l) → m'.flags = m.flags) ∧
      (Blocks m.seenBy → Blocks m'.seenBy) := by
  induction ls with
  | nil => intro m m' _ h; cases h; exact ⟨rfl, fun _ => rfl, id⟩
  | cons l ls ih =>
    intro m m' hne h
    unfold addLines at h
    split at h
    · cases h
    · cases h
    · next m1 h1 =>
      obtain ⟨a1, a2, a3, a4⟩ := mmAddLine_id hne h1
      obtain ⟨b1, b2, b3⟩ := ih (by rw [a4]; exact hne) h
      exact ⟨by rw [b1, a1]; rfl, fun hl => (b2 fun x hx => hl x (by simp [hx])).trans (a2 (hl l (by simp))), fun hb => b3 (a3 hb)⟩

/-- C12, echomail. An echomail whose text lines are complete and are neither SEEN-BY nor PATH lines is
read back with the same area, text, names, subject, date, attributes, cost and PATH, with the
identifier of its last MSGID line, and with exactly the SEEN-BYs meant for the receiver, sorted. -/
theorem echomail_roundtrip (cfg : PktCfg) (po pd : Node4D) (m : MemMsg) (node : ConfigNode) (aka : Node4D)
    (h : Packable m) (ha : AreaName m.area) (he : EndsCR m.text.flatten) (hn : NoNul m.text.flatten)
    (hs : ∀ l ∈ pieces m.text.flatten, SafeEcho l ∧ ¬ b!"SEEN-BY:" <+: l ∧ ¬ (1 :: b!"PATH:") <+: l)
    (hb : Blocks m.seenBy) (hnd : m.seenBy.flatten.Nodup) (hp : ∀ l ∈ m.path.flatten, PathLineOK l) :
    ∃ sb, echoSeenBy m node aka = .ok sb ∧ NoNul (echoText m sb) ∧
    ∃ m', interpMsg cfg po pd (toRaw m (echoText m sb)) = .ok (some m') ∧
      m'.area = m.area ∧ m'.text.flatten = m.text.flatten ∧ m'.to = m.to ∧ m'.frm = m.frm ∧
      m'.subject = m.subject ∧ m'.date = m.date ∧ m'.attr = m.attr ∧ m'.cost = m.cost ∧
      m'.pktOrig = po ∧ m'.pktDest = pd ∧ m'.path.flatten = m.path.flatten ∧
      m'.seenBy.flatten.Perm ((sentSeenBy m node aka).filter (· ≠ (0, 0))) ∧
      m'.seenBy.flatten.Pairwise (fun a b => compareSort a b ≤ 0) ∧ Blocks m'.seenBy ∧ PathOK m'.path ∧
      m'.msgid = msgidOf m.text.flatten ∧
      ((∀ l ∈ pieces m.text.flatten, ¬ (1 :: b!"RESCANNED") <+: l) →
        m'.flags = (if cfg.noSecurity then 8 else 0) ||| 4) := by
  obtain ⟨bs, e1, e2⟩ := echoSeenBy_spec m node aka hb
  have hne : m.area ≠ [] := by
    rintro h0; obtain ⟨c, hc, _⟩ := ha.last; rw [h0] at hc; simp at hc
  have hvis : (visible bs).Nodup := by
    unfold visible
    rw [e2]
    refine ((isort_perm compareSort _).nodup_iff.2 ?_).filter _
    unfold sentSeenBy
    split
    · by_cases p1 : node.node.point = 0 <;> by_cases p2 : aka.point = 0
      all_goals simp only [p1, p2, if_true, if_false, List.cons_append, List.nil_append, List.eraseDups_cons,
        List.filter_cons, List.filter_nil]
      · split <;> simp [List.eraseDups_cons]
        rename_i hx
        intro x1 x2
        simp [x1, x2] at hx
      · simp [List.eraseDups_cons]
      · simp [List.eraseDups_cons]
      · simp
    · split
      · simp
      · exact hnd
  have hst := rawStart_toRaw cfg po pd m
  have hinv := fun t => rawStart_inv cfg po pd m t h
  obtain ⟨s0, hs0⟩ : ∃ s0, ∀ t, rawStart cfg po pd (toRaw m t) = s0 := ⟨_, hst⟩
  have hst0 := (hs0 []).symm.trans (hst [])
  have hinv0 : MsgInv s0 := by rw [← hs0 []]; exact hinv []
  have hinv1 : MsgInv { s0 with area := m.area } := { hinv0 with area := ha.len }
  have hec : ∀ l ∈ pieces m.text.flatten, ¬ EchoControl { s0 with area := m.area } l := by
    intro l hl hc
    rcases hc.2 with hc | hc
    · exact (hs l hl).2.1 hc
    · exact (hs l hl).2.2 hc
  obtain ⟨m2, b1, b2, b3, b4, b5, b6, _⟩ := addLines_text { s0 with area := m.area } (pieces m.text.flatten) hinv1
    (fun l hl => pieces_len hl) (fun h0 => absurd h0 hne) (fun _ l hl => (hs l hl).1) hec
  have hm2 : m2.area ≠ [] := by rw [b3.area]; exact hne
  obtain ⟨ls, r, c1, c2, c3, c4⟩ := seenBy_roundtrip bs hvis m2 hm2 (by rw [b5, hst0])
  obtain ⟨q, d1, d2, d3⟩ := path_roundtrip { m2 with seenBy := r } m.path.flatten hm2 b2.path
    (fun l hl => ⟨(hp l hl).2.2.2.1, (hp l hl).2.2.2.2⟩)
  have hpne : ∀ l ∈ m.path.flatten, l ≠ [] := by
    intro l hl h0
    obtain ⟨c, hc, _⟩ := (hp l hl).2.2.2.2
    rw [h0] at hc; simp at hc
  refine ⟨ls.flatMap (· ++ [13]), by rw [e1, c1], ?_, ?_⟩
  · unfold echoText NoNul
    rw [pathBytes_lines _ hpne]
    simp only [List.mem_append, List.mem_cons, List.mem_flatMap, List.mem_flatten, List.mem_map, not_or]
    refine ⟨by decide, ha.noNul, by decide, by simpa [NoNul] using hn, ?_, ?_⟩
    · rintro ⟨l, hl, h0⟩
      rcases h0 with h0 | h0
      · exact (c2 l hl).2.2.1 h0
      · simp at h0
    · rintro ⟨_, ⟨l, hl, rfl⟩, h0⟩
      simp only [pathLine, List.mem_append, List.mem_cons] at h0
      have := (hp l (by simpa using hl)).2.2.1
      rcases h0 with (h0 | h0) | h0
      · revert h0; decide
      · exact this h0
      · simp at h0
  · have hpieces : pieces (echoText m (ls.flatMap (· ++ [13]))) =
        (b!"AREA:" ++ m.area ++ [13]) :: (pieces m.text.flatten ++ (ls.map (· ++ [13]) ++ m.path.flatten.map pathLine)) := by
      unfold echoText
      rw [← List.append_assoc, pieces_line (b!"AREA:" ++ m.area) _ (by
          simp only [List.mem_append, not_or]
          exact ⟨⟨by decide, ha.noCR.1⟩, by decide, ha.noCR.2⟩) (by have := ha.len; simp; omega)]
      rw [pieces_append _ _ he, pieces_lines ls _ (fun l hl => ⟨⟨(c2 l hl).1, (c2 l hl).2.1⟩, by have := (c2 l hl).2.2.2; omega⟩)]
      rw [pathBytes_lines _ hpne]
      have := pieces_full (m.path.flatten.map pathLine) [] (by
        intro l hl
        obtain ⟨x, hx, rfl⟩ := List.mem_map.1 hl
        obtain ⟨x1, x2, _, x3, _⟩ := hp x hx
        exact ⟨1 :: b!"PATH: " ++ x, rfl, by simp [x1, x2], by simp; omega⟩)
      simp only [List.append_nil] at this
      rw [this]
      simp [pieces, piecesFrom]
    have hfirst : firstLine s0 (b!"AREA:" ++ m.area ++ [13]) = .ok (some { s0 with area := m.area }) := by
      unfold firstLine
      rw [if_pos (by simp [startsWith])]
      have hd : (b!"AREA:" ++ m.area ++ [13]).drop 5 = m.area ++ [13] := by simp
      rw [hd]
      have hlead : striplead (mystrncpy (m.area ++ [13]) 80) = mystrncpy (m.area ++ [13]) 80 := by
        cases hA : m.area with
        | nil => exact absurd hA hne
        | cons c a =>
          have hc : c ≠ 32 := by
            have := ha.first
            rw [hA] at this; simpa using this
          simp [striplead, mystrncpy, List.dropWhile_cons, hc]
      have hs : stripleadtrail (mystrncpy (m.area ++ [13]) 80) = .ok m.area := by
        unfold stripleadtrail
        rw [hlead, striptrail_iff]
        obtain ⟨c, hc, hv⟩ := ha.last
        by_cases hl : m.area.length = 79
        · exact ⟨[], by simp [mystrncpy, ← hl], by simp, c, hc, hv⟩
        · have := ha.len
          refine ⟨[13], ?_, by decide, c, hc, hv⟩
          unfold mystrncpy
          rw [List.take_of_length_le (by simp; omega)]
      rw [hs]
    have hadd : interpText s0 (echoText m (ls.flatMap (· ++ [13]))) = .ok (some { m2 with seenBy := r, path := q }) := by
      unfold interpText
      rw [hpieces]
      simp only [hfirst]
      rw [addLines_append _ _ _ _ b1, addLines_append _ _ _ _ c3]
      exact d1
    unfold interpMsg
    rw [hs0, show (toRaw m (echoText m (ls.flatMap (· ++ [13])))).text = echoText m (ls.flatMap (· ++ [13])) from rfl, hadd]
    obtain ⟨i1, i2, i3⟩ := addLines_id (m := { s0 with area := m.area }) hne b1
    obtain ⟨-, -, i4⟩ := addLines_id hm2 c3
    refine ⟨_, rfl, b3.area, ?_, ?_, ?_, ?_, ?_, ?_, ?_, ?_, ?_, ?_, ?_, ?_, i4 (i3 hinv0.seenBy), d2, ?_, ?_⟩
    · show m2.text.flatten = _
      rw [b4, pieces_flatten, hst0]; simp
    · exact b3.to.trans (by rw [hst0])
    · exact b3.frm.trans (by rw [hst0])
    · exact b3.subject.trans (by rw [hst0])
    · exact b3.date.trans (by rw [hst0])
    · exact b3.attr.trans (by rw [hst0])
    · exact b3.cost.trans (by rw [hst0])
    · exact b3.pktOrig.trans (by rw [hst0])
    · exact b3.pktDest.trans (by rw [hst0])
    · show q.flatten = _
      rw [d3]; show m2.path.flatten ++ _ = _
      rw [b6, hst0]; simp
    · show r.flatten.Perm _
      rw [c4]; unfold visible; rw [e2]
      exact (isort_perm _ _).filter _
    · show r.flatten.Pairwise _
      rw [c4]; unfold visible; rw [e2]
      exact (isort_sorted compareSort compareSort_total compareSort_trans _).filter _
    · show m2.msgid = _
      rw [i1, hst0]; rfl
    · intro hn
      show m2.flags ||| 4 = _
      rw [i2 hn, hst0]

end CM
