import Verif.Lemmas.JamKeepHead
import Verif.Props.JamScan
/-! # A message in a JAM area comes back as it was -/

set_option linter.unusedSimpArgs false

namespace CM

/-- A message `m` for area `a` that a JAM area keeps; its text consists of the lines `cs` (by chunks), and it was written at time `t`. -/
structure JamFits (r : JamRun) (a : Area) (m : MemMsg) (cs : List (List Str)) (t : Int) : Prop where
  head : JamHeadOk m
  netmail : a.type = .netmail → m.area = [] ∧ m.seenBy = [] ∧ m.path = []
  echomail : a.type ≠ .netmail → m.area = a.tag ∧ a.tag ≠ []
  text : m.text = cs.map List.flatten
  lines : ∀ ls ∈ cs, ∀ l ∈ ls, JamLineOk (m.area ≠ []) l
  nonempty : m.text.flatten ≠ []
  size : m.text.flatten.length < 2 ^ 31
  seen : (visible m.seenBy).Nodup
  path : ∀ p ∈ m.path.flatten, PathLineOk p
  date : m.date = makeFidoDate (r.localtime t)
  time : r.mktime (r.localtime t) = some t ∧ FidoDate (r.localtime t) ∧ 0 ≤ t - r.utcOffset ∧ t - r.utcOffset < 2 ^ 32

/-- What comes back. -/
structure JamBack (o : JamOpt) (rescan : Bool) (aka : Node4D) (num : UInt32) (m : MemMsg) (ls : List Str) (m' : MemMsg) : Prop where
  num : m'.msgnum = num
  area : m'.area = m.area
  frm : m'.frm = m.frm
  to : m'.to = m.to
  subject : m'.subject = m.subject
  date : m'.date = m.date
  cost : m'.cost = m.cost
  attr : m'.attr = m.attr &&& jamAttrs
  netmail : m.area = [] → m'.orig = m.orig ∧ m'.dest = m.dest
  echomail : m.area ≠ [] → m'.orig = m.origin4D
  seen : m'.seenBy.flatten = if o.importSeenBy then visible m.seenBy else []
  path : m'.path.flatten = m.path.flatten
  text : m'.text.flatten = (controlsBack ls).flatten ++ (jamNewLines o (decide (m.area = [])) rescan aka m.orig m.dest).flatten ++ (bodyBack ls).flatten

theorem jamHeadOut_ok {r : JamRun} {h : JamHdr} {m : MemMsg} {x : JamReading} {t : Int} (hattr : h.attr = jamAttrOf m) (hcost : h.cost = m.cost.toUInt32)
    (hd : m.date = makeFidoDate (r.localtime t)) (ht : (h.dateWritten.toNat : Int) + r.utcOffset = t)
    (hfile : x.file = if m.attr &&& 16 ≠ 0 then m.subject else []) (hfl : x.flags = []) (hsub : x.mm.subject = m.subject) (hl : m.subject.length ≤ 71) (ha : x.mm.attr = 0) :
    ∃ old, jamHeadOut r h x = .ok ({ x.mm with date := m.date, cost := m.cost, attr := m.attr &&& jamAttrs }, old) := by
  have hcpy : mystrncpy m.subject 72 = m.subject := by unfold mystrncpy; rw [List.take_of_length_le (by omega)]
  have hc : m.cost.toUInt32.toUInt16 = m.cost := UInt16.toUInt16_toUInt32 _
  unfold jamHeadOut
  by_cases he : x.file ≠ []
  · have h16 : m.attr &&& 16 ≠ 0 := by
      intro e; rw [hfile, if_neg (by simp [e])] at he; exact he rfl
    have hfs : x.file = m.subject := by rw [hfile, if_pos h16]
    obtain ⟨b1, b2⟩ := jamAttr_back m 16 (.inr ⟨rfl, h16⟩)
    rw [← hattr] at b1 b2
    have e16 : (0 : UInt16) ||| 16 = 16 := by decide
    refine ⟨(jamFlagTable.foldl (jamFlagOut h.attr) (16, [])).1, ?_⟩
    simp only [if_pos he]
    simp only [ha, e16, hfl, b2, ne_eq, not_true_eq_false, if_false, hfs, hcpy, ht, ← hd, hcost, hc]
    simp only [bind, Except.bind, pure, Except.pure, b1, hsub]
  · obtain ⟨b1, b2⟩ := jamAttr_back m 0 (.inl rfl)
    rw [← hattr] at b1 b2
    refine ⟨(jamFlagTable.foldl (jamFlagOut h.attr) (0, [])).1, ?_⟩
    simp only [if_neg he]
    simp only [ha, hfl, b2, ne_eq, not_true_eq_false, if_false, ht, ← hd, hcost, hc]
    simp only [bind, Except.bind, pure, Except.pure, b1]

theorem filter_flatten_le (p : Str → Bool) : ∀ ls : List Str, (ls.filter p).flatten.length ≤ ls.flatten.length
  | [] => Nat.le_refl _
  | l :: ls => by
    have := filter_flatten_le p ls
    rw [List.filter_cons]
    split
    · simp only [List.flatten_cons, List.length_append]; omega
    · simp only [List.flatten_cons, List.length_append]; omega

theorem textOK_nil : TextOK [] := ⟨by simp, by simp⟩

/-- The message is stored, and whenever it is read, it is as `JamBack` says. -/
theorem jam_comes_back (o : JamOpt) {r : JamRun} (tick : Nat) {a : Area} {m : MemMsg} {cs : List (List Str)} {t : Int} (hsc : r.e.signedChar = false) (h : JamFits r a m cs t) :
    ∃ hd subs text, jamStored o r tick m = .ok (hd, subs, text) ∧ CanIndex r.e subs ∧ text.length ≤ m.text.flatten.length ∧
      ∀ (hd' : JamHdr) (rescan : Bool) (aka : Node4D) (num : UInt32), hd'.attr = hd.attr → hd'.dateWritten = hd.dateWritten → hd'.cost = hd.cost →
        ∃ m' old, jamLoaded o r a aka rescan num hd' subs text = .ok (m', old) ∧ JamBack o rescan aka num m cs.flatten m' := by
  -- the header
  obtain ⟨t1, t2, t3, t4⟩ := h.time
  have hw : fidoToTime r.mktime (r.now tick) m.date = .ok t := by rw [h.date]; exact time_roundtrip _ _ _ _ t1 t2
  obtain ⟨c1, hc1⟩ := jamCrc32_unsigned m.msgid 0xffffffff
  obtain ⟨c2, hc2⟩ := jamCrc32_unsigned m.reply 0xffffffff
  have hH : ∃ H, jamHdrOf r tick m 0 = .ok H ∧ H.dateWritten = UInt32.ofInt (t - r.utcOffset) ∧ H.cost = m.cost.toUInt32 := by
    unfold jamHdrOf
    rw [hw, hsc]
    simp only [bind, Except.bind]
    rw [hc1]
    simp only
    rw [hc2]
    exact ⟨_, rfl, rfl, rfl⟩
  obtain ⟨H, hH, hdw, hcost⟩ := hH
  have hlines : ∀ l ∈ cs.flatten, JamLineOk (m.area ≠ []) l := by
    intro l hl
    obtain ⟨ls, h1, h2⟩ := List.mem_flatten.1 hl
    exact h.lines ls h1 l h2
  obtain ⟨fs, hfs, hrd, hid⟩ := jamChunks_ok cs h.lines { attr := jamAttrOf m, subs := jamHeadFields m, body := [] }
  obtain ⟨sb, hsb, hsb0, hsbid, hsbr⟩ := jamSeen_ok o m h.seen
  have hbody : (bodyBack cs.flatten).flatten.length ≤ m.text.flatten.length := by
    have e : m.text.flatten = cs.flatten.flatten := by rw [h.text, List.flatten_flatten]
    rw [e]
    exact filter_flatten_le _ _
  refine ⟨{ H with attr := jamAttrOf m }, jamHeadFields m ++ fs ++ sb ++ m.path.flatten.map (jamField 2002), (bodyBack cs.flatten).flatten, ?_, ?_, hbody, ?_⟩
  · unfold jamStored
    rw [hH]
    simp only [bind, Except.bind]
    rw [h.text, hfs]
    simp only [hsb, List.nil_append]
    rw [← h.text, if_neg h.nonempty]
    rfl
  · -- only one subfield has the name of the receiver
    intro s hs hs3
    have hto : s = jamField 3 m.to := by
      rcases List.mem_append.1 hs with hs | hs
      · rcases List.mem_append.1 hs with hs | hs
        · rcases List.mem_append.1 hs with hs | hs
          · unfold jamHeadFields at hs
            simp only [List.mem_append] at hs
            rcases hs with ((((hs | hs) | hs) | hs) | hs) | hs
            · split at hs <;> simp at hs; subst hs; cases hs3
            · split at hs <;> simp at hs; exact hs
            · split at hs <;> simp at hs; subst hs; cases hs3
            · split at hs
              · simp at hs; rcases hs with rfl | rfl <;> cases hs3
              · simp at hs; subst hs; cases hs3
            · split at hs
              · obtain ⟨f, -, rfl⟩ := List.mem_map.1 hs; cases hs3
              · cases hs
            · split at hs
              · obtain ⟨f, -, rfl⟩ := List.mem_map.1 hs; cases hs3
              · cases hs
          · exact absurd hs3 (hid s hs)
        · exact absurd hs3 (hsbid s hs)
      · obtain ⟨f, -, rfl⟩ := List.mem_map.1 hs; cases hs3
    subst hto
    refine ⟨?_, fun e => (by rw [hsc] at e; cases e)⟩
    have := h.head.to.2
    show m.to.length ≤ 100
    omega
  · intro hd' rescan aka num ha hdw' hc'
    have harea : (if a.type = .netmail then [] else a.tag) = m.area := by
      by_cases hn : a.type = .netmail
      · rw [if_pos hn, (h.netmail hn).1]
      · rw [if_neg hn, (h.echomail hn).1]
    have hnet : m.area = [] ↔ a.type = .netmail := by
      by_cases hn : a.type = .netmail
      · simp [hn, (h.netmail hn).1]
      · simp [hn, (h.echomail hn).1, (h.echomail hn).2]
    obtain ⟨b, r1⟩ := jamHeadRead_ok num m h.head
    obtain ⟨f1, i1, p1, tx1, r2, k1, k2⟩ := readLines_control (controlsBack cs.flatten) (jamHeadRead num m (some b)) (controlsBack_kept hlines) id textOK_nil
    -- SEEN-BY and PATH
    have r3 : ∃ sn, sb.foldlM jamSubfield ((jamHeadRead num m (some b)).withText f1 i1 p1 tx1) =
        .ok { (jamHeadRead num m (some b)).withText f1 i1 p1 tx1 with mm := { ((jamHeadRead num m (some b)).withText f1 i1 p1 tx1).mm with seenBy := sn } } ∧
          sn.flatten = if o.importSeenBy then visible m.seenBy else [] := by
      by_cases hm : m.area = []
      · have hs := (h.netmail (hnet.1 hm)).2.1
        refine ⟨[], ?_, by rw [hs]; simp [visible]⟩
        rw [hsb0 hs]; rfl
      · exact hsbr _ hm rfl
    obtain ⟨sn, r3, s3⟩ := r3
    have r4 : ∃ q, (m.path.flatten.map (jamField 2002)).foldlM jamSubfield
        { (jamHeadRead num m (some b)).withText f1 i1 p1 tx1 with mm := { ((jamHeadRead num m (some b)).withText f1 i1 p1 tx1).mm with seenBy := sn } } =
        .ok { (jamHeadRead num m (some b)).withText f1 i1 p1 tx1 with mm := { ((jamHeadRead num m (some b)).withText f1 i1 p1 tx1).mm with seenBy := sn, path := q } } ∧
          q.flatten = m.path.flatten := by
      by_cases hm : m.area = []
      · have hp := (h.netmail (hnet.1 hm)).2.2
        refine ⟨[], ?_, by rw [hp]⟩
        rw [hp]; rfl
      · obtain ⟨q, q1, q2⟩ := jamPath_ok m.path.flatten { (jamHeadRead num m (some b)).withText f1 i1 p1 tx1 with mm := { ((jamHeadRead num m (some b)).withText f1 i1 p1 tx1).mm with seenBy := sn } } hm h.path
        exact ⟨q, q1, q2⟩
    obtain ⟨q, r4, q4⟩ := r4
    generalize hx : ({ (jamHeadRead num m (some b)).withText f1 i1 p1 tx1 with mm := { ((jamHeadRead num m (some b)).withText f1 i1 p1 tx1).mm with seenBy := sn, path := q } } : JamReading) = x at r4
    have hread : (jamHeadFields m ++ fs ++ sb ++ m.path.flatten.map (jamField 2002)).foldlM jamSubfield { mm := { msgnum := num, area := m.area } } = .ok x := by
      simp only [foldlM_append, r1, hrd, r2, r3, bind, Except.bind]
      exact r4
    obtain ⟨old, r5⟩ := jamHeadOut_ok (r := r) (h := hd') (m := m) (x := x) (t := t) ha (hc'.trans hcost) h.date (by
        rw [hdw', show ({ H with attr := jamAttrOf m } : JamHdr).dateWritten = _ from hdw, u32_ofInt t3 t4]; omega)
      (by rw [← hx]; rfl) (by rw [← hx]; rfl) (by rw [← hx]; rfl) h.head.subject.2 (by rw [← hx]; rfl)
    have xo : x.mm.orig = if m.area = [] then m.orig else m.origin4D := by rw [← hx]; rfl
    have xd : x.mm.dest = if m.area = [] then m.dest else ⟨0, 0, 0, 0⟩ := by rw [← hx]; rfl
    have xa : x.mm.area = m.area := by rw [← hx]; rfl
    have xt : TextOK x.mm.text := by rw [← hx]; exact k1
    have xf : x.mm.text.flatten = (controlsBack cs.flatten).flatten := by rw [← hx]; exact k2
    have hown : (jamNewLines o (decide (m.area = [])) rescan aka x.mm.orig x.mm.dest) = jamNewLines o (decide (m.area = [])) rescan aka m.orig m.dest := by
      by_cases hm : m.area = []
      · rw [xo, xd, if_pos hm, if_pos hm]
      · unfold jamNewLines; simp [hm]
    obtain ⟨f2, i2, p2, tx2, r6, k3, k4⟩ := lineQuiet_fold (area := m.area) (orig := x.mm.orig) (dest := x.mm.dest) (jamNewLines o (decide (m.area = [])) rescan aka x.mm.orig x.mm.dest)
      (newLines_quiet o _ rescan aka _ _ m.area (fun e => by simpa using e)) { x.mm with date := m.date, cost := m.cost, attr := m.attr &&& jamAttrs } xa rfl rfl xt
    obtain ⟨og, tx3, r7, k5⟩ := jamTextOut_ok (m := ({ x.mm with date := m.date, cost := m.cost, attr := m.attr &&& jamAttrs } : MemMsg).withText f2 i2 p2 tx2) (ls := bodyBack cs.flatten)
      (fun l hl => by
        have := hlines l ((List.mem_filter.1 hl).1)
        rw [← xa] at this
        exact this) (Nat.lt_of_le_of_lt hbody h.size) k3
    refine ⟨{ ({ x.mm with date := m.date, cost := m.cost, attr := m.attr &&& jamAttrs } : MemMsg).withText f2 i2 p2 tx2 with origin4D := og, text := tx3, flags := f2 ||| if rescan then MMFLAG_RESCANNED else MMFLAG_EXPORTED }, old, ?_, ?_⟩
    · unfold jamLoaded
      rw [harea, hread]
      simp only [bind, Except.bind]
      rw [r5]
      simp only [bind, Except.bind]
      rw [jamOwnLines_eq, ← (decide_eq_decide.2 hnet : decide (m.area = []) = decide (a.type = .netmail))]
      rw [r6]
      simp only
      rw [r7]
      rfl
    · constructor
      · show x.mm.msgnum = num; rw [← hx]; rfl
      · exact xa
      · show x.mm.frm = m.frm; rw [← hx]; rfl
      · show x.mm.to = m.to; rw [← hx]; rfl
      · show x.mm.subject = m.subject; rw [← hx]; rfl
      · rfl
      · rfl
      · rfl
      · intro hm
        exact ⟨by show x.mm.orig = _; rw [xo, if_pos hm], by show x.mm.dest = _; rw [xd, if_pos hm]⟩
      · intro hm
        show x.mm.orig = _; rw [xo, if_neg hm]
      · show x.mm.seenBy.flatten = _; rw [← hx]; exact s3
      · show x.mm.path.flatten = _; rw [← hx]; exact q4
      · show tx3.flatten = _
        rw [k5]
        show tx2.flatten ++ _ = _
        rw [k4, ← hown, ← xf]

/-- C78. A message is put into an area: it is the last message there, and all others are as before. -/
theorem jam_import (o : JamOpt) {r : JamRun} {i : Nat} {m : MemMsg} {w : JamW} {start : UInt32} {x : JamRec} {c k : Nat} {ms : List (Option JamMsg)} (hl : ∀ t, r.lock t = true)
    (h : JamAt i start x c (k + 1) ms w) {hd : JamHdr} {subs : List JamSub} {text : Data} (hst : jamStored o r w.tick m = .ok (hd, subs, text)) (hi : CanIndex r.e subs)
    (h1 : 76 + subBytes subs ≤ c) (h2 : text.length ≤ c) (h3 : c < 2 ^ 31) :
    ∃ w' jm, jamImport o r i m w = .ok (true, w') ∧ AddedMsg start ms.length hd subs text jm ∧ JamAt i start x c k (ms ++ [some jm]) w' ∧ (w'.recOf i).newmsg = true ∧ Beside i w w' := by
  have hg := jamGetArea_at (r := r) h
  obtain ⟨b, y, a1, a2, a3, a4, a5⟩ := h
  obtain ⟨s1, s2, s3⟩ := a3
  have hmul : (k + 1) * c = k * c + c := Nat.succ_mul k c
  have hlk := jamLockW_ok hl (w := (w.setRec i { w.recOf i with newmsg := true }).step) (i := i) (b := b) a1
  obtain ⟨w1, l1, l2, l3⟩ := hlk
  obtain ⟨b', jm, j1, j2, j3, j4, j5, j6⟩ := jam_add r.e (a2.relock true) rfl hd subs text hi (by omega) (by show b.hdr.length + _ + _ < _; omega) (by show b.txt.length + _ < _; omega) (by omega)
  obtain ⟨u1, u2⟩ := jamUnlockW_ok (w := w1.setBase i b') (i := i) (setBase_self i w1 b')
  have hsame : SameW i (w.setRec i { w.recOf i with newmsg := true }).step (jamUnlockW (w1.setBase i b') i) := (l3.trans (setBase_same i w1 b')).trans u2
  have hrec : (jamUnlockW (w1.setBase i b') i).recs i = some { w.recOf i with newmsg := true } := by
    rw [hsame.recs]
    show (if i = i then _ else _) = _
    rw [if_pos rfl]
  have hy : w.recOf i = y := by rw [JamW.recOf, a4]; rfl
  refine ⟨jamUnlockW (w1.setBase i b') i, jm, ?_, j2, ⟨_, _, u1, j3.relock false, ⟨?_, ?_, ?_⟩, hrec, ?_⟩, ?_, ?_⟩
  · unfold jamImport
    simp only [hg, Bool.not_true, Bool.false_eq_true, if_false]
    rw [show (w.setRec i { w.recOf i with newmsg := true }).tick = w.tick from rfl, hst]
    show (match jamLockW r (w.setRec i { w.recOf i with newmsg := true }).step i with | _ => _) = _
    rw [l1]
    simp only [Bool.not_true, Bool.false_eq_true, if_false, l2]
    show (liftJ (jamAdd r.e _ hd subs text) >>= _) = _
    rw [j1]
    rfl
  · show b'.hdr.length + _ < _; rw [j5]; show b.hdr.length + _ + _ + _ < _; omega
  · show b'.txt.length + _ < _; rw [j6]; show b.txt.length + _ + _ < _; omega
  · rw [List.length_append]; show ms.length + 1 + _ < _; omega
  · rw [hy]; exact a5
  · rw [JamW.recOf, hrec]; rfl
  · refine ⟨fun j hj => (hsame.base j hj).trans rfl, fun j hj => ?_, hsame.hw.trans rfl⟩
    rw [hsame.recs]
    show (if j = i then _ else _) = _
    rw [if_neg hj]

/-- C78. A message that fits is put into an area, and whenever it is read there it is as it was. -/
theorem jam_roundtrip (o : JamOpt) {r : JamRun} {i : Nat} {a : Area} {m : MemMsg} {cs : List (List Str)} {t : Int} {w : JamW} {start : UInt32} {x : JamRec} {c k : Nat} {ms : List (Option JamMsg)}
    (hsc : r.e.signedChar = false) (hl : ∀ t, r.lock t = true) (h : JamAt i start x c (k + 1) ms w) (hf : JamFits r a m cs t)
    (h1 : ∀ hd subs text, jamStored o r w.tick m = .ok (hd, subs, text) → 76 + subBytes subs ≤ c) (h2 : m.text.flatten.length ≤ c) (h3 : c < 2 ^ 31) :
    ∃ w' jm, jamImport o r i m w = .ok (true, w') ∧ JamAt i start x c k (ms ++ [some jm]) w' ∧
      ∀ (rescan : Bool) (aka : Node4D) (num : UInt32), ∃ m' old, jamLoaded o r a aka rescan num jm.hdr jm.subs jm.text = .ok (m', old) ∧ JamBack o rescan aka num m cs.flatten m' := by
  obtain ⟨hd, subs, text, e1, e2, e3, e4⟩ := jam_comes_back o w.tick hsc hf
  obtain ⟨w', jm, f1, f2, f3, -⟩ := jam_import o hl h e1 e2 (h1 _ _ _ e1) (Nat.le_trans e3 h2) h3
  refine ⟨w', jm, f1, f3, fun rescan aka num => ?_⟩
  have := e4 jm.hdr rescan aka num (by rw [f2.hdr]) (by rw [f2.hdr]) (by rw [f2.hdr])
  rw [f2.subs, f2.text]
  exact this

/-- Putting messages into the area that is being exported is a way of handling them that `jam_scan` allows. -/
theorem import_keeps (o : JamOpt) {r : JamRun} (i : Nat) (start : UInt32) (c : Nat) (hl : ∀ t, r.lock t = true) (hc : c < 2 ^ 31) :
    JamKeeps (fun _ _ => True) (fun m => ∀ tick, ∃ hd subs text, jamStored o r tick m = .ok (hd, subs, text) ∧ CanIndex r.e subs ∧ 76 + subBytes subs ≤ c ∧ text.length ≤ c) i start c
      (jamImport o r i) := by
  intro m w x ms k hm _ h
  obtain ⟨hd, subs, text, e1, e2, e3, e4⟩ := hm w.tick
  obtain ⟨w', jm, f1, f2, f3, f4, f5⟩ := jam_import o hl h e1 e2 e3 e4 hc
  exact ⟨true, w', [some jm], f1, trivial, f3, by rw [f5.hw]⟩

namespace Ex

def rkRun : JamRun := { jlRun with localtime := fun _ => ⟨40, 46, 1, 9, 8, 101⟩, mktime := fun _ => some 1000000000 }

def rkArea : Area := { tag := b!"NETMAIL", type := .netmail }

def rkLines : List Str := [1 :: b!"INTL 1:2/3 4:5/6\r", 1 :: b!"MSGID: 4:5/6 12345678\r", b!"Hello\r", 1 :: b!"Via 4:5/6\r"]

def rkMsg (attr : UInt16) (subject : Str) (text : List Str) : MemMsg :=
  { frm := b!"Joe", to := b!"Jim", subject, date := b!"09 Sep 01  01:46:40", orig := ⟨4, 5, 6, 0⟩, dest := ⟨1, 2, 3, 7⟩, attr, cost := 300, text }

theorem lineOk {echo : Prop} {t : Str} (h1 : 13 ∉ t) (h2 : 10 ∉ t) (h3 : NoNul t) (h4 : t.head? = some 1 → AddressLine t ∨ KeptLine echo t)
    (h5 : ¬ b!" * Origin: " <+: t ++ [13]) (h6 : t ≠ []) : JamLineOk echo (t ++ [13]) := by
  refine ⟨⟨t, rfl, h1, h2, h3⟩, fun h t' e => ?_, fun _ h => absurd h h5⟩
  have : t' = t := (List.append_cancel_right e).symm
  subst this
  apply h4
  cases t' with
  | nil => exact absurd rfl h6
  | cons c t => exact h

/-- A message with the attributes Private, Crash and Local fits. -/
theorem jam_fits : JamFits rkRun rkArea (rkMsg 259 b!"Hi there" [rkLines.flatten]) [rkLines] 1000000000 := by
  refine ⟨⟨by decide, by decide, by decide, fun h => absurd (by decide) h⟩, fun _ => ⟨rfl, rfl, rfl⟩, fun h => absurd rfl h, rfl, ?_, by decide, by decide, by simp [rkMsg, visible], by simp [rkMsg],
    by decide +kernel, rfl, ⟨by decide, by decide, by decide, by decide, by decide, by decide⟩, by decide, by decide⟩
  intro ls h1 l hl
  rw [List.mem_singleton] at h1
  subst h1
  simp only [rkLines, List.mem_cons, List.not_mem_nil, or_false] at hl
  rcases hl with rfl | rfl | rfl | rfl
  · exact lineOk (t := 1 :: b!"INTL 1:2/3 4:5/6") (by decide) (by decide) (by decide) (fun _ => .inl (by decide)) (by decide) (by decide)
  · exact lineOk (t := 1 :: b!"MSGID: 4:5/6 12345678") (by decide) (by decide) (by decide)
      (fun _ => .inr (.inl ⟨b!"MSGID:", b!"4:5/6 12345678", by decide, rfl, by decide, ⟨56, by decide, by decide, by decide⟩, by decide⟩)) (by decide) (by decide)
  · exact lineOk (t := b!"Hello") (by decide) (by decide) (by decide) (fun h => (by cases h)) (by decide) (by decide)
  · exact lineOk (t := 1 :: b!"Via 4:5/6") (by decide) (by decide) (by decide)
      (fun _ => .inr (.inr ⟨b!"Via 4:5/6", rfl, ⟨by decide, ⟨54, by decide, by decide, by decide⟩, by decide⟩, by decide, by decide⟩)) (by decide) (by decide)

/-- What comes back of a netmail message: sender's address, attributes, subject and text. -/
def rkBack (o : JamOpt) (m : MemMsg) : Option (Node4D × UInt16 × Str × Str) :=
  (jamStored o rkRun 0 m).toOption.bind fun x => (jamLoaded o rkRun rkArea ⟨1, 2, 3, 0⟩ false 1 x.1 x.2.1 x.2.2).toOption.map fun y => (y.1.orig, y.1.attr, y.1.subject, y.1.text.flatten)

/-- The same message: Local is not kept, INTL and TOPT are written anew, and Via stands before the text. -/
theorem jam_back_example : rkBack {} (rkMsg 259 b!"Hi there" [rkLines.flatten]) =
    some (⟨4, 5, 6, 0⟩, 3, b!"Hi there", 1 :: b!"MSGID: 4:5/6 12345678\r" ++ 1 :: b!"Via 4:5/6\r" ++ 1 :: b!"INTL 1:2/3 4:5/6\r" ++ 1 :: b!"TOPT 7\r" ++ b!"Hello\r") := by decide +kernel

/-- Of two attached files only the first is still named. -/
theorem second_file_lost : (rkBack {} (rkMsg 16 b!"A.ZIP B.ZIP" [b!"Hello\r"])).map (fun x => (x.2.1, x.2.2.1)) = some (16, b!"A.ZIP") := by decide +kernel

/-- The FLAGS line is lost; instead of it the address of the receiver, the last string that was read, is put into the text. -/
theorem flags_lost : rkBack {} (rkMsg 0 b!"Hi" [1 :: b!"FLAGS: DIR XYZ\rHello\r"]) =
    some (⟨4, 5, 6, 0⟩, 0, b!"Hi", b!"1:2/3.7" ++ 1 :: b!"INTL 1:2/3 4:5/6\r" ++ 1 :: b!"TOPT 7\r" ++ b!"Hello\r") := by decide +kernel

/-- A message can make the program write or read outside its buffers: with a control line at the end that has no argument and no CR, with a long FLAGS line,
and with a FLAGS line that has only known flags. -/
theorem jam_store_undefined : jamStored {} rkRun 0 (rkMsg 0 b!"Hi" [b!"Hello\r" ++ 1 :: b!"PID:"]) = .error .oobWrite ∧
    jamStored {} rkRun 0 (rkMsg 0 b!"Hi" [1 :: b!"FLAGS:" ++ (List.replicate 9 b!"ABCDEFGHI ").flatten ++ b!"ABCDEFGHI\r"]) = .error .oobWrite ∧
    jamStored {} rkRun 0 (rkMsg 0 b!"Hi" [1 :: b!"FLAGS: PVT\r"]) = .error .oobRead := by
  refine ⟨?_, ?_, ?_⟩ <;> decide +kernel

/-- A control line is cut after 99 characters; one at the end without CR loses its last character. -/
theorem control_cut : (rkBack {} (rkMsg 0 b!"Hi" [1 :: List.replicate 120 65 ++ b!"\rHello\r"])).map (fun x => x.2.2.2.take 103) = some (1 :: List.replicate 99 65 ++ b!"\r" ++ 1 :: b!"I") ∧
    (rkBack {} (rkMsg 0 b!"Hi" [b!"Hello\r" ++ 1 :: b!"Via 4:5/6"])).map (fun x => x.2.2.2.take 10) = some (1 :: b!"Via 4:5/\r") := by
  constructor <;> decide +kernel

end Ex

end CM
