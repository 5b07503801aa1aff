import Verif.Lemmas.Reply
import Verif.Lemmas.AreaList
import Verif.Props.Areafix
/-!
# Replies and lists of AreaFix

C28, C29.
-/

set_option linter.unusedSimpArgs false
namespace CM

/-! ## C28 -/

/-- The lines a reply shows so far, counted as the program counts them. -/
def Counted (max : UInt32) (r : AfReply) (n : Nat) (ls : List Str) : Prop :=
  5 ≤ max.toNat → r.lines.toNat = (contFrom n ++ ls).length ∧ r.lines.toNat ≤ max.toNat - 2

theorem sub_two_toNat {m : UInt32} (h : 5 ≤ m.toNat) : (m - 2).toNat = m.toNat - 2 := by
  rw [UInt32.toNat_sub_of_le]
  · rfl
  · rw [UInt32.le_iff_toNat_le]; exact Nat.le_trans (by decide) h

theorem reply_parts {env : Env} {self : MemMsg → M Unit} (hs : Tame self) {r r' : AfReply} {n : Nat} {done ls : List Str}
    {s u t : HSt} (hr : Reading r n done) (hc : Counted s.cfg.areafixMaxLines r n done)
    (h1 : afAddLines env self r ls s = .ok r' u) (h2 : afSend self r' u = .ok () t) :
    ∃ ms, Sends self s ms t ∧ InParts (lineBound s.cfg.areafixMaxLines) r.subject n ms (done ++ ls) ∧
      ∃ m, ms.head? = some m ∧ Kin ls r.mm m := by
  induction ls generalizing r n done s with
  | nil =>
    cases h1
    refine ⟨_, afSend_sends h2, ?_, _, rfl, ⟨rfl, rfl, rfl, fun _ => ⟨rfl, rfl⟩⟩⟩
    rw [List.append_nil]
    refine .last (title_eq hr.part) (by rw [show contIn true = [] from rfl, List.append_nil]; exact hr.shows) fun k hk => ?_
    unfold lineBound at hk
    split at hk
    · rename_i h5
      obtain ⟨c1, c2⟩ := hc h5
      cases hk
      simp only [contIn, if_true, List.append_nil]
      omega
    · cases hk
  | cons l ls ih =>
    rw [afAddLines, bind_ok] at h1
    obtain ⟨r1, v, h1, h3⟩ := h1
    obtain ⟨hcfg, hsub, hcase⟩ := afAddLine_reading hs hr h1
    rcases hcase with ⟨hn, rfl, hr1, hl1, hkin⟩ | ⟨hy, m, hsend, hshow, htitle, hr1, hl1, hkin⟩
    · have hc1 : Counted v.cfg.areafixMaxLines r1 n (done ++ [l]) := by
        intro h5
        obtain ⟨c1, c2⟩ := hc h5
        have hlt : r.lines.toNat < v.cfg.areafixMaxLines.toNat - 2 := by
          rw [← sub_two_toNat h5]
          refine Nat.lt_of_not_le fun hle => hn ⟨UInt32.le_iff_toNat_le.2 hle, fun e => ?_⟩
          rw [e] at h5; exact absurd h5 (by decide)
        have hb := v.cfg.areafixMaxLines.toNat_lt
        have e : r1.lines.toNat = r.lines.toNat + 1 := by
          rw [hl1, UInt32.toNat_add]
          exact Nat.mod_eq_of_lt (by simp; omega)
        rw [e]
        refine ⟨by rw [c1]; simp only [List.length_append, List.length_singleton]; omega, by omega⟩
      obtain ⟨ms, k1, k2, m, k3, k4⟩ := ih hr1 hc1 h3
      rw [hsub] at k2
      exact ⟨ms, k1, by simpa using k2, m, k3, hkin.trans k4⟩
    · have hc1 : Counted v.cfg.areafixMaxLines r1 (n + 1) [l] := by
        intro h5
        rw [hl1]
        unfold contFrom
        rw [if_neg (by have := hr.pos; omega)]
        exact ⟨rfl, by rw [show (3 : UInt32).toNat = 3 from rfl]; omega⟩
      obtain ⟨ms, k1, k2, -⟩ := ih hr1 hc1 h3
      rw [hsub, hcfg] at k2
      refine ⟨m :: ms, hsend.append k1, .more htitle hshow (fun k hk => ?_) k2, m, rfl, hkin.weak (by simp)⟩
      unfold lineBound at hk
      split at hk
      · rename_i h5
        obtain ⟨c1, c2⟩ := hc h5
        cases hk
        simp only [contIn, Bool.false_eq_true, if_false, List.length_append, List.length_cons, List.length_nil] at c1 ⊢
        omega
      · cases hk

theorem Kin.addressed {a m : MemMsg} {orig dest : Node4D} {frm to : Str} {ls : List Str} {ms : List MemMsg} (h : Kin ls a m)
    (i1 : a.orig = orig) (i2 : a.dest = dest) (i3 : a.frm = frm) (i4 : a.to = to) (i5 : a.attr = FLAG_PVT)
    (hm : ms.head? = some m) : Addressed orig dest frm to ls ms :=
  ⟨m, hm, h.frm.trans i3, h.to.trans i4, h.attr.trans i5, fun hl => ⟨(h.addr hl).1.trans i1, (h.addr hl).2.trans i2⟩⟩

/-- C28. A reply made of any lines: whatever the message handler does with the messages, all lines
are sent, in order, in numbered parts, and no part is longer than the configured maximum if that is at
least 5 (a line of the reply that contains line ends of its own counts once). The first part is private and from
and to whom it should be; nothing is said here about the address of the others. -/
theorem reply_complete_partial (env : Env) (af : (MemMsg → M Unit) → MemMsg → M Unit) (n : Nat) (frm to : Node4D)
    (toname subject : Str) (ls : List Str) (s t : HSt)
    (h : (do
      let r ← afInit env frm toname to subject
      let r ← afAddLines env (handleMessage env af n) r ls
      afSend (handleMessage env af n) r) s = .ok () t) :
    ∃ ms, Sends (handleMessage env af n) s ms t ∧ InParts (lineBound s.cfg.areafixMaxLines) subject 1 ms ls ∧
      Addressed frm to s.cfg.sysop toname ls ms := by
  rw [bind_ok] at h
  obtain ⟨r, u, h1, h⟩ := h
  rw [bind_ok] at h
  obtain ⟨r2, v, h2, h⟩ := h
  obtain ⟨hr, hl, hsub, rfl, i1, i2, i3, i4, i5⟩ := afInit_reading h1
  obtain ⟨ms, k1, k2, m, k3, k4⟩ := reply_parts (handleMessage_tame env af n) hr (fun h5 => by rw [hl]; exact ⟨rfl, Nat.zero_le _⟩) h2 h
  rw [hsub] at k2
  exact ⟨ms, k1, k2, k4.addressed i1 i2 i3 i4 i5 k3⟩

theorem afAddLines_append (env : Env) (self : MemMsg → M Unit) (r : AfReply) (a b : List Str) :
    afAddLines env self r (a ++ b) = afAddLines env self r a >>= fun r => afAddLines env self r b := by
  induction a generalizing r with
  | nil => rfl
  | cons l a ih =>
    simp only [List.cons_append, afAddLines, ih]
    funext s
    simp only [bind_run]
    cases afAddLine env self r l s <;> rfl

theorem shortU_small {n : Nat} (h : n < 32768) : shortU n = dec n := by
  unfold shortU
  rw [Nat.mod_eq_of_lt (by omega), if_pos h]

/-! ## C29 -/

/-- C29. A list of areas: the messages sent show a table of exactly the areas the node may see in this
list (and, where configured, those it may order from elsewhere), sorted by group and tag; the first of them is from and to whom it should be. -/
theorem areaList_exact (env : Env) (af : (MemMsg → M Unit) → MemMsg → M Unit) (n : Nat) (type : ListType) (from4 : Node4D)
    (toname : Str) (ci : Nat) (s t : HSt) (h : sendList env (handleMessage env af n) type from4 toname ci s = .ok () t) :
    ∃ cn es ms table foot log, s.cfg.nodes[ci]? = some cn ∧ IsList env log s.cfg type ci cn es ∧
      Table s.cfg type none es table ∧ (es.length < 32768 → foot = footer type es) ∧
      Sends (handleMessage env af n) s ms t ∧
      InParts (lineBound s.cfg.areafixMaxLines) b!"AreaFix list of areas" 1 ms ([listTitle type from4, []] ++ table ++ foot) ∧
      Addressed from4 cn.node s.cfg.sysop toname ([listTitle type from4, []] ++ table ++ foot) ms := by
  unfold sendList at h
  rw [get_bind] at h
  cases hn : s.cfg.nodes[ci]? with
  | none => rw [hn] at h; cases h
  | some cn =>
    rw [hn] at h
    dsimp only at h
    rw [bind_ok] at h
    obtain ⟨r, u, h1, h⟩ := h
    rw [bind_ok] at h
    obtain ⟨r1, v, h2, h⟩ := h
    rw [bind_ok] at h
    obtain ⟨es, w, h3, h⟩ := h
    rw [bind_ok] at h
    obtain ⟨body, x, h4, h⟩ := h
    rw [bind_ok] at h
    obtain ⟨r2, y, h5, h⟩ := h
    obtain ⟨hr, hl, hsub, rfl, i1, i2, i3, i4, i5⟩ := afInit_reading h1
    rw [lift_ok] at h4
    obtain ⟨h4, rfl⟩ := h4
    obtain ⟨rfl, hes⟩ := listEntries_ok h3
    have hcfg := ((afAddLines_cfg (handleMessage_tame env af n) env hr.gen _) _).1 _ _ h2
    rw [show w.cfg = u.cfg from hcfg] at hes
    have h6 : afAddLines env (handleMessage env af n) r ([listHead type from4, []] ++ (body ++ listFoot type es)) u = .ok r2 y := by
      rw [afAddLines_append, bind_ok]
      exact ⟨r1, w, h2, h5⟩
    obtain ⟨ms, k1, k2, m, k3, k4⟩ :=
      reply_parts (handleMessage_tame env af n) hr (fun h5 => by rw [hl]; exact ⟨rfl, Nat.zero_le _⟩) h6 h
    rw [hsub, List.nil_append, ← List.append_assoc] at k2
    rw [← List.append_assoc] at k4
    have ht : listHead type from4 = listTitle type from4 := by cases type <;> simp [listHead, listTitle]
    rw [ht] at k2 k4
    refine ⟨cn, es, ms, body, listFoot type es, w.log, rfl, hes, listBody_table h4, ?_, k1, k2, k4.addressed i1 i2 i3 i4 i5 k3⟩
    intro hlt
    have e1 : shortU es.length = dec es.length := shortU_small hlt
    have e2 : shortU (es.filter (·.attached)).length = dec (es.countP (·.attached)) := by
      rw [shortU_small (Nat.lt_of_le_of_lt (List.length_filter_le _ _) hlt), List.countP_eq_length_filter]
    cases type <;> simp only [listFoot, footer, e1, e2]

/-! ## Concrete cases -/

namespace Ex

/-- The subject and the number of lines of a netmail, without control lines. -/
def sized (e : Effect) : Option (Str × Nat) :=
  match e with
  | .netmail _ _ m => some (m.subject, m.text.flatten.count 13 - m.text.flatten.count 1)
  | _ => none

def sizes (x : Out Unit) : List (Str × Nat) :=
  match x with
  | .ok _ t => t.log.filterMap sized
  | _ => []

/-- A limit for the system of the examples. -/
def limited (max : UInt32) : HSt := st { afCfg 0 afAreasEx with areafixMaxLines := max }

/-- The message handler of the examples. -/
def handler : MemMsg → M Unit := handleMessage afEnv (areaFix afEnv) 3

/-- A reply of some lines. -/
def simpleReply (ls : List Str) : M Unit := do
  let r ← afInit afEnv ⟨1, 2, 3, 0⟩ b!"A" ⟨1, 2, 4, 0⟩ b!"AreaFix response"
  let r ← afAddLines afEnv handler r ls
  afSend handler r

/-- A reply in four parts of at most six lines; the hypothesis of `reply_complete_partial` is met. -/
example : (sizes (simpleReply (List.replicate 9 b!"x") (limited 6))).map (·.2) = [6, 6, 6, 3] ∧
    (sizes (simpleReply (List.replicate 9 b!"x") (limited 6))).map (·.1) =
      [b!"AreaFix response", b!"AreaFix response (part 2)", b!"AreaFix response (part 3)", b!"AreaFix response (part 4)"] := by
  decide +kernel

/-- C28 is violated for limits below 5: a limit of 1 is no limit, and parts are longer than limits of
2 to 4 lines; for 2, the first part is empty but for the note that there is another one. -/
theorem small_limits :
    (sizes (simpleReply (List.replicate 9 b!"x") (limited 1))).map (·.2) = [9] ∧
    (sizes (simpleReply (List.replicate 9 b!"x") (limited 2))).map (·.2) = [2, 5, 5, 5, 5, 5, 5, 5, 5, 3] ∧
    (sizes (simpleReply (List.replicate 9 b!"x") (limited 3))).map (·.2) = [3, 5, 5, 5, 5, 5, 5, 5, 3] ∧
    (sizes (simpleReply (List.replicate 9 b!"x") (limited 4))).map (·.2) = [4, 5, 5, 5, 5, 5, 5, 3] := by decide +kernel

/-- C28 is violated by lists: the first line of the footer has a line end of its own. -/
theorem list_exceeds_limit :
    (sizes (sendList afEnv handler .full ⟨1, 2, 3, 0⟩ b!"A" 0 (limited 12))).map (·.2) = [12, 13, 3] := by decide +kernel

/-- A list, sent in two parts: the hypothesis of `areaList_exact` is met. -/
example : (sizes (sendList afEnv handler .full ⟨1, 2, 3, 0⟩ b!"A" 0 (limited 13))).map (·.2) = [13, 11] := by decide +kernel

/-- The areas listed for the node of the examples. -/
example : (afAreasEx.filter fun a => Listed .full 0 (afCfg 0 []).nodes[0] a).map (·.tag) =
      [b!"ALPHA", b!"BETA", b!"MAND", b!"BAN", b!"GONE"] ∧
    (afAreasEx.filter fun a => Listed .unlinked 0 (afCfg 0 []).nodes[0] a).map (·.tag) = [b!"ALPHA", b!"BETA", b!"BAN"] ∧
    (afAreasEx.filter fun a => Listed .query 0 (afCfg 0 []).nodes[0] a).map (·.tag) = [b!"MAND", b!"GONE"] := by
  decide +kernel

end Ex

end CM
