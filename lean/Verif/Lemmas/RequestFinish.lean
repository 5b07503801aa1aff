import Verif.Lemmas.NewArea
import Verif.Lemmas.RequestLine
import Verif.Props.Node4D
/-! # Requests: the end of a line that names areas, and the whole line -/

set_option linter.unusedSimpArgs false
namespace CM

theorem trimEnd_eq (s : Str) : trimEnd s = cutEnd s := by
  unfold trimEnd cutEnd
  congr 2
  funext c
  rw [Bool.eq_iff_iff, decide_eq_true_iff]
  simp [below33, Blank]

theorem dropWhile_split {s : Str} (h : 44 ∈ s) :
    ∃ n o, s = n ++ 44 :: o ∧ 44 ∉ o ∧ ((s.reverse.dropWhile (· != 44)).drop 1).reverse = n ∧
      (s.reverse.takeWhile (· != 44)).reverse = o := by
  obtain ⟨p, q, e, hp⟩ : ∃ p q : Str, s.reverse = p ++ 44 :: q ∧ 44 ∉ p := by
    have : 44 ∈ s.reverse := by simpa using h
    exact List.eq_append_cons_of_mem this
  have hall : ∀ x ∈ p, (x != 44) = true := by
    intro x hx
    simp only [bne_iff_ne, ne_eq]
    intro e; subst e; exact hp hx
  refine ⟨q.reverse, p.reverse, ?_, by simpa using hp, ?_, ?_⟩
  · rw [← List.reverse_reverse s, e]; simp
  · rw [e, List.dropWhile_append_of_pos hall]; simp
  · rw [e, List.takeWhile_append_of_pos hall]; simp

theorem optPart_of (buf : Str) : OptPart buf (splitOpt buf).1 (trimEnd (splitOpt buf).2) := by
  unfold splitOpt
  by_cases h : buf.contains 44 = true
  · rw [if_pos h]
    obtain ⟨n, o, e, h1, h2, h3⟩ := dropWhile_split (s := buf) (by simpa using h)
    dsimp only
    rw [h2, h3, trimEnd_eq]
    conv => arg 1; rw [e]
    exact .some h1
  · rw [if_neg h]
    exact .none (by simpa using h)

theorem asksFor_of (buf : Str) : ∃ w : Wish, (splitCmd (trimEnd (splitOpt buf).1)).1 = w.cmd ∧
    AsksFor buf w (splitCmd (trimEnd (splitOpt buf).1)).2 (trimEnd (splitOpt buf).2) := by
  have ho := optPart_of buf
  have e := trimEnd_eq (splitOpt buf).1
  generalize (splitOpt buf).1 = n at ho e ⊢
  unfold splitCmd
  split
  · next r h => exact ⟨.leave, rfl, n, ho, by rw [← e, h]⟩
  · next r h => exact ⟨.again, rfl, n, ho, by rw [← e, h]⟩
  · next r h => exact ⟨.join, rfl, n, ho, .inl (by rw [← e, h])⟩
  · next h1 h2 h3 =>
    refine ⟨.join, rfl, n, ho, .inr ⟨e.symm, ?_, ?_, ?_⟩⟩ <;> intro hh <;> cases hx : trimEnd n with
      | nil => rw [hx] at hh; cases hh
      | cons x xs =>
        rw [hx] at hh
        injection hh with hh
        subst hh
        first
          | exact h1 _ hx
          | exact h2 _ hx
          | exact h3 _ hx

theorem addTossNode_has (ts : List TossNode) (k : Nat) (f : UInt16) : ∃ t ∈ addTossNode ts k f, t.node = k := by
  unfold addTossNode
  split
  · next h =>
    obtain ⟨t, h1, h2⟩ := List.any_eq_true.1 h
    exact ⟨t, h1, by simpa using h2⟩
  · exact ⟨⟨k, f⟩, by simp, rfl⟩

theorem addTossNode_keeps {ts : List TossNode} {t : TossNode} (h : t ∈ ts) (k : Nat) (f : UInt16) : t ∈ addTossNode ts k f := by
  unfold addTossNode
  split
  · exact h
  · exact List.mem_append_left _ h

theorem addGroupLinks_keeps {group : UInt8} {ro : Bool} {ts ts' : List TossNode} {i : Nat} {ns : List ConfigNode} {s t : HSt}
    (h : addGroupLinks group ro ts i ns s = .ok ts' t) {x : TossNode} (hx : x ∈ ts) : x ∈ ts' := by
  induction ns generalizing ts i s with
  | nil => cases h; exact hx
  | cons n ns ih =>
    unfold addGroupLinks at h
    rw [bind_ok] at h
    obtain ⟨b, u, h1, h⟩ := h
    split at h
    · rw [bind_ok] at h
      obtain ⟨b2, v, h2, h⟩ := h
      exact ih h (addTossNode_keeps hx _ _)
    · exact ih h hx

theorem addArea_uplink {env : Env} {name : Str} {node mynode : Node4D} {active passthru : Bool} {s t : HSt} {i : Nat}
    (h : addArea env name node mynode active passthru s = .ok i t) (hn : ∃ n ∈ s.cfg.nodes, n.node = node) :
    ∃ (k : Nat) (n : ConfigNode) (a : Area), s.cfg.nodes[k]? = some n ∧ compare4D n.node node = 0 ∧
      t.cfg.areas = s.cfg.areas ++ [a] ∧ IsLinked k a := by
  unfold addArea at h
  rw [get_bind] at h
  dsimp only at h
  rw [bind_ok] at h
  obtain ⟨d, s1, h1, h⟩ := h
  rw [bind_ok] at h
  obtain ⟨a, s2, h2, h⟩ := h
  rw [set_bind, pure_run] at h
  injection h with hi ht
  cases hci : s.cfg.nodes.findIdx? (fun n => compare4D n.node node == 0) with
  | none =>
    obtain ⟨n, hn, e⟩ := hn
    have := List.findIdx?_eq_none_iff.1 hci n hn
    rw [e] at this
    have e0 : compare4D node node = 0 := (compare4D_eq_zero_iff _ _).2 ⟨rfl, rfl, rfl, .inl rfl⟩
    rw [e0] at this
    exact absurd this (by decide)
  | some k =>
    rw [hci] at h2
    obtain ⟨hk, hk2, -⟩ := List.findIdx?_eq_some_iff_getElem.1 hci
    simp only [linkArea, List.getElem?_eq_getElem hk] at h2
    rw [bind_ok] at h2
    obtain ⟨ts, u, h3, h2⟩ := h2
    cases h2
    refine ⟨k, _, _, List.getElem?_eq_getElem hk, by simpa using hk2, by rw [← ht], ?_⟩
    obtain ⟨x, hx, hxn⟩ := addTossNode_has (newArea env s name (areaAka s.cfg mynode) (some k) active passthru d).tossNodes k
      TOSSNODE_FEED
    exact ⟨x, addGroupLinks_keeps h3 hx, hxn⟩

theorem midway_skip {c : Config} {ci : Nat} {cn : ConfigNode} {w : Wish} {pat : Str}
    (h : ∀ a ∈ c.areas, ¬ (a.type = .echomail ∧ TagFits pat a.tag)) (i : Nat) : midway c ci cn w pat i = c := by
  have hv : ∀ a ∈ c.areas, verdict c ci cn w pat a = .skip := fun a ha => by unfold verdict; rw [if_pos (h a ha)]
  have h1 : (c.areas.take i).map (fun a => (verdict c ci cn w pat a).mid ci a) = c.areas.take i := by
    rw [List.map_congr_left (g := id) fun a ha => by rw [hv a (List.mem_of_mem_take ha)]; rfl, List.map_id]
  have h2 : ((c.areas.take i).flatMap fun a => (verdict c ci cn w pat a).tells ci a) = [] := by
    rw [List.flatMap_eq_nil_iff]
    intro a ha
    rw [hv a (List.mem_of_mem_take ha)]
    rfl
  have h3 : ((c.areas.take i).any fun a => (verdict c ci cn w pat a).acts) = false := by
    rw [List.any_eq_false]
    intro a ha
    rw [hv a (List.mem_of_mem_take ha)]
    decide
  unfold midway
  rw [h1, h2, h3, List.take_append_drop, Bool.or_false]
  rfl

theorem findForward_run {env : Env} {name groups : Str} {als : List Arealist} {s t : HSt} {o : Option Arealist}
    (h : findForward env name groups als s = .ok o t) : t = s ∧
      o = als.find? fun al : Arealist => decide (al.flags &&& 2 ≠ 0) && decide (al.group ∈ groups) &&
        match env.areaFile s.log al.file with
        | some lines => lines.any fun l => eqi (tagWord l) name
        | none => false := by
  induction als with
  | nil => cases h; exact ⟨rfl, rfl⟩
  | cons al als ih =>
    unfold findForward at h
    rw [get_bind, bind_ok] at h
    obtain ⟨b, u, h1, h⟩ := h
    have hb : u = s ∧ b = (decide (al.flags &&& 2 ≠ 0) && decide (al.group ∈ groups)) := by
      split at h1
      · next hf =>
        obtain ⟨k1, rfl⟩ := matchFlags_ok h1
        refine ⟨rfl, ?_⟩
        have hf' : al.flags &&& 2 ≠ 0 := by simpa [AREALIST_FORWARD] using hf
        rw [Bool.eq_iff_iff, k1]
        simp [hf']
      · next hf =>
        cases h1
        have hf' : al.flags &&& 2 = 0 := by simpa [AREALIST_FORWARD] using hf
        exact ⟨rfl, by simp [hf']⟩
    obtain ⟨rfl, rfl⟩ := hb
    have he : (((env.areaFile u.log al.file).getD []).any fun l => eqi (fileTag l) name) =
        match env.areaFile u.log al.file with
        | some lines => lines.any fun l => eqi (tagWord l) name
        | none => false := by
      cases env.areaFile u.log al.file with
      | none => rfl
      | some ls => simp only [Option.getD_some, fileTag_eq]
    rw [he] at h
    rw [List.find?_cons]
    generalize hc : (decide (al.flags &&& 2 ≠ 0) && decide (al.group ∈ groups) &&
        match env.areaFile u.log al.file with
        | some lines => lines.any fun l => eqi (tagWord l) name
        | none => false) = b at h ⊢
    cases b with
    | true => cases h; exact ⟨rfl, rfl⟩
    | false => exact ih h

section
variable {self : MemMsg → M Unit} (hs : Settled self) {env : Env}
include hs

theorem afForward_run {ci : Nat} {cn : ConfigNode} {mynode : Node4D} {line tag : Str} {al : Arealist} {r r' : AfReply} {s t : HSt}
    {log : List Effect} (g : r.Gen) (hq : cn.has NODE_FORWARDREQ = true) (hal : OrderedFrom env log s.cfg cn tag = some al)
    (h : afForward env self ci cn mynode line tag al r s = .ok r' t) :
    ∃ ls, Unfound env mynode s.cfg ci cn line tag t.cfg ls ∧ Replied env self r s ls r' t ∧
      ∃ a, t.cfg.areas = s.cfg.areas ++ [a] ∧ a.type = .echomail := by
  unfold afForward at h
  rw [get_bind] at h
  cases hup : s.cfg.nodes[al.node]? with
  | none => rw [hup] at h; cases h
  | some up =>
    rw [hup] at h
    dsimp only at h
    rw [bind_ok] at h
    obtain ⟨r1, u, h1, h⟩ := h
    obtain ⟨c1, c2⟩ := told_answer hs g h1
    rw [bind_ok] at h
    obtain ⟨_, u2, h2, h⟩ := h
    unfold remoteAdd remoteCmd at h2
    rw [get_bind, set_run] at h2
    injection h2 with _ h2
    by_cases hlen : 80 ≤ tag.length
    · rw [if_pos hlen] at h; cases h
    rw [if_neg hlen, bind_ok] at h
    obtain ⟨j, u3, h3, h⟩ := h
    obtain ⟨e1, a, e2, e3, e4, e5, e6, e7, e8⟩ := addArea_new env h3
    obtain ⟨a0, hset, -, e9⟩ := addArea_setUp h3
    have ha0 : a0 = a := by
      rw [e8] at e9
      have e : u2.cfg.areas ++ [a] = u2.cfg.areas ++ [a0] := congrArg (fun x : HSt => x.cfg.areas) e9
      have := List.append_cancel_left e
      injection this with this _
      exact this.symm
    rw [ha0] at hset
    clear e9 ha0 a0
    have hup2 : u2.cfg.nodes[al.node]? = some { up with remoteAF := up.remoteAF ++ [orderLine up tag] } := by
      rw [← h2]
      dsimp only
      rw [List.getElem?_modify, c1, hup]
      simp only [if_true]
      rfl
    obtain ⟨k, n, a2, k1, k2, k3, k4⟩ := addArea_uplink h3 ⟨_, List.mem_of_getElem? hup2, rfl⟩
    have ha2 : a2 = a := by
      rw [e8] at k3
      have := List.append_cancel_left k3
      injection this with this _
      exact this.symm
    subst ha2
    rw [bind_ok] at h
    obtain ⟨_, u4, h4, h⟩ := h
    rw [modArea_run] at h4
    cases h4
    rw [bind_ok] at h
    obtain ⟨ro, u5, h5, h⟩ := h
    obtain ⟨hro, rfl⟩ := matchFlags_ok h5
    rw [bind_ok] at h
    obtain ⟨_, u6, h6, h⟩ := h
    rw [modArea_run] at h6
    cases h6
    cases h
    subst e8
    subst e1
    dsimp only
    rw [modify_at _ _ _ _ rfl, modify_at _ _ _ _ rfl]
    subst h2
    dsimp only at k1 ⊢
    rw [c1] at k1 ⊢
    have hset := hset.unqueue
    rw [c1] at hset
    have hnodes : (s.cfg.nodes.modify al.node fun n => { n with
        remoteAF := n.remoteAF ++ [(if n.has NODE_AFNEEDSPLUS = true then b!"+" ++ tag.take 78 else tag.take 78).take 70] }) =
        enqueue s.cfg.nodes [(al.node, orderLine up tag)] := by
      unfold enqueue
      rw [List.foldl_cons, List.foldl_nil]
      exact modify_congr hup _ _ rfl
    obtain ⟨k', n', q1, q2⟩ : ∃ k' n', s.cfg.nodes[k']? = some n' ∧ (compare4D n'.node up.node = 0 ∧ k' = k) := by
      rw [List.getElem?_modify] at k1
      cases hx : s.cfg.nodes[k]? with
      | none => rw [hx] at k1; cases k1
      | some n' =>
        rw [hx] at k1
        refine ⟨k, n', hx, ?_, rfl⟩
        injection k1 with k1
        have : n.node = n'.node := by rw [← k1]; split <;> rfl
        rw [← this]; exact k2
    refine ⟨answer line (b!"Request sent to " ++ addr4 up.node), ?_, ?_, _, rfl, e3⟩
    · have U := Unfound.ordered (env := env) (c := s.cfg) (ci := ci) (cn := cn) (line := line) (tag := tag) (log := log) (al := al)
        (up := up) (a := { a2 with
          group := al.group
          tossNodes := addTossNode a2.tossNodes ci (if ro = true then TOSSNODE_READONLY else 0)
          changed := true }) hq hal hup (by omega)
        ⟨e2, e3, rfl, e4, addTossNode_nodup e5 _ _, addTossNode_has _ _ _,
          ⟨k', n', q1, q2.1, by
            obtain ⟨x, hx, hxk⟩ := k4
            exact ⟨x, addTossNode_keeps hx _ _, hxk.trans q2.2.symm⟩⟩, e6, rfl, a2, hset, by
            unfold addTossNode
            have hm : a2.changed = true := hset.marked
            have hr : (if ro = true then TOSSNODE_READONLY else 0) = if al.group ∈ cn.readOnlyGroups then TOSSNODE_READONLY else 0 := by
              by_cases hx : ro = true
              · rw [if_pos hx, if_pos (hro.1 hx)]
              · rw [if_neg hx, if_neg fun y => hx (hro.2 y)]
            have hlk : a2.tossNodes.any (·.node == ci) = true ↔ IsLinked ci a2 := by
              rw [List.any_eq_true]
              simp only [beq_iff_eq]
              rfl
            rw [hr]
            by_cases hx : IsLinked ci a2
            · rw [if_pos (hlk.2 hx), if_pos hx, List.append_nil, ← hm]
            · rw [if_neg fun y => hx (hlk.1 y), if_neg hx, ← hm]⟩
      rw [hnodes]
      exact U
    · rw [← List.append_nil (answer _ _)]
      exact c2.trans (Replied.skip (List.prefix_refl _) (by dsimp only; rw [c1]))

theorem afFinish_run {c : Config} {ci : Nat} {cn : ConfigNode} {w : Wish} {mynode : Node4D} {line pat opt : Str} {global : Bool}
    {i : Option Nat} {L0 L : AfLoop} {r r' : AfReply} {s0 s1 s t : HSt} (g : r.Gen) (hn : c.nodes[ci]? = some cn)
    (hlive : ∀ a ∈ c.areas, a.type ≠ .deleted) (h0 : L0.done = false ∧ L0.found = false)
    (hl : LoopRun env self c ci cn w line pat 0 L0 s0 L s1) (hc1 : s.cfg = s1.cfg) (hi : w = .again → i = L.rescan)
    (h : afFinish env self ci mynode w.cmd line pat opt (osIsPattern pat) global L r s = .ok r' t) :
    ∃ c2 cs, Closing env mynode c (fulfilled c ci cn w pat) ci cn global line pat opt w i c2 cs ∧
      cleaned t.cfg = c2 ∧ Replied env self r s cs r' t := by
  obtain ⟨hc, -, hd, hf, -⟩ := hl
  rw [hc] at hc1
  have hclean : cleaned s.cfg = fulfilled c ci cn w pat := by rw [hc1]; exact cleaned_midway hlive ci cn w pat
  rw [h0.1, Bool.false_or, List.drop_zero] at hd
  rw [h0.2, Bool.false_or, List.drop_zero] at hf
  have hset : L.done = true ↔ settled c ci cn w pat := by rw [hd, List.any_eq_true]; rfl
  have hcalm : ∀ {ls : List Str}, t.cfg = s.cfg ∧ Replied env self r s ls r' t →
      cleaned t.cfg = fulfilled c ci cn w pat ∧ Replied env self r s ls r' t := fun x => ⟨by rw [x.1, hclean], x.2⟩
  have hnil : r' = r → t = s → cleaned t.cfg = fulfilled c ci cn w pat ∧ Replied env self r s [] r' t := by
    rintro rfl rfl; exact ⟨hclean, .nil⟩
  by_cases hdn : L.done = true
  · have hst := hset.1 hdn
    cases w with
    | join =>
      unfold afFinish at h
      simp only [Wish.cmd, hdn, if_true] at h
      cases h
      exact ⟨_, _, .settled hst (by simp), hnil rfl rfl⟩
    | leave =>
      unfold afFinish at h
      simp only [Wish.cmd, hdn, if_true] at h
      cases h
      exact ⟨_, _, .settled hst (by simp), hnil rfl rfl⟩
    | again =>
      unfold afFinish at h
      simp only [Wish.cmd, hdn, if_true] at h
      refine ⟨_, _, .again hst, hcalm ?_⟩
      rw [hi rfl]
      by_cases hx : L.rescan.isSome = true ∧ global = false ∧ opt = []
      · rw [if_pos hx]
        rw [if_pos (by simpa [and_assoc] using hx)] at h
        exact told_answer hs g h
      · rw [if_neg hx]
        rw [if_neg (by simpa [and_assoc] using hx)] at h
        cases h
        exact ⟨rfl, .nil⟩
  · have hst : ¬ settled c ci cn w pat := fun x => hdn (hset.2 x)
    rw [Bool.not_eq_true] at hdn
    by_cases hw : Wild pat
    · have hwt := (wild_iff pat).2 hw
      cases w with
      | join =>
        unfold afFinish afNoneAdd at h
        simp only [Wish.cmd, hdn, hwt, if_true] at h
        exact ⟨_, _, .wildJoin hst hw, hcalm (told_line hs g h)⟩
      | leave =>
        unfold afFinish at h
        simp only [Wish.cmd, hdn, hwt, if_true] at h
        exact ⟨_, _, .wildLeave hst hw, hcalm (told_line hs g h)⟩
      | again =>
        unfold afFinish at h
        simp only [Wish.cmd, hdn, hwt, if_true] at h
        exact ⟨_, _, .wildAgain hst hw, hcalm (told_line hs g h)⟩
    · have hwf : osIsPattern pat = false := by
        cases hx : osIsPattern pat
        · rfl
        · exact absurd ((wild_iff pat).1 hx) hw
      cases w with
      | leave =>
        unfold afFinish at h
        simp only [Wish.cmd, hdn, hwf] at h
        exact ⟨_, _, .leave hst hw, hcalm (told_answer hs g h)⟩
      | again =>
        unfold afFinish at h
        simp only [Wish.cmd, hdn, hwf] at h
        exact ⟨_, _, .notAgain hst hw, hcalm (told_answer hs g h)⟩
      | join =>
        unfold afFinish afNoneAdd at h
        simp only [Wish.cmd, hdn, hwf, Bool.false_eq_true, if_false] at h
        by_cases hfd : L.found = true
        · rw [if_pos hfd] at h
          cases h
          rw [hf, List.any_eq_true] at hfd
          obtain ⟨a, ha, e⟩ := hfd
          exact ⟨_, _, .found hst hw ⟨a, ha, by simpa using e⟩, hnil rfl rfl⟩
        · rw [if_neg hfd, get_bind] at h
          have hno : ∀ a ∈ c.areas, ¬ (a.type = .echomail ∧ TagFits pat a.tag) := by
            intro a ha hx
            refine hfd ?_
            rw [hf, List.any_eq_true]
            exact ⟨a, ha, by simpa using hx⟩
          have hm : s.cfg = c := hc1.trans (midway_skip hno _)
          have hful : fulfilled c ci cn .join pat = c := by rw [← hclean, hm]; exact cleaned_same hlive
          rw [hm, hn] at h
          dsimp only at h
          rw [bind_ok] at h
          obtain ⟨o, u, h1, h⟩ := h
          have ho : u = s ∧ (cn.has NODE_FORWARDREQ = true → o = OrderedFrom env s.log c cn pat) ∧
              (cn.has NODE_FORWARDREQ = false → o = none) := by
            by_cases hq : cn.has NODE_FORWARDREQ = true
            · rw [if_pos hq] at h1
              obtain ⟨k1, k2⟩ := findForward_run h1
              exact ⟨k1, fun _ => k2, fun e => by rw [hq] at e; cases e⟩
            · rw [if_neg hq] at h1
              cases h1
              exact ⟨rfl, fun e => absurd e hq, fun _ => rfl⟩
          obtain ⟨rfl, ho1, ho2⟩ := ho
          cases o with
          | none =>
            dsimp only at h
            obtain ⟨c1, c2⟩ := told_answer hs g h
            refine ⟨_, _, .unfound hst hw hno (.unknown fun e => (ho1 e).symm), hcalm ⟨c1, c2⟩⟩
          | some al =>
            dsimp only at h
            have hq : cn.has NODE_FORWARDREQ = true := by
              cases hx : cn.has NODE_FORWARDREQ
              · cases ho2 hx
              · rfl
            have hal := (ho1 hq).symm
            rw [← hm] at hal
            obtain ⟨ls, U, T, a, e1, e2⟩ := afForward_run hs g hq hal h
            rw [hm] at U e1
            refine ⟨t.cfg, ls, .unfound hst hw hno (by rw [hful]; exact U), cleaned_same ?_, T⟩
            intro b hb
            rw [e1] at hb
            rcases List.mem_append.1 hb with hb | hb
            · exact hlive b hb
            · rw [List.mem_singleton] at hb
              rw [hb, e2]
              decide

/-- A line that names areas. -/
theorem afAreaLine_run {ci : Nat} {cn : ConfigNode} {mynode : Node4D} {global : Bool} {line : Str} {r r' : AfReply} {s t : HSt}
    (g : r.Gen) (hn : s.cfg.nodes[ci]? = some cn) (hlive : ∀ a ∈ s.cfg.areas, a.type ≠ .deleted)
    (h : afAreaLine env self ci mynode global line r s = .ok r' t) :
    ∃ c2 ls, AreasAnswered env mynode s.cfg ci global line c2 ls ∧ cleaned t.cfg = c2 ∧ Replied env self r s ls r' t := by
  unfold afAreaLine at h
  obtain ⟨w, hw, hask⟩ := asksFor_of line
  generalize hsc : splitCmd (trimEnd (splitOpt line).1) = sc at h hw hask
  obtain ⟨cmd, pat⟩ := sc
  dsimp only at h hw hask
  subst hw
  generalize trimEnd (splitOpt line).2 = opt at h hask
  rw [bind_ok] at h
  obtain ⟨r1, u1, h1, h⟩ := h
  have hwild : ∀ {x y : List Str}, (if osIsPattern pat = true then x else y) = if Wild pat then x else y := by
    intro x y
    by_cases hx : Wild pat
    · rw [if_pos hx, if_pos ((wild_iff _).2 hx)]
    · rw [if_neg hx, if_neg fun k => hx ((wild_iff _).1 k)]
  have hb : u1.cfg = s.cfg ∧ Replied env self r s (if Wild pat then [line, []] else []) r1 u1 := by
    rw [← hwild]
    by_cases hp : osIsPattern pat = true
    · rw [if_pos hp] at h1 ⊢; exact told_lines hs g h1
    · rw [if_neg hp] at h1 ⊢; cases h1; exact ⟨rfl, .nil⟩
  obtain ⟨b1, b2⟩ := hb
  rw [get_bind, bind_ok] at h
  obtain ⟨L, u2, h2, h⟩ := h
  rw [b1] at h2
  have hmid : u1.cfg = midway s.cfg ci cn w pat 0 := by
    rw [b1]
    unfold midway
    simp [enqueue]
  have hloop := afAreas_run hs hn (by omega) (b2.gen g) hmid h2
  have gL : L.r.Gen := by obtain ⟨-, q, -⟩ := hloop; exact q.gen (b2.gen g)
  rw [bind_ok] at h
  obtain ⟨r2, u3, h3, h⟩ := h
  obtain ⟨o1, i, os, o2, o3, o4, o5⟩ := afOptions_run hs gL rfl hloop h3
  rw [bind_ok] at h
  obtain ⟨r3, u4, h4, h⟩ := h
  obtain ⟨c2, cs, k1, k2, k3⟩ := afFinish_run hs (i := i) (o4.gen gL) hn hlive ⟨rfl, rfl⟩ hloop o1 o5 h4
  have hb : t.cfg = u4.cfg ∧ Replied env self r3 u4 (if Wild pat then [[]] else []) r' t := by
    rw [← hwild]
    by_cases hp : osIsPattern pat = true
    · rw [if_pos hp] at h ⊢; exact told_line hs (k3.gen (o4.gen gL)) h
    · rw [if_neg hp] at h ⊢; cases h; exact ⟨rfl, .nil⟩
  refine ⟨c2, _, .intro hn hask o2 o3 k1, by rw [hb.1, k2], ?_⟩
  obtain ⟨-, q, -⟩ := hloop
  rw [List.drop_zero] at q
  exact (((b2.trans q).trans o4).trans k3).trans hb.2

end

end CM
