import Verif.Props.Request
import Verif.Spec.Notify
/-! # Sending lists and removing areas: lemmas -/

set_option linter.unusedSimpArgs false
namespace CM

/-! ## Texts -/

theorem groupLines_ok {c : Config} {ro : Bool} {n : ConfigNode} {cs : List UInt8} {s t : HSt} {ls : List Str}
    (h : groupLines c ro n cs s = .ok ls t) :
    t = s ∧ ls = (cs.filter fun g => if ro = true then g ∈ n.readOnlyGroups else g ∈ n.groups ∧ g ∉ n.readOnlyGroups).map
      (if ro = true then readGroup c else fullGroup c) := by
  induction cs generalizing ls t with
  | nil => cases h; exact ⟨rfl, rfl⟩
  | cons g cs ih =>
    rw [groupLines, bind_ok] at h
    obtain ⟨r, u, h1, h⟩ := h
    obtain ⟨e1, rfl⟩ := matchFlags_ok h1
    rw [bind_ok] at h
    obtain ⟨ok, v, h2, h⟩ := h
    have hok : v = u ∧ (ok = true ↔ if ro = true then g ∈ n.readOnlyGroups else g ∈ n.groups ∧ g ∉ n.readOnlyGroups) := by
      cases ro with
      | true => simp only [if_true] at h2 ⊢; cases h2; exact ⟨rfl, e1⟩
      | false =>
        simp only [Bool.false_eq_true, if_false] at h2 ⊢
        cases r with
        | true =>
          simp only [if_true] at h2
          cases h2
          exact ⟨rfl, by simp [e1.1 rfl]⟩
        | false =>
          simp only [Bool.false_eq_true, if_false] at h2
          obtain ⟨e2, rfl⟩ := matchFlags_ok h2
          have : g ∉ n.readOnlyGroups := fun hm => by have := e1.2 hm; cases this
          exact ⟨rfl, by simp [e2, this]⟩
    obtain ⟨rfl, hok⟩ := hok
    rw [bind_ok] at h
    obtain ⟨ls', w, h3, h⟩ := h
    obtain ⟨rfl, rfl⟩ := ih h3
    cases ok with
    | true =>
      simp only [if_true] at h
      cases h
      refine ⟨rfl, ?_⟩
      rw [List.filter_cons_of_pos (by simpa using hok.1 rfl), List.map_cons]
      congr 1
      cases ro with
      | true => simp [readGroup]
      | false =>
        unfold fullGroup
        by_cases hn : c.groupNames (g.toNat - 65) = [] <;> simp [hn]
    | false =>
      simp only [Bool.false_eq_true, if_false] at h
      cases h
      refine ⟨rfl, ?_⟩
      rw [List.filter_cons_of_neg]
      intro hx
      have := hok.2 (by simpa using hx)
      cases this

theorem traits_eq (n : ConfigNode) : (nodeTraits.filter fun x => n.flags &&& x.1 != 0).map (·.2) =
    (if n.has NODE_PASSIVE then [b!" * You are passive and will not receive any echomail messages"] else []) ++
    (if n.has NODE_TINYSEENBY then [b!" * You receive messages with tiny SEEN-BY lines"] else []) ++
    (if n.has NODE_NOSEENBY then [b!" * You receive messages without SEEN-BY lines"] else []) ++
    (if n.has NODE_FORWARDREQ then [b!" * You may do forward-requests"] else []) ++
    (if n.has NODE_NOTIFY then [b!" * You will receive notifications"] else []) ++
    (if n.has NODE_PACKNETMAIL then [b!" * Netmail to you will be packed"] else []) ++
    (if n.has NODE_AUTOADD then [b!" * New areas from you will be auto-added"] else []) := by
  have key : ∀ (x : UInt32 × Str) (l : List (UInt32 × Str)), ((x :: l).filter fun x => n.flags &&& x.1 != 0).map (·.2) =
      (if n.has x.1 then [x.2] else []) ++ (l.filter fun x => n.flags &&& x.1 != 0).map (·.2) := by
    intro x l
    rw [List.filter_cons]
    show _ = (if (n.flags &&& x.1 != 0) = true then [x.2] else []) ++ _
    split <;> rfl
  unfold nodeTraits
  rw [key, key, key, key, key, key, key]
  simp only [List.filter_nil, List.map_nil, List.append_nil, List.append_assoc]

/-- A reply: the messages, and whom they are for. -/
theorem reply_mail {env : Env} {af : (MemMsg → M Unit) → MemMsg → M Unit} {n : Nat} {frm to : Node4D} {toname subject : Str}
    {ls : List Str} {s u v t : HSt} {r r2 : AfReply} (h1 : afInit env frm toname to subject s = .ok r u)
    (h2 : afAddLines env (handleMessage env af n) r ls u = .ok r2 v) (h3 : afSend (handleMessage env af n) r2 v = .ok () t) :
    ∃ ms, Sends (handleMessage env af n) s ms t ∧ InParts (lineBound s.cfg.areafixMaxLines) subject 1 ms ls ∧
      Addressed frm to s.cfg.sysop toname ls ms := by
  refine reply_complete_partial env af n frm to toname subject ls s t ?_
  rw [bind_ok]
  refine ⟨r, u, h1, ?_⟩
  rw [bind_ok]
  exact ⟨r2, v, h2, h3⟩

theorem sendHelp_mail {env : Env} {af : (MemMsg → M Unit) → MemMsg → M Unit} {k ci : Nat} {cn : ConfigNode} {aka : Node4D} {s t : HSt}
    (hn : s.cfg.nodes[ci]? = some cn) (h : sendHelp env (handleMessage env af k) aka cn.sysopName ci s = .ok () t) :
    SheetMail env (handleMessage env af k) s.cfg .help ci cn aka s t := by
  unfold sendHelp at h
  rw [get_bind, hn] at h
  dsimp only at h
  rw [bind_ok] at h
  obtain ⟨r, u, h1, h⟩ := h
  rw [bind_ok] at h
  obtain ⟨r1, v, h2, h⟩ := h
  obtain ⟨ms, k1, k2, k3⟩ := reply_mail h1 h2 h
  exact ⟨_, ms, rfl, k1, k2, k3⟩

theorem sendInfo_mail {env : Env} {af : (MemMsg → M Unit) → MemMsg → M Unit} {k ci : Nat} {cn : ConfigNode} {aka : Node4D} {s t : HSt}
    (hn : s.cfg.nodes[ci]? = some cn) (h : sendInfo env (handleMessage env af k) aka cn.sysopName ci s = .ok () t) :
    SheetMail env (handleMessage env af k) s.cfg .info ci cn aka s t := by
  unfold sendInfo at h
  rw [get_bind, hn] at h
  dsimp only at h
  rw [bind_ok] at h
  obtain ⟨r, u, h1, h⟩ := h
  rw [bind_ok] at h
  obtain ⟨full, v, h2, h⟩ := h
  rw [bind_ok] at h
  obtain ⟨ro, w, h3, h⟩ := h
  rw [bind_ok] at h
  obtain ⟨r1, x, h4, h⟩ := h
  obtain ⟨rfl, rfl⟩ := groupLines_ok h2
  obtain ⟨rfl, rfl⟩ := groupLines_ok h3
  obtain ⟨ms, k1, k2, k3⟩ := reply_mail h1 h4 h
  refine ⟨infoText s.cfg cn, ms, rfl, k1, ?_, ?_⟩
  all_goals
    unfold infoText
    rw [traits_eq]
    cases hp : cn.packer <;> simp only [hp, List.append_assoc, if_true, Bool.false_eq_true, if_false] at k2 k3 ⊢ <;> assumption

theorem sendList_mail {env : Env} {af : (MemMsg → M Unit) → MemMsg → M Unit} {k ci : Nat} {type : ListType} {cn : ConfigNode} {aka : Node4D}
    {s t : HSt} (hn : s.cfg.nodes[ci]? = some cn) (h : sendList env (handleMessage env af k) type aka cn.sysopName ci s = .ok () t) :
    ∃ ls ms, ListLines env s.cfg type ci cn aka ls ∧ Sends (handleMessage env af k) s ms t ∧
      InParts (lineBound s.cfg.areafixMaxLines) b!"AreaFix list of areas" 1 ms ls ∧ Addressed aka cn.node s.cfg.sysop cn.sysopName ls ms := by
  obtain ⟨cn', es, ms, table, foot, log, h1, h2, h3, h5, h6, h7, h8⟩ := areaList_exact env af k type aka cn.sysopName ci s t h
  rw [hn] at h1
  cases h1
  exact ⟨_, ms, ⟨es, table, foot, log, h2, h3, h5, rfl⟩, h6, h7, h8⟩

/-- What is sent to one node. -/
theorem doSendAF_notified {env : Env} {af : (MemMsg → M Unit) → MemMsg → M Unit} {k : Nat} {kind : SendKind} {ci : Nat} {s t : HSt}
    (h : doSendAF env (handleMessage env af k) kind ci s = .ok () t) :
    t.cfg = s.cfg ∧ ∀ is v, Notified env (handleMessage env af k) s.cfg kind is t v →
      Notified env (handleMessage env af k) s.cfg kind (ci :: is) s v := by
  have hs := handleMessage_settled env af k
  unfold doSendAF at h
  rw [get_bind] at h
  cases hn : s.cfg.nodes[ci]? with
  | none => rw [hn] at h; cases h
  | some cn =>
    rw [hn] at h
    dsimp only at h
    cases hr : s.cfg.findRoute cn.node with
    | none => rw [hr] at h; cases h; exact ⟨rfl, fun is v hv => .noRoute hn hr hv⟩
    | some rt =>
      rw [hr] at h
      cases kind with
      | full => exact ⟨((sendList_calm hs env _ _ _ _ s).1 _ _ h).1, fun is v hv => .sent hn hr (sendList_mail hn h) hv⟩
      | query => exact ⟨((sendList_calm hs env _ _ _ _ s).1 _ _ h).1, fun is v hv => .sent hn hr (sendList_mail hn h) hv⟩
      | unlinked => exact ⟨((sendList_calm hs env _ _ _ _ s).1 _ _ h).1, fun is v hv => .sent hn hr (sendList_mail hn h) hv⟩
      | help => exact ⟨((sendHelp_calm hs env _ _ _ s).1 _ _ h).1, fun is v hv => .sent hn hr (sendHelp_mail hn h) hv⟩
      | info => exact ⟨((sendInfo_calm hs env _ _ _ s).1 _ _ h).1, fun is v hv => .sent hn hr (sendInfo_mail hn h) hv⟩

theorem sendEach_notified {env : Env} {af : (MemMsg → M Unit) → MemMsg → M Unit} {k : Nat} {kind : SendKind} {is : List Nat} {s t : HSt}
    (hl : ∀ i ∈ is, i < s.cfg.nodes.length) (h : sendEach env (handleMessage env af k) kind is s = .ok () t) :
    t.cfg = s.cfg ∧ Notified env (handleMessage env af k) s.cfg kind
      (is.filter fun i => (s.cfg.nodes[i]?).any fun n => n.flags &&& NODE_NOTIFY != 0) s t := by
  induction is generalizing s with
  | nil => cases h; exact ⟨rfl, .nil _⟩
  | cons i is ih =>
    rw [sendEach, get_bind] at h
    have hn := List.getElem?_eq_getElem (hl i (by simp))
    generalize s.cfg.nodes[i]'(hl i (by simp)) = cn at hn
    rw [hn] at h
    dsimp only at h
    rw [bind_ok] at h
    obtain ⟨_, u, h1, h⟩ := h
    by_cases hf : cn.has NODE_NOTIFY = true
    · rw [if_pos hf] at h1
      obtain ⟨e, hx⟩ := doSendAF_notified h1
      obtain ⟨e2, h2⟩ := ih (fun j hj => by rw [e]; exact hl j (List.mem_cons_of_mem _ hj)) h
      rw [e] at e2 h2
      refine ⟨e2, ?_⟩
      rw [List.filter_cons_of_pos (by rw [hn]; exact hf)]
      exact hx _ _ h2
    · rw [if_neg hf] at h1
      cases h1
      obtain ⟨e2, h2⟩ := ih (fun j hj => hl j (List.mem_cons_of_mem _ hj)) h
      refine ⟨e2, ?_⟩
      rw [List.filter_cons_of_neg (by rw [hn]; exact hf)]
      exact h2

/-! ## Removal -/

theorem sendRemove1_notes {env : Env} {self : MemMsg → M Unit} (hs : Settled self) {tag : Str} {aka : Node4D} {t : TossNode} {n : ConfigNode} {s u : HSt}
    (htag : tag.length < 80) (h : sendRemove1 env self tag aka t n s = .ok () u) :
    ∃ ms, Sends self s ms u ∧ RemovalNotes s.cfg (some aka) tag t n ms := by
  unfold sendRemove1 at h
  rw [bind_ok] at h
  obtain ⟨_, v, h1, h2⟩ := h
  have hv : v.cfg = s.cfg ∧ ∃ a, Sends self s a v ∧ (if n.flags &&& NODE_SENDAREAFIX != 0 then
      ∃ m, a = [m] ∧ Tells s.cfg (some aka) n n.remoteAFName n.remoteAFPw [45 :: tag, b!"---", b!"Generated by CrashMail 1.5.1"] m
     else a = []) := by
    by_cases hf : n.has NODE_SENDAREAFIX = true
    · rw [if_pos hf] at h1
      simp only [if_pos (show (n.flags &&& NODE_SENDAREAFIX != 0) = true from hf)]
      rw [bind_ok] at h1
      obtain ⟨m, w, h3, h1⟩ := h1
      have g := newNetmail_gen h3
      obtain ⟨rfl, k1, k2⟩ := newNetmail_tells h3
      rw [bind_ok] at h1
      obtain ⟨m2, x, h4, h1⟩ := h1
      have g2 := g.keep (mmAddLines_keep h4)
      obtain ⟨m3, h5, h4⟩ := mmAddLines_cons_ok h4
      obtain ⟨m4, h6, h4⟩ := mmAddLines_cons_ok h4
      cases h4
      obtain ⟨l1, l2, l3⟩ := k2.line k1 g.area [45 :: tag] (by simp [chunkOf]) (by simp) (by simp; omega) h5
      obtain ⟨l4, l5, l6⟩ := l3.line l1 l2 [b!"---", b!"Generated by CrashMail 1.5.1"] (by decide) (by decide) (by decide) h6
      exact ⟨(((attempt_sat (hs _ g2)) _).1 _ _ h1).1, _, attempt_sends h1, _, rfl, l6⟩
    · rw [if_neg hf] at h1
      cases h1
      simp only [if_neg (show ¬ (n.flags &&& NODE_SENDAREAFIX != 0) = true from hf)]
      exact ⟨trivial, [], .nil _, rfl⟩
  obtain ⟨hc, a, ha, ha2⟩ := hv
  have hcond : (n.has NODE_SENDTEXT && !t.has TOSSNODE_FEED) = true ↔
      ((n.flags &&& NODE_SENDTEXT != 0) = true ∧ t.flags &&& TOSSNODE_FEED = 0) := by
    unfold ConfigNode.has TossNode.has
    rw [Bool.and_eq_true, Bool.not_eq_true', bne_eq_false_iff_eq]
  by_cases hf : (n.has NODE_SENDTEXT && !t.has TOSSNODE_FEED) = true
  · rw [if_pos hf] at h2
    split at h2
    · cases h2
    rw [bind_ok] at h2
    obtain ⟨m, w, h3, h2⟩ := h2
    have g := newNetmail_gen h3
    obtain ⟨rfl, k1, k2⟩ := newNetmail_tells h3
    rw [bind_ok] at h2
    obtain ⟨m2, x, h4, h2⟩ := h2
    obtain ⟨m3, h5, h4⟩ := mmAddLines_cons_ok h4
    obtain ⟨l1, l2, l3⟩ := k2.line k1 g.area [b!"The area \"" ++ tag ++ b!"\" has been removed by the uplink."]
      (by simp [chunkOf, removedLine]) (by simp [removedLine]) (by simp [removedLine]; omega) h5
    rw [hc] at l3
    have hb : Tells s.cfg (some aka) n n.sysopName b!"Area removed"
        ((b!"The area \"" ++ tag ++ b!"\" has been removed by the uplink.") ::
          if n.flags &&& NODE_SENDAREAFIX != 0 then [b!"A message has been sent to your AreaFix."] else []) m2 ∧ x = w := by
      by_cases hg : n.has NODE_SENDAREAFIX = true
      · rw [if_pos hg] at h4
        obtain ⟨m4, h6, h4⟩ := mmAddLines_cons_ok h4
        cases h4
        obtain ⟨_, _, l6⟩ := l3.line l1 l2 [b!"A message has been sent to your AreaFix."] (by decide) (by decide) (by decide) h6
        rw [if_pos (show (n.flags &&& NODE_SENDAREAFIX != 0) = true from hg)]
        exact ⟨l6, rfl⟩
      · rw [if_neg hg] at h4
        cases h4
        rw [if_neg (show ¬ (n.flags &&& NODE_SENDAREAFIX != 0) = true from hg)]
        exact ⟨l3, rfl⟩
    obtain ⟨hb, rfl⟩ := hb
    refine ⟨a ++ [m2], ha.append (attempt_sends h2), a, [m2], rfl, ha2, ?_⟩
    rw [if_pos (hcond.1 hf)]
    exact ⟨m2, rfl, hb⟩
  · rw [if_neg hf] at h2
    cases h2
    refine ⟨a, ha, a, [], by simp, ha2, ?_⟩
    rw [if_neg fun x => hf (hcond.2 x)]

theorem sendRemove_told {env : Env} {self : MemMsg → M Unit} (hs : Settled self) {tag : Str} {aka : Option Node4D} {ts : List TossNode} {s u : HSt}
    (htag : tag.length < 80) (h : sendRemove env self tag aka ts s = .ok () u) :
    ∃ ms, Sends self s ms u ∧ RemovalTold s.cfg aka tag ts ms := by
  induction ts generalizing s with
  | nil => cases h; exact ⟨[], .nil _, .nil⟩
  | cons t ts ih =>
    rw [sendRemove, get_bind] at h
    cases hn : s.cfg.nodes[t.node]? with
    | none => rw [hn] at h; cases h
    | some n =>
      rw [hn] at h
      dsimp only at h
      rw [bind_ok] at h
      obtain ⟨_, v, h1, h⟩ := h
      have hx : v.cfg = s.cfg ∧ ∃ ms, Sends self s ms v ∧ RemovalNotes s.cfg aka tag t n ms := by
        by_cases hf : (n.has NODE_SENDAREAFIX || (n.has NODE_SENDTEXT && !t.has TOSSNODE_FEED)) = true
        · rw [if_pos hf] at h1
          cases aka with
          | none => cases h1
          | some k => exact ⟨((sendRemove1_calm hs env tag k t n s).1 _ _ h1).1, sendRemove1_notes hs htag h1⟩
        · rw [if_neg hf] at h1
          cases h1
          refine ⟨rfl, [], .nil _, [], [], rfl, ?_, ?_⟩
          · rw [if_neg]
            intro hg
            exact hf (by rw [show n.has NODE_SENDAREAFIX = true from hg]; rfl)
          · rw [if_neg]
            rintro ⟨hg1, hg2⟩
            refine hf ?_
            rw [show n.has NODE_SENDTEXT = true from hg1]
            unfold TossNode.has
            rw [hg2]
            simp
      obtain ⟨hc, ms, x1, x2⟩ := hx
      obtain ⟨ns, y1, y2⟩ := ih h
      rw [hc] at y2
      exact ⟨ms ++ ns, x1.append y1, .cons hn x2 y2⟩

end CM
