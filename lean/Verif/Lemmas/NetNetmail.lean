import Verif.Lemmas.NetLines
/-! # A netmail in a network -/

set_option linter.unusedSimpArgs false

namespace CM

/-- The netmail at the system that `k` systems have passed it on to. -/
structure Travels (m : MemMsg) (aka : Nat → Node4D) (k : Nat) (x : MemMsg) : Prop where
  area : x.area = []
  to : x.to = m.to
  frm : x.frm = m.frm
  subject : x.subject = m.subject
  date : x.date = m.date
  flags : x.has MMFLAG_KILL = false ∧ x.has MMFLAG_TWIT = false
  attr : x.attr &&& (FLAG_CRASH ||| FLAG_HOLD ||| FLAG_FILEATTACH ||| FLAG_RREQ ||| FLAG_AUDIT) = 0
  orig : (if x.orig.zone = 0 then { x.orig with zone := x.pktOrig.zone } else x.orig) = m.orig
  dest : (if x.dest.zone = 0 then { x.dest with zone := x.pktDest.zone } else x.dest) = m.dest
  inv : MsgInv x
  chunks : ∀ c ∈ x.text, c.getLast? = some 13
  text : ∃ ls, ViaLines aka k ls ∧ x.text.flatten = m.text.flatten ++ ls.flatten

theorem travels_start {m : MemMsg} {len : Nat} {aka : Nat → Node4D} (h : PostedNetmail m len aka) : Travels m aka 0 m := by
  refine ⟨h.netmail, rfl, rfl, rfl, rfl, h.flags, h.attr, if_neg h.zones.1, if_neg h.zones.2, ?_, h.chunks.2, [], ⟨rfl, by simp⟩, by simp⟩
  refine ⟨h.chunks.1, by simp [h.netmail], h.strings.to.2, h.strings.frm.2, h.strings.subject.2, h.strings.date.2, h.ids.1, h.ids.2, ?_, ?_⟩
  · rw [h.seenBy]; exact ⟨by simp, by simp⟩
  · rw [h.path]; intro b hb; cases hb

theorem attr_bit {a b f : UInt16} (h : a &&& b = 0) (hf : b &&& f = f) : a &&& f = 0 := by
  rw [← hf, ← UInt16.and_assoc, h, UInt16.zero_and]

theorem routed_bits {m : MemMsg} {b : UInt16} (h : m.attr &&& b = 0) : routedAttr m &&& b = 0 := by
  have key : ∀ a p : UInt16, a &&& b = 0 → (a &&& p) &&& b = 0 := by
    intro a p h
    rw [UInt16.and_assoc, UInt16.and_comm p b, ← UInt16.and_assoc, h, UInt16.zero_and]
  unfold routedAttr
  dsimp only
  split
  · exact key _ _ (key _ _ h)
  · exact key _ _ h

theorem attrHas_false {m : MemMsg} {b f : UInt16} (h : m.attr &&& b = 0) (hf : b &&& f = f) : m.attrHas f = false := by
  unfold MemMsg.attrHas
  rw [attr_bit h hf]
  rfl

/-! ## Via lines -/

theorem via_line {aka : Node4D} {time : Str} (ht : TimeText time) : FullLine (viaText aka time) ∧ NoNul (viaText aka time) ∧ (viaText aka time).length ≤ 150 ∧
    SafeKludge (viaText aka time) ∧ ¬ AddrKludge (viaText aka time) ∧ ¬ (1 :: b!"RESCANNED") <+: viaText aka time := by
  have h1 := print4D_length aka
  obtain ⟨t1, t2, t3, t4⟩ := ht
  have hc : ∀ c ∈ print4D aka, c ≠ 13 ∧ c ≠ 10 ∧ c ≠ 0 := by
    intro c hc
    have := print4D_chars aka c hc
    refine ⟨?_, ?_, ?_⟩ <;> rintro rfl <;> revert this <;> unfold AddrChar <;> decide
  have p1 : (13 : UInt8) ∉ print4D aka := fun h => (hc _ h).1 rfl
  have p2 : (10 : UInt8) ∉ print4D aka := fun h => (hc _ h).2.1 rfl
  have p3 : (0 : UInt8) ∉ print4D aka := fun h => (hc _ h).2.2 rfl
  refine ⟨⟨1 :: b!"Via " ++ print4D aka ++ b!" @" ++ time ++ b!" CrashMail II/Linux 1.5.1", rfl, ⟨?_, ?_⟩, ?_⟩, ?_, ?_, ?_, ?_, ?_⟩
  · simp [p1, t4]
  · simp [p2, t3]
  · simp; omega
  · unfold NoNul viaText
    simp [p3, t2]
  · unfold viaText
    simp; omega
  · intro _
    right; left
    unfold viaText
    rw [List.getLast?_concat]
  · unfold AddrKludge viaText
    simp
  · unfold viaText
    simp

/-! ## Passing on -/

/-- The netmail as it leaves the `k`th system. -/
structure Leaves (m : MemMsg) (aka : Nat → Node4D) (k : Nat) (y : MemMsg) : Prop where
  area : y.area = []
  to : y.to = m.to
  frm : y.frm = m.frm
  subject : y.subject = m.subject
  date : y.date = m.date
  attr : y.attr &&& (FLAG_CRASH ||| FLAG_HOLD ||| FLAG_FILEATTACH ||| FLAG_RREQ ||| FLAG_AUDIT) = 0
  orig : y.orig = m.orig
  dest : y.dest = m.dest
  text : ∃ ls, ViaLines aka k ls ∧ y.text.flatten = m.text.flatten ++ ls.flatten

theorem prepNetmail_ends {x : MemMsg} (hc : ∀ c ∈ x.text, c.getLast? = some 13) (s : HSt) :
    prepNetmail x s = .ok { x with
      dest := if x.dest.zone = 0 then { x.dest with zone := x.pktDest.zone } else x.dest
      orig := if x.orig.zone = 0 then { x.orig with zone := x.pktOrig.zone } else x.orig } s := by
  unfold prepNetmail
  dsimp only
  cases ht : x.text.head? with
  | none => rfl
  | some c =>
    rw [Option.bind_some, hc c (List.mem_of_head? ht)]
    simp
    rfl

theorem noFilters (env : Env) (self : MemMsg → M Unit) (m : MemMsg) (s : HSt) (h : s.cfg.filters = []) : filterMsg env self m s = .ok m s := by
  unfold filterMsg
  rw [get_bind, h]
  rfl

theorem isAka_false {c : Config} {d : Node4D} (h : ∀ a ∈ c.akas, ¬ SameSystem a.node d) : c.isAka d = false := by
  unfold Config.isAka
  rw [List.any_eq_false]
  intro a ha e
  rw [beq_iff_eq, same_iff, same_comm] at e
  exact h a ha e

/-- The area is for netmails to this address, as a test. -/
def takesFor (c : Config) (d : Node4D) (a : Area) : Bool :=
  a.type == .netmail && ((match a.aka.bind (c.akas[·]?) with
    | some k => compare4D k.node d == 0
    | none => false) || a.importNodes.any fun n => compare4D n d == 0)

theorem takesFor_iff (c : Config) (d : Node4D) (a : Area) : takesFor c d a = true ↔ TakesFor c d a := by
  simp only [takesFor, Bool.and_eq_true, Bool.or_eq_true, beq_iff_eq, List.any_eq_true, same_iff, TakesFor]
  refine and_congr_right fun _ => or_congr ?_ Iff.rfl
  cases a.aka.bind (c.akas[·]?) with
  | none => simp
  | some k => simp [same_iff]

theorem netmailArea_eq (c : Config) (d : Node4D) : netmailArea c d = match c.areas.findIdx? (takesFor c d) with
    | some i => some i
    | none => if c.isAka d || c.has CFG_NOROUTE then c.areas.findIdx? (·.type == .netmail) else none := rfl

theorem netmailArea_none {c : Config} {d : Node4D} (h : ∀ a ∈ c.akas, ¬ SameSystem a.node d) (hi : ∀ a ∈ c.areas, a.type = .netmail → ∀ x ∈ a.importNodes, ¬ SameSystem x d)
    (hr : c.has CFG_NOROUTE = false) : netmailArea c d = none := by
  have e : c.areas.findIdx? (takesFor c d) = none := by
    rw [List.findIdx?_eq_none_iff]
    intro a ha
    rw [Bool.eq_false_iff]
    intro hb
    obtain ⟨h1, ⟨k, hk, h2⟩ | ⟨x, h3, h4⟩⟩ := (takesFor_iff _ _ _).1 hb
    · obtain ⟨j, -, hj⟩ := Option.bind_eq_some_iff.1 hk
      exact h k (List.mem_of_getElem? hj) h2
    · exact hi a ha h1 x h3 h4
  rw [netmailArea_eq, e, isAka_false h, hr]
  rfl

theorem noBounce {c : Config} {m : MemMsg} (h1 : c.nlConfigured = false ∨ c.nlCheck m.dest.boss = true)
    (h2 : c.has CFG_BOUNCEPOINTS = false ∨ ∀ a ∈ c.akas, ¬ SameSystem a.node m.dest.boss) (h3 : m.attrHas FLAG_FILEATTACH = false) : bounceReason c m = none := by
  unfold bounceReason
  rw [if_neg, if_neg, if_neg]
  · rw [h3]; simp
  · intro e
    simp only [Bool.and_eq_true, List.any_eq_true, beq_iff_eq] at e
    rcases h2 with h2 | h2
    · rw [h2] at e; simp at e
    · obtain ⟨⟨-, a, ha, hb, -⟩, -⟩ := e
      rw [same_iff] at hb
      exact h2 a ha hb
  · intro e
    simp only [Bool.and_eq_true, Bool.not_eq_true'] at e
    rcases h1 with h1 | h1
    · rw [h1] at e; simp at e
    · rw [h1] at e; simp at e

theorem nm_forwards {n : Net} {m x : MemMsg} {aka : Nat → Node4D} {k v w : Nat} (hf : 0 < n.fuel) (h : Forwards n m v w (aka k)) (hx : Travels m aka k x) :
    ∃ y, handleMessage (n.env v) n.af n.fuel x (n.start v) = .ok () { n.start v with log := (n.start v).log ++ [.netmail (n.addr w) (aka k) y] } ∧ Leaves m aka (k + 1) y := by
  obtain ⟨f, hf⟩ : ∃ f, n.fuel = f + 1 := ⟨n.fuel - 1, by omega⟩
  obtain ⟨p, hr⟩ := h.route
  rw [hf, handleMessage, if_pos hx.area]
  unfold handleNetmail
  rw [bind_of_ok (prepNetmail_ends hx.chunks _), hx.orig, hx.dest, bind_of_ok (noFilters _ _ _ _ h.filters)]
  rw [if_neg (by rw [show MemMsg.has { x with dest := m.dest, orig := m.orig } MMFLAG_KILL = x.has MMFLAG_KILL from rfl, hx.flags.1]; simp), get_bind]
  rw [isAka_false h.elsewhere]
  simp only [Bool.false_and, Bool.false_eq_true, if_false]
  rw [pure_bind', get_bind, netmailArea_none h.elsewhere h.noArea h.noRoute]
  dsimp only
  unfold routeOn
  rw [get_bind]
  dsimp only
  have ha := routed_bits (m := { x with dest := m.dest, orig := m.orig }) hx.attr
  generalize hA : routedAttr { x with dest := m.dest, orig := m.orig } = A at ha
  have hp : ∀ ty, netmailPri (n.start v).cfg { x with dest := m.dest, orig := m.orig, attr := A, type := ty } = .normal := by
    intro ty
    unfold netmailPri
    rw [attrHas_false (by exact ha) (by decide), attrHas_false (by exact ha) (by decide), attrHas_false (by exact ha) (by decide)]
    rfl
  rw [hp, hr]
  dsimp only
  obtain ⟨b, hb⟩ := isLoopMail_ends (n.start v).cfg hx.chunks
  have hl : checkLoop (n.env v) { x with dest := m.dest, orig := m.orig, attr := A, type := p.toType } (n.start v) = .ok () (n.start v) := by
    unfold checkLoop
    rw [get_bind]
    split
    · rw [bind_of_ok (lift_ok.2 ⟨hb, rfl⟩)]
      have : ((n.start v).cfg.loopMode == 2) = false := by rw [beq_eq_false_iff_ne]; exact h.loops
      rw [this, Bool.and_false]
      rfl
    · rfl
  rw [bind_of_ok hl, noBounce (by exact h.listed) (by exact h.points) (attrHas_false (by exact ha) (by decide))]
  dsimp only
  have hat : handleAttach (n.env v) { x with dest := m.dest, orig := m.orig, attr := A, type := p.toType } (n.addr w) (n.start v) = .ok { x with dest := m.dest, orig := m.orig, attr := A, type := p.toType } (n.start v) := by
    unfold handleAttach
    rw [if_neg (by rw [attrHas_false (by exact ha) (by decide)]; simp)]
    rfl
  rw [bind_of_ok hat, get_bind]
  have hv := via_line (aka := aka k) (h.time (n.start v).log)
  obtain ⟨y, y1, y2, y3, y4, y5, y6, y7⟩ := addLines_text { x with dest := m.dest, orig := m.orig, attr := A, type := p.toType } [viaText (aka k) ((n.env v).viaTime (n.start v).log)]
    ⟨hx.inv.text, hx.inv.area, hx.inv.to, hx.inv.frm, hx.inv.subject, hx.inv.date, hx.inv.msgid, hx.inv.reply, hx.inv.seenBy, hx.inv.path⟩
    (by intro l hl; simp only [List.mem_singleton] at hl; subst hl; have := hv.2.2.1; omega)
    (by intro _ l hl; simp only [List.mem_singleton] at hl; subst hl; exact hv.2.2.2.1)
    (fun hne => absurd hx.area hne) (fun l _ hc => hc.1 hx.area)
  obtain ⟨y8, y9⟩ := y7 (by intro l hl; simp only [List.mem_singleton] at hl; subst hl; exact hv.2.2.2.2.1)
  have y1' : mmAddLine { x with dest := m.dest, orig := m.orig, attr := A, type := p.toType } (viaText (aka k) ((n.env v).viaTime (n.start v).log)) = .ok (some y) := by
    unfold addLines at y1
    split at y1
    · cases y1
    · cases y1
    · next m' e =>
      rw [e]
      unfold addLines at y1
      exact y1
  have hya : y.attr &&& (FLAG_CRASH ||| FLAG_HOLD ||| FLAG_FILEATTACH ||| FLAG_RREQ ||| FLAG_AUDIT) = 0 := by rw [y3.attr]; exact ha
  refine ⟨y, ?_, y3.area.trans hx.area, y3.to.trans hx.to, y3.frm.trans hx.frm, y3.subject.trans hx.subject, y3.date.trans hx.date, hya, y8, y9, ?_⟩
  · rw [show viaLine (aka k) ((n.env v).viaTime (n.start v).log) = viaText (aka k) ((n.env v).viaTime (n.start v).log) from rfl]
    rw [bind_of_ok (liftO_ok.2 ⟨y1', rfl⟩)]
    have hs : sendNetmail (n.env v) (n.addr w) (aka k) y (n.start v) = .ok () { n.start v with log := (n.start v).log ++ [.netmail (n.addr w) (aka k) y] } := by
      unfold sendNetmail
      rw [if_pos (h.works _ _ _)]
    rw [bind_of_ok hs, if_neg (by rw [attrHas_false hya (by decide)]; simp)]
    rfl
  · obtain ⟨ls, l1, l2⟩ := hx.text
    refine ⟨ls ++ [viaText (aka k) ((n.env v).viaTime (n.start v).log)], ⟨by simp [l1.1], ?_⟩, ?_⟩
    · intro j hj
      by_cases hjk : j < k
      · obtain ⟨t, t1, t2⟩ := l1.2 j hjk
        exact ⟨t, t1, by rw [List.getElem?_append_left (by rw [l1.1]; exact hjk), t2]⟩
      · have : j = k := by omega
        subst this
        exact ⟨(n.env v).viaTime (n.start v).log, h.time _, by rw [List.getElem?_append_right (by rw [l1.1]; exact Nat.le_refl _), l1.1, Nat.sub_self]; rfl⟩
    · rw [y4]
      show x.text.flatten ++ _ = _
      rw [l2]
      simp

/-! ## Storing -/

theorem netmailArea_some {c : Config} {m : MemMsg} {i : Nat} {a : Area} (ha : c.areas[i]? = some a)
    (h : (TakesFor c m.dest a ∧ ∀ j b, j < i → c.areas[j]? = some b → ¬ TakesFor c m.dest b) ∨
      ((∀ b ∈ c.areas, ¬ TakesFor c m.dest b) ∧ (∃ k ∈ c.akas, SameSystem m.dest k.node) ∧ a.type = .netmail ∧ ∀ j b, j < i → c.areas[j]? = some b → b.type ≠ .netmail)) :
    netmailArea c m.dest = some i := by
  rw [netmailArea_eq]
  have hil : i < c.areas.length := by
    rw [List.getElem?_eq_some_iff] at ha
    exact ha.1
  have first : ∀ (q : Area → Bool), q a = true → (∀ j b, j < i → c.areas[j]? = some b → q b = false) → c.areas.findIdx? q = some i := by
    intro q h1 h2
    rw [List.findIdx?_eq_some_iff_getElem]
    refine ⟨hil, ?_, ?_⟩
    · rw [List.getElem?_eq_getElem hil, Option.some.injEq] at ha
      rw [ha]; exact h1
    · intro j hj
      rw [Bool.not_eq_true, h2 j c.areas[j] hj (List.getElem?_eq_getElem _)]
  rcases h with ⟨h1, h2⟩ | ⟨h1, ⟨k, k1, k2⟩, h3, h4⟩
  · rw [first _ ((takesFor_iff _ _ _).2 h1) (fun j b hj hb => by rw [Bool.eq_false_iff]; exact fun e => h2 j b hj hb ((takesFor_iff _ _ _).1 e))]
  · have e : c.areas.findIdx? (takesFor c m.dest) = none := by
      rw [List.findIdx?_eq_none_iff]
      intro b hb
      rw [Bool.eq_false_iff]
      exact fun e => h1 b hb ((takesFor_iff _ _ _).1 e)
    rw [e]
    dsimp only
    have hk : c.isAka m.dest = true := by
      unfold Config.isAka
      rw [List.any_eq_true]
      exact ⟨k, k1, by rw [beq_iff_eq, same_iff]; exact k2⟩
    rw [hk, Bool.true_or, if_pos rfl]
    exact first _ (by rw [h3]; rfl) (fun j b hj hb => by rw [beq_eq_false_iff_ne]; exact h4 j b hj hb)

theorem endsCR_chunks {cs : List Str} (h : ∀ c ∈ cs, c.getLast? = some 13) : EndsCR cs.flatten := by
  rcases List.eq_nil_or_concat cs with rfl | ⟨cs', c, rfl⟩
  · exact .inl rfl
  · right
    rw [List.concat_eq_append, List.flatten_append, List.flatten_cons, List.flatten_nil, List.append_nil, List.getLast?_append, h c (by simp)]
    rfl

theorem nm_imports {n : Net} {m x : MemMsg} {len v i : Nat} {aka : Nat → Node4D} {a : Area} (hf : 0 < n.fuel) (hp : PostedNetmail m len aka) (h : Receives n m v i a) (hx : Travels m aka len x) :
    ∃ y, handleMessage (n.env v) n.af n.fuel x (n.start v) = .ok () { n.start v with log := (n.start v).log ++ [.importMsg i y] } ∧ StoredNetmail m len aka y ∧
      y.subject = if (n.start v).cfg.has CFG_STRIPRE then stripRe (stripRe m.subject) else m.subject := by
  obtain ⟨f, hf⟩ : ∃ f, n.fuel = f + 1 := ⟨n.fuel - 1, by omega⟩
  rw [hf, handleMessage, if_pos hx.area]
  unfold handleNetmail
  rw [bind_of_ok (prepNetmail_ends hx.chunks _), hx.orig, hx.dest, bind_of_ok (noFilters _ _ _ _ h.filters)]
  rw [if_neg (by rw [show MemMsg.has { x with dest := m.dest, orig := m.orig } MMFLAG_KILL = x.has MMFLAG_KILL from rfl, hx.flags.1]; simp), get_bind]
  have haf : ((n.start v).cfg.areafixNames.any fun n => eqi n x.to) = false := by
    rw [List.any_eq_false]
    intro y hy e
    rw [eqi_iff] at e
    exact h.notAreafix y hy (by rw [e, hx.to])
  dsimp only
  rw [haf]
  simp only [Bool.and_false, Bool.false_and, Bool.false_eq_true, if_false]
  rw [pure_bind', get_bind, netmailArea_some h.area h.chosen]
  dsimp only
  unfold importNetmail
  rw [if_neg (by rw [show MemMsg.has { x with dest := m.dest, orig := m.orig } MMFLAG_TWIT = x.has MMFLAG_TWIT from rfl, hx.flags.2]; simp), get_bind]
  dsimp only
  obtain ⟨p, r, s1, s2, s3, s4⟩ := hp.says
  obtain ⟨ls, l1, l2⟩ := hx.text
  have hst : ∀ (c : Config) (z : MemMsg), (stripSubject c z).text = z.text := by intro c z; unfold stripSubject; split <;> rfl
  have hat : ∀ (c : Config) (z : MemMsg), (stripSubject c z).attr = z.attr := by intro c z; unfold stripSubject; split <;> rfl
  have ht : hasText (stripSubject (n.start v).cfg { x with dest := m.dest, orig := m.orig }).text = .ok true := by
    rw [hst]
    exact hasText_says hx.chunks (p := p) (r := r ++ ls.flatten) (by rw [l2, s1, List.append_assoc]) s2 (by simp [s3]) (by
      cases r with
      | nil => exact absurd rfl s3
      | cons c r => simpa using s4)
  have htx : (if (n.start v).cfg.has CFG_IMPORTEMPTYNETMAIL = true then pure true else M.lift (hasText (stripSubject (n.start v).cfg { x with dest := m.dest, orig := m.orig }).text) : M Bool) (n.start v) = .ok true (n.start v) := by
    split
    · rfl
    · rw [ht]; rfl
  rw [bind_of_ok htx, h.area]
  have hbs : (true && ((some a).bind (·.base)).isSome) = true := by
    cases hb : a.base with
    | none => exact absurd hb h.stores
    | some b => simp [hb]
  rw [hbs, if_pos rfl]
  refine ⟨markSent (stripSubject (n.start v).cfg (stripSubject (n.start v).cfg { x with dest := m.dest, orig := m.orig })), ?_, ?_, ?_⟩
  · have hi : importMsg (n.env v) i (markSent (stripSubject (n.start v).cfg (stripSubject (n.start v).cfg { x with dest := m.dest, orig := m.orig }))) (n.start v) =
        .ok () { n.start v with log := (n.start v).log ++ [.importMsg i (markSent (stripSubject (n.start v).cfg (stripSubject (n.start v).cfg { x with dest := m.dest, orig := m.orig })))] } := by
      unfold importMsg
      rw [if_pos (h.works _ _ _)]
    have hq : (do
        importMsg (n.env v) i (markSent (stripSubject (n.start v).cfg (stripSubject (n.start v).cfg { x with dest := m.dest, orig := m.orig })))
        pure (markSent (stripSubject (n.start v).cfg (stripSubject (n.start v).cfg { x with dest := m.dest, orig := m.orig }))) : M MemMsg) (n.start v) =
        .ok (markSent (stripSubject (n.start v).cfg (stripSubject (n.start v).cfg { x with dest := m.dest, orig := m.orig })))
          { n.start v with log := (n.start v).log ++ [.importMsg i (markSent (stripSubject (n.start v).cfg (stripSubject (n.start v).cfg { x with dest := m.dest, orig := m.orig })))] } := by
      rw [bind_of_ok hi]
      rfl
    rw [bind_of_ok hq]
    have hrq : (markSent (stripSubject (n.start v).cfg (stripSubject (n.start v).cfg { x with dest := m.dest, orig := m.orig }))).attrHas FLAG_RREQ = false := by
      unfold MemMsg.attrHas markSent
      dsimp only
      rw [hat, hat]
      have h1 : x.attr &&& FLAG_RREQ = 0 := attr_bit hx.attr (by decide)
      rw [UInt16.and_assoc, (by decide : ~~~FLAG_LOCAL &&& FLAG_RREQ = FLAG_RREQ), or_and_u16 _ _ _ (by decide), h1]
      rfl
    rw [hrq]
    rfl
  · unfold markSent stripSubject
    split
    · exact ⟨hx.to, hx.frm, hx.date, rfl, rfl, ls, l1, l2⟩
    · exact ⟨hx.to, hx.frm, hx.date, rfl, rfl, ls, l1, l2⟩
  · unfold markSent stripSubject
    split
    · exact congrArg (fun s => stripRe (stripRe s)) hx.subject
    · exact hx.subject

/-! ## On the way -/

/-- The packet of a netmail from `v` to `w`. -/
def nmPkt (n : Net) (v w : Nat) (aka : Node4D) (y : MemMsg) : Pkt :=
  let nd := findNode (n.start v).cfg.nodes (n.addr w)
  let cls := netmailClass nd y.type
  Pkt.finish ⟨n.addr w, aka, cls, pktHeader aka (n.addr w) (createPassword nd cls) n.date ++ (toRaw y y.text.flatten).bytes⟩

theorem via_all {aka : Nat → Node4D} {k : Nat} {ls : List Str} (h : ViaLines aka k ls) : ∀ l ∈ ls, ∃ j time, TimeText time ∧ l = viaText (aka j) time := by
  intro l hl
  obtain ⟨j, hj⟩ := List.getElem?_of_mem hl
  have hjk : j < k := by
    rw [← h.1]
    exact (List.getElem?_eq_some_iff.1 hj).1
  obtain ⟨t, t1, t2⟩ := h.2 j hjk
  rw [hj, Option.some.injEq] at t2
  exact ⟨j, t, t1, t2⟩

theorem endsCR_right {a b : Str} (h : EndsCR (a ++ b)) : EndsCR b := by
  rcases List.eq_nil_or_concat b with rfl | ⟨b', c, rfl⟩
  · exact .inl rfl
  · rcases h with h | h
    · simp at h
    · right
      rw [List.concat_eq_append, ← List.append_assoc, List.getLast?_concat] at h
      rw [List.concat_eq_append, List.getLast?_concat]
      exact h

theorem endsCR_append {a b : Str} (ha : EndsCR a) (hb : EndsCR b) : EndsCR (a ++ b) := by
  rcases hb with rfl | hb
  · simpa using ha
  · right
    rw [List.getLast?_append, hb]; rfl

theorem area_prefix {t u : Str} (h : ¬ b!"AREA:" <+: t) (ht : t.getLast? = some 13) : ¬ b!"AREA:" <+: t ++ u := by
  intro hp
  rcases Nat.lt_or_ge t.length 5 with hl | hl
  · have : t <+: b!"AREA:" := by
      rw [List.prefix_iff_eq_take]
      have := List.prefix_iff_eq_take.1 hp
      have e : (t ++ u).take 5 = b!"AREA:" := this.symm
      rw [← e, List.take_take, Nat.min_eq_left (by omega), List.take_left']
      rfl
    have hm := this.subset (List.mem_of_getLast? ht)
    revert hm; decide
  · exact h (List.prefix_of_prefix_length_le hp (List.prefix_append t u) hl)

theorem shortLines_vias {aka : Nat → Node4D} {ls : List Str} (h : ∀ l ∈ ls, ∃ j time, TimeText time ∧ l = viaText (aka j) time) : ShortLines ls.flatten ∧ EndsCR ls.flatten ∧ NoNul ls.flatten := by
  induction ls with
  | nil => exact ⟨shortLines_short (by simp), .inl rfl, by simp [NoNul]⟩
  | cons l ls ih =>
    obtain ⟨i1, i2, i3⟩ := ih (fun l hl => h l (by simp [hl]))
    obtain ⟨j, t, t1, rfl⟩ := h l (by simp)
    obtain ⟨v1, v2, v3, v4, v5, v6⟩ := via_line (aka := aka j) t1
    have he : EndsCR (viaText (aka j) t) := by
      obtain ⟨q, e, -⟩ := v1
      rw [e]; right; simp
    rw [List.flatten_cons]
    refine ⟨shortLines_append (shortLines_short (by omega)) i1 he, endsCR_append he i2, ?_⟩
    unfold NoNul at *
    simp only [List.mem_append, not_or]
    exact ⟨v2, i3⟩

theorem nm_arrives {n : Net} {m y : MemMsg} {len k v w : Nat} {aka : Nat → Node4D} (hj : n.junk.length = 14) (hz : (n.addr w).zone ≠ 0) (hown : ∃ b ∈ (n.start w).cfg.akas, b.node = n.addr w)
    (hp : PostedNetmail m len aka) (hk : k < len) (h : Forwards n m v w (aka k)) (hy : Leaves m aka (k + 1) y) :
    ∃ x, readPkt (pktCfgOf (n.start w).cfg (n.zone w)) (fun _ _ => true) (fun _ => false) n.junk (nmPkt n v w (aka k) y).data = .ok (some (.done, [x])) ∧ Travels m aka (k + 1) x := by
  obtain ⟨ls, l1, l2⟩ := hy.text
  obtain ⟨force, body, b1, b2, b3⟩ := hp.text
  have hvia := via_all l1
  obtain ⟨s1, s2, s3⟩ := shortLines_vias hvia
  have hm0 : EndsCR m.text.flatten := endsCR_chunks hp.chunks.2
  have hml : m.text.flatten.getLast? = some 13 := by
    rcases hm0 with e | e
    · obtain ⟨p, r, q1, -, q3, -⟩ := hp.says
      rw [e] at q1
      simp at q1
      exact absurd q1.2 q3
    · exact e
  have hbody : EndsCR body := endsCR_right (by rw [← b1]; exact hm0)
  have hpk : Packable y := ⟨by rw [hy.date]; exact hp.strings.date, by rw [hy.to]; exact hp.strings.to, by rw [hy.frm]; exact hp.strings.frm, by rw [hy.subject]; exact hp.strings.subject⟩
  have hty : y.text.flatten = (netmailKludgeLines force y.orig y.dest).flatten ++ (body ++ ls.flatten) := by rw [l2, b1, hy.orig, hy.dest, List.append_assoc]
  have hna : ¬ b!"AREA:" <+: y.text.flatten := by rw [l2]; exact area_prefix hp.noArea hml
  have hfl : ∀ l ∈ ls, FullLine l := by
    intro l hl
    obtain ⟨j, t, t1, rfl⟩ := hvia l hl
    exact (via_line t1).1
  have hpb : pieces (body ++ ls.flatten) = pieces body ++ ls := by
    have := pieces_full ls [] hfl
    rw [List.append_nil, show pieces [] = [] from rfl, List.append_nil] at this
    rw [pieces_append _ _ hbody, this]
  have hsafe : ∀ l ∈ pieces (body ++ ls.flatten), SafeKludge l ∧ ¬ AddrKludge l ∧ ¬ (1 :: b!"RESCANNED") <+: l := by
    intro l hl
    rw [hpb] at hl
    rcases List.mem_append.1 hl with hl | hl
    · exact b2 l hl
    · obtain ⟨j, t, t1, rfl⟩ := hvia l hl
      exact (via_line t1).2.2.2
  have hpt : pieces y.text.flatten = netmailKludgeLines force y.orig y.dest ++ pieces (body ++ ls.flatten) := by
    rw [hty]; exact pieces_full _ _ (kludge_full force y.orig y.dest)
  obtain ⟨x, x0, x1, x2, x3, x4, x5, x6, x7, x8, x9, x10, x11, x12, x13, x14⟩ :=
    netmail_roundtrip (pktCfgOf (n.start w).cfg (n.zone w)) (aka k) (n.addr w) y hpk force (body ++ ls.flatten) hty hna (fun l hl => ⟨(hsafe l hl).1, (hsafe l hl).2.1⟩)
  -- the pieces of the reading
  obtain ⟨z, z1, z2⟩ : ∃ z, addLines (rawStart (pktCfgOf (n.start w).cfg (n.zone w)) (aka k) (n.addr w) (toRaw y y.text.flatten)) (pieces y.text.flatten) = .ok (some z) ∧ x = { z with flags := z.flags ||| 4 } := by
    have x0' := x0
    unfold interpMsg at x0'
    rw [interpText_plain _ _ (by exact hna), show (toRaw y y.text.flatten).text = y.text.flatten from rfl] at x0'
    split at x0'
    · cases x0'
    · cases x0'
    · next z e =>
      cases x0'
      exact ⟨z, e, rfl⟩
  have hst := rawStart_toRaw (pktCfgOf (n.start w).cfg (n.zone w)) (aka k) (n.addr w) y y.text.flatten
  have hinv := rawStart_inv (pktCfgOf (n.start w).cfg (n.zone w)) (aka k) (n.addr w) y y.text.flatten hpk
  generalize rawStart (pktCfgOf (n.start w).cfg (n.zone w)) (aka k) (n.addr w) (toRaw y y.text.flatten) = st0 at *
  have harea : st0.area = [] := by rw [hst]
  have htext : st0.text = [] := by rw [hst]
  have hkl : ∀ l ∈ netmailKludgeLines force y.orig y.dest, SafeKludge l ∧ ¬ (1 :: b!"RESCANNED") <+: l := by
    intro l hl
    refine ⟨?_, ?_⟩
    · obtain ⟨q, rfl, -⟩ := kludge_full force y.orig y.dest l hl
      intro _
      right; left; simp
    · simp only [netmailKludgeLines, List.mem_append, List.mem_ite_nil_right, List.mem_singleton] at hl
      rcases hl with (⟨_, rfl⟩ | ⟨_, rfl⟩) | ⟨_, rfl⟩ <;> simp
  have hall : ∀ l ∈ pieces y.text.flatten, SafeKludge l ∧ ¬ (1 :: b!"RESCANNED") <+: l := by
    intro l hl
    rw [hpt] at hl
    rcases List.mem_append.1 hl with hl | hl
    · exact hkl l hl
    · exact ⟨(hsafe l hl).1, (hsafe l hl).2.2⟩
  have hzf : z.flags = 0 := by
    rw [addLines_flags _ harea (fun l hl => (hall l hl).2) z1, hst]
    rfl
  have hzi : MsgInv z := by
    obtain ⟨z', q1, q2, -⟩ := addLines_text st0 (pieces y.text.flatten) hinv (fun l hl => pieces_len hl) (fun _ l hl => (hall l hl).1) (fun hne => absurd harea hne) (fun l _ hc => hc.1 harea)
    rw [z1] at q1
    cases q1
    exact q2
  have hzw : Whole z.text := by
    refine whole_lines _ harea hinv.text (by rw [htext]; exact ⟨by simp, by simp⟩) (fun l hl => by have := pieces_len hl; omega) ?_ z1
    rw [htext, pieces_flatten, List.flatten_nil, List.nil_append, l2]
    exact shortLines_append hp.short s1 hm0
  refine ⟨x, ?_, ?_⟩
  · have ho : fromAddr (findNode (n.start v).cfg.nodes (n.addr w)) (aka k) = aka k := by
      unfold fromAddr
      cases hn : findNode (n.start v).cfg.nodes (n.addr w) with
      | none => rfl
      | some nd => simp [(h.sends nd hn).1]
    generalize hcls : netmailClass (findNode (n.start v).cfg.nodes (n.addr w)) y.type = cls
    generalize hpw : createPassword (findNode (n.start v).cfg.nodes (n.addr w)) cls = pw
    have hP : PktHolds (nmPkt n v w (aka k) y, [⟨n.addr w, aka k, cls, pw, n.date, toRaw y y.text.flatten⟩]) [0, 0] := by
      refine ⟨by simp, ⟨⟨n.addr w, aka k, cls, pw, n.date, toRaw y y.text.flatten⟩, List.mem_singleton_self _, ?_⟩, ?_, hz, h.sender.1⟩
      · simp [nmPkt, Pkt.finish, hcls, hpw]
      · intro o ho
        simp only [List.mem_singleton] at ho
        subst ho
        simp [nmPkt, Pkt.finish, Pkt.key, WOp.key, hcls]
    refine packet_read (pktCfgOf (n.start w).cfg (n.zone w)) n.junk _ hP hj ?_ h.sender.2 ?_ ?_ [x] ?_
    · intro o ho
      simp only [List.mem_singleton] at ho
      subst ho
      refine toRaw_ok _ _ hpk ?_
      rw [l2]
      have := hp.noNul
      unfold NoNul at *
      simp only [List.mem_append, not_or]
      exact ⟨this, s3⟩
    · intro _ _
      obtain ⟨b, h1, h2⟩ := hown
      refine ⟨b, h1, ?_⟩
      show compare4D b.node (n.addr w) = 0
      rw [h2]; exact (compare4D_eq_zero_iff _ _).2 ⟨rfl, rfl, rfl, .inl rfl⟩
    · intro o ho
      simp only [List.mem_singleton] at ho
      subst ho
      have hpw2 : NoNul pw ∧ pw.length ≤ 8 := by
        rw [← hpw]
        unfold createPassword
        cases hn : findNode (n.start v).cfg.nodes (n.addr w) with
        | none => exact ⟨by simp [NoNul], by simp⟩
        | some nd =>
          dsimp only
          split
          · exact (h.sends nd hn).2
          · exact ⟨by simp [NoNul], by simp⟩
      refine ⟨hpw2.1, hpw2.2, .inr ?_⟩
      intro nd' hn'
      rcases h.password nd' hn' with e | ⟨nd, e1, e2, e3⟩
      · exact .inl e
      · right
        rw [← hpw, e1]
        unfold createPassword
        simp only [e2, Bool.not_false, Bool.or_true, if_true]
        exact e3
    · simp only [List.map_cons, List.map_nil]
      rw [← x0]
      rfl
  · have hxf : x.flags = 4 := by rw [z2]; show z.flags ||| 4 = 4; rw [hzf]; rfl
    have hxt : x.text = z.text := by rw [z2]
    refine ⟨x2, x3.trans hy.to, x4.trans hy.frm, x5.trans hy.subject, x6.trans hy.date, ?_, ?_, ?_, ?_, ?_, ?_, ls, l1, x1.trans l2⟩
    · unfold MemMsg.has
      rw [hxf]
      decide
    · rw [x7]; exact hy.attr
    · by_cases hi : HasIntl force y.orig y.dest
      · rw [(x13 hi).1, hy.orig, if_neg hp.zones.1]
      · rw [(x14 hi).1]
        dsimp only
        rw [if_pos rfl, x9, hy.orig]
        rcases b3 with e | e
        · rw [hy.orig, hy.dest] at hi; exact absurd e hi
        · rw [e k hk]
    · by_cases hi : HasIntl force y.orig y.dest
      · rw [(x13 hi).2, hy.dest, if_neg hp.zones.2]
      · rw [(x14 hi).2]
        dsimp only
        rw [if_neg h.sender.1, hy.dest]
        rcases b3 with e | e
        · rw [hy.orig, hy.dest] at hi; exact absurd e hi
        · rw [e k hk]
          have : m.orig.zone = m.dest.zone := by
            apply Classical.byContradiction
            intro hne
            rw [hy.orig, hy.dest] at hi
            exact hi (.inl hne)
          rw [this]
    · rw [z2]
      exact ⟨hzi.text, hzi.area, hzi.to, hzi.frm, hzi.subject, hzi.date, hzi.msgid, hzi.reply, hzi.seenBy, hzi.path⟩
    · rw [hxt]
      refine whole_ends hzw ?_
      rw [← hxt, x1, l2]
      exact endsCR_append hm0 s2

/-! ## The runs -/

/-- What a system of the route has done with the netmail. -/
def NmDone (n : Net) (m : MemMsg) (len : Nat) (hop : Nat → Nat) (aka : Nat → Node4D) (i k : Nat) (t : HSt) : Prop :=
  if k < len then ∃ y, t = { n.start (hop k) with log := (n.start (hop k)).log ++ [.netmail (n.addr (hop (k + 1))) (aka k) y] } ∧ Leaves m aka (k + 1) y
  else ∃ y, t = { n.start (hop k) with log := (n.start (hop k)).log ++ [.importMsg i y] } ∧ StoredNetmail m len aka y ∧
    y.subject = if (n.start (hop k)).cfg.has CFG_STRIPRE then stripRe (stripRe m.subject) else m.subject

/-- The packets that leave it. -/
def NmLeft (n : Net) (m : MemMsg) (len : Nat) (hop : Nat → Nat) (aka : Nat → Node4D) (k : Nat) (ps : List Pkt) : Prop :=
  if k < len then ∃ y, ps = [nmPkt n (hop k) (hop (k + 1)) (aka k) y] ∧ Leaves m aka (k + 1) y else ps = []

theorem handleAll_one {f : MemMsg → M Unit} {x : MemMsg} {s t : HSt} (h : f x s = .ok () t) : handleAll f [x] s = .ok () t := by
  unfold handleAll
  rw [bind_of_ok h]
  rfl

section
variable {n : Net} {m : MemMsg} {len i : Nat} {hop : Nat → Nat} {aka : Nat → Node4D} {a : Area}

theorem nm_step (h : NmRoute n m len hop aka i a) {k : Nat} (hk : k ≤ len) {x : MemMsg} (hx : Travels m aka k x) :
    ∃ t ps, Handles n (hop k) [x] (n.start (hop k)) t ps ∧ NmDone n m len hop aka i k t ∧ NmLeft n m len hop aka k ps := by
  by_cases hl : k < len
  · obtain ⟨y, y1, y2⟩ := nm_forwards h.depth (h.forwards k hl) hx
    refine ⟨_, [nmPkt n (hop k) (hop (k + 1)) (aka k) y], ⟨handleAll_one y1, _, writeNetMail n.maxSize n.date (n.start (hop k)).cfg.nodes y (n.addr (hop (k + 1))) (aka k) {}, rfl, rfl, ?_⟩, ?_, ?_⟩
    · have ho : fromAddr (findNode (n.start (hop k)).cfg.nodes (n.addr (hop (k + 1)))) (aka k) = aka k := by
        unfold fromAddr
        cases hn : findNode (n.start (hop k)).cfg.nodes (n.addr (hop (k + 1))) with
        | none => rfl
        | some nd => simp [((h.forwards k hl).sends nd hn).1]
      rw [writeNetMail_op, ho]
      rfl
    · unfold NmDone
      rw [if_pos hl]
      exact ⟨y, rfl, y2⟩
    · unfold NmLeft
      rw [if_pos hl]
      exact ⟨y, rfl, y2⟩
  · have : k = len := by omega
    subst this
    obtain ⟨y, y1, y2, y3⟩ := nm_imports h.depth h.posted h.receives hx
    refine ⟨_, [], ⟨handleAll_one y1, [.importMsg i y], {}, rfl, rfl, rfl⟩, ?_, ?_⟩
    · unfold NmDone
      rw [if_neg hl]
      exact ⟨y, rfl, y2, y3⟩
    · unfold NmLeft
      rw [if_neg hl]

/-- What holds in every state of a run. -/
structure NmInv (n : Net) (m : MemMsg) (len : Nat) (hop : Nat → Nat) (aka : Nat → Node4D) (i k : Nat) (vs : List Nat) (s : NetSt) : Prop where
  le : k ≤ len
  visited : vs = (List.range (k + 1)).map hop
  rest : ∀ v, v ∉ vs → s.sys v = n.start v
  done : ∀ j, j ≤ k → NmDone n m len hop aka i j (s.sys (hop j))
  left : NmLeft n m len hop aka k s.mail

theorem mem_visited {k j : Nat} (h : ∀ j k, j ≤ len → k ≤ len → hop j = hop k → j = k) (hk : k ≤ len) (hj : j ≤ len) : hop j ∈ (List.range (k + 1)).map hop ↔ j ≤ k := by
  constructor
  · intro hm
    obtain ⟨l, l1, l2⟩ := List.mem_map.1 hm
    rw [List.mem_range] at l1
    have := h l j (by omega) hj l2
    omega
  · intro hjk
    exact List.mem_map.2 ⟨j, List.mem_range.2 (by omega), rfl⟩

theorem nm_inv (h : NmRoute n m len hop aka i a) {vs : List Nat} {s : NetSt} (hr : NetRun n (hop 0) m vs s) : ∃ k, NmInv n m len hop aka i k vs s := by
  induction hr with
  | post t ps hh =>
    obtain ⟨t', ps', h1, h2, h3⟩ := nm_step h (Nat.zero_le _) (travels_start h.posted)
    obtain ⟨rfl, rfl⟩ := handles_unique hh h1
    refine ⟨0, Nat.zero_le _, rfl, ?_, ?_, h3⟩
    · intro v hv
      simp only [List.mem_singleton] at hv
      simp [hv]
    · intro j hj
      have : j = 0 := by omega
      subst this
      simpa using h2
  | toss vs s l1 l2 p v ms t ps before mail lt to read hh ih =>
    obtain ⟨k, ih⟩ := ih
    have hleft := ih.left
    unfold NmLeft at hleft
    by_cases hk : k < len
    · rw [if_pos hk] at hleft
      obtain ⟨y, y1, y2⟩ := hleft
      rw [mail] at y1
      have hl1 : l1 = [] ∧ p = nmPkt n (hop k) (hop (k + 1)) (aka k) y ∧ l2 = [] := by
        cases l1 with
        | nil => simpa using y1
        | cons q l1 => simp at y1
      obtain ⟨rfl, rfl, rfl⟩ := hl1
      have hv : v = hop (k + 1) := h.addresses.distinct v (hop (k + 1)) lt (h.inside _ (by omega)) (by rw [← to]; rfl)
      subst hv
      have hnot : hop (k + 1) ∉ vs := by
        rw [ih.visited, mem_visited h.once (by omega) (by omega)]
        omega
      obtain ⟨x, x1, x2⟩ := nm_arrives (v := hop k) (w := hop (k + 1)) h.buffer (h.addresses.zone _ (h.inside _ (by omega))) (h.own _ (by omega)) h.posted hk (h.forwards k hk) y2
      rw [ih.rest _ hnot, x1] at read
      simp only [Except.ok.injEq, Option.some.injEq, Prod.mk.injEq, true_and] at read
      subst read
      rw [ih.rest _ hnot] at hh
      obtain ⟨t', ps', h1, h2, h3⟩ := nm_step h (by omega) x2
      obtain ⟨rfl, rfl⟩ := handles_unique hh h1
      refine ⟨k + 1, by omega, ?_, ?_, ?_, by simpa using h3⟩
      · rw [ih.visited, List.range_succ (n := k + 1)]
        simp
      · intro w hw
        simp only [List.mem_append, List.mem_singleton, not_or] at hw
        simp only [hw.2, if_false]
        exact ih.rest w hw.1
      · intro j hj
        by_cases hjk : j = k + 1
        · subst hjk
          simpa using h2
        · have hne : hop j ≠ hop (k + 1) := fun e => hjk (h.once j (k + 1) (by omega) (by omega) e)
          simp only [hne, if_false]
          exact ih.done j (by omega)
    · rw [if_neg hk] at hleft
      rw [hleft] at mail
      simp at mail

end

end CM
