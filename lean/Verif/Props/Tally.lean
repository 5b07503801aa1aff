import Verif.Spec.Tally
import Verif.Lemmas.Tally
import Verif.Props.Echo
import Verif.Props.Attach
import Verif.Lemmas.Example

/-! # The totals of a run (C117) -/

set_option linter.unusedSimpArgs false

namespace CM

theorem badArea_find (cfg : Config) : BadArea cfg (cfg.areas.findIdx? (·.type == .bad)) := by
  cases h : cfg.areas.findIdx? (·.type == .bad) with
  | none =>
    rw [List.findIdx?_eq_none_iff] at h
    intro a ha e
    have := h a ha
    rw [e] at this
    exact absurd this (by decide)
  | some i =>
    obtain ⟨hi, h1, h2⟩ := List.findIdx?_eq_some_iff_getElem.1 h
    refine ⟨⟨cfg.areas[i], List.getElem?_eq_getElem hi, by simpa using h1⟩, fun j hj b hb e => ?_⟩
    obtain ⟨hj', e'⟩ := List.getElem?_eq_some_iff.1 hb
    have := h2 j hj
    rw [e', e] at this
    exact absurd rfl this

theorem stores_iff (cfg : Config) (i : Nat) : (cfg.areas[i]?.bind (·.base)).isSome = true ↔ Stores cfg i := by
  unfold Stores
  cases cfg.areas[i]? with
  | none => simp
  | some a => simp

theorem writeBadT_ok {env : Env} {m : MemMsg} {r : Str} {s s' : HSt} {t : Tally} (h : writeBadT env m r s = .ok t s') :
    ∃ k, t = { texts := k.toList } ∧ PutAside s s' k := by
  unfold writeBadT at h
  rw [get_bind] at h
  have hb := badArea_find s.cfg
  cases hk : s.cfg.areas.findIdx? (·.type == .bad) with
  | none =>
    rw [hk] at h hb
    cases h
    exact ⟨none, rfl, hb, [], by simp, .inl ⟨rfl, by simp⟩⟩
  | some i =>
    rw [hk] at h hb
    dsimp only at h
    split at h
    · next hs =>
      rw [bind_ok] at h
      obtain ⟨_, u, h1, h2⟩ := h
      cases h2
      rw [importMsg_ok] at h1
      exact ⟨some i, rfl, hb, _, h1.2, .inr ⟨i, _, rfl, (stores_iff _ _).1 hs, rfl⟩⟩
    · next hs =>
      cases h
      exact ⟨some i, rfl, hb, [], by simp, .inl ⟨rfl, fun j hj => by cases hj; exact fun x => hs ((stores_iff _ _).2 x)⟩⟩

theorem refuseT_ok {env : Env} {m : MemMsg} {r : Str} {s s' : HSt} {t : Tally} (h : refuseT env m r s = .ok t s') :
    ∃ k, t = { bad := 1, texts := k.toList } ∧ PutAside s s' k := by
  unfold refuseT at h
  rw [bind_ok] at h
  obtain ⟨t1, u, h1, h2⟩ := h
  cases h2
  obtain ⟨k, rfl, hp⟩ := writeBadT_ok h1
  exact ⟨k, by simp [Tally.add], hp⟩

theorem sendEcho_flags {env : Env} {aka : Node4D} {m m' : MemMsg} {l : Link} {s s' : HSt} (h : sendEcho env aka m l s = .ok m' s') :
    m'.flags = m.flags ∧ ∃ e, e.sends = true ∧ (∀ i, e.stores i = false) ∧ s' = { s with log := s.log ++ [e] } := by
  unfold sendEcho at h
  split at h
  · split at h
    · cases h
      exact ⟨rfl, _, rfl, fun _ => rfl, rfl⟩
    · cases h
  · cases h
  · cases h

theorem sendAllT_ok {env : Env} {aka : Node4D} (ls : List Link) : ∀ {m : MemMsg} {r : MemMsg × Nat} {s s' : HSt}, sendAllT env aka m ls s = .ok r s' →
    r.1.flags = m.flags ∧ ∃ es, s' = { s with log := s.log ++ es } ∧ es.length = r.2 ∧ ∀ e ∈ es, e.sends = true ∧ ∀ i, e.stores i = false := by
  induction ls with
  | nil => intro m r s s' h; cases h; exact ⟨rfl, [], by simp, rfl, by simp⟩
  | cons l ls ih =>
    intro m r s s' h
    simp only [sendAllT] at h
    rw [get_bind] at h
    split at h
    · rw [bind_ok] at h
      obtain ⟨m1, u, h1, h2⟩ := h
      rw [bind_ok] at h2
      obtain ⟨r1, u2, h2, h3⟩ := h2
      cases h3
      obtain ⟨f1, e, e1, e2, rfl⟩ := sendEcho_flags h1
      obtain ⟨f2, es, rfl, l2, h4⟩ := ih h2
      refine ⟨f2.trans f1, e :: es, by simp, by simp [l2], ?_⟩
      intro x hx
      rcases List.mem_cons.1 hx with rfl | hx
      · exact ⟨e1, e2⟩
      · exact h4 x hx
    · exact ih h

theorem has_of_flags {m m' : MemMsg} (h : m'.flags = m.flags) (x : UInt16) : m'.has x = m.has x := by
  unfold MemMsg.has; rw [h]

theorem sends_count {es : List Effect} (h : ∀ e ∈ es, e.sends = true ∧ ∀ i, e.stores i = false) (i : Nat) :
    es.countP (·.sends) = es.length ∧ es.countP (·.stores i) = 0 :=
  ⟨List.countP_eq_length.2 fun e he => (h e he).1, List.countP_eq_zero.2 fun e he => by rw [(h e he).2 i]; decide⟩

theorem deliverEchoT_ok {env : Env} {self : MemMsg → M Unit} {i : Nat} {a : Area} {aka : Node4D} {ls : List Link} {m m0 : MemMsg} {s0 s s' : HSt} {t : Tally}
    (h : deliverEchoT env self i a aka ls m s = .ok t s') (hl : s.log = s0.log) (ha : AreaOf s.cfg m0.area i a)
    (hm : ∃ sb p, m = { m0 with type := PKTS_ECHOMAIL, seenBy := sb, path := p }) : EchoCount env self m0 s0 s' t := by
  unfold deliverEchoT at h
  rw [bind_ok] at h
  obtain ⟨m2, s2, hf, h⟩ := h
  split at h
  · next hk => cases h; exact .killed s m m2 hl hm hf hk
  · next hk =>
    have hk : m2.has MMFLAG_KILL = false := by simpa using hk
    rw [bind_ok] at h
    obtain ⟨r, s3, hs, h⟩ := h
    have key : r.1.flags = m2.flags ∧ ∃ es, s3 = { s2 with log := s2.log ++ es } ∧ es.length = r.2 ∧ ∀ e ∈ es, e.sends = true ∧ ∀ i, e.stores i = false := by
      split at hs
      · cases hs; exact ⟨rfl, [], by simp, rfl, by simp⟩
      · exact sendAllT_ok ls hs
    obtain ⟨hfl, es, rfl, hlen, hes⟩ := key
    obtain ⟨c1, c2⟩ := sends_count hes i
    rw [has_of_flags hfl, has_of_flags hfl] at h
    have none : ¬ (m2.has MMFLAG_TWIT = false ∧ m2.has MMFLAG_EXPORTED = false ∧ a.base.isSome = true) → t = { texts := [i], written := r.2 } →
        s' = { s2 with log := s2.log ++ es } → EchoCount env self m0 s0 s' t := by
      rintro hn rfl rfl
      have := EchoCount.kept (env := env) (self := self) (m := m0) (s := s0) s s2 m m2 i a es hl ha hm hf hk (s' := { s2 with log := s2.log ++ es }) rfl (fun e he => .inl (hes e he).1)
        (by rw [if_neg hn, c2])
      rw [c1, c2, hlen] at this
      exact this
    split at h
    · next ht => cases h; exact none (by simp [ht]) rfl rfl
    · next ht =>
      split at h
      · next hi =>
        simp only [Bool.and_eq_true, Bool.not_eq_true'] at hi
        rw [get_bind, bind_ok] at h
        obtain ⟨_, u, h1, h2⟩ := h
        cases h2
        rw [importMsg_ok] at h1
        have c3 : ∀ x, (es ++ [Effect.importMsg i x]).countP (·.stores i) = 1 := by
          intro x; rw [List.countP_append, c2]; simp [Effect.stores]
        have c4 : ∀ x, (es ++ [Effect.importMsg i x]).countP (·.sends) = r.2 := by
          intro x; rw [List.countP_append, c1, hlen]; simp [Effect.sends]
        have := EchoCount.kept (env := env) (self := self) (m := m0) (s := s0) s s2 m m2 i a (es ++ [.importMsg i (markSent (stripSubject s2.cfg r.1))]) hl ha hm hf hk (s' := s')
          (by rw [h1.2]; simp) (fun e he => by
            rcases List.mem_append.1 he with he | he
            · exact .inl (hes e he).1
            · rw [List.mem_singleton] at he; subst he; exact .inr (by simp [Effect.stores]))
          (by rw [if_pos ⟨by simpa using ht, hi.1, hi.2⟩, c3])
        rw [c3, c4] at this
        exact this
      · next hi =>
        cases h
        refine none ?_ rfl rfl
        rintro ⟨-, h2, h3⟩
        exact hi (by simp [h2, h3])

theorem dupeCheck_ok {a : Area} {m : MemMsg} {s s' : HSt} {b : Bool} (h : dupeCheck a m s = .ok b s') :
    s'.log = s.log ∧ s'.cfg = s.cfg ∧ (b = true → s.cfg.dupeMode ≠ 0 ∧ checkDupe s.cfg.dupeSize s.dupe m.msgid m.area = .ok (s'.dupe, true)) := by
  unfold dupeCheck at h
  rw [get_bind] at h
  split at h
  · next hc =>
    rw [bind_ok] at h
    obtain ⟨r, u, h1, h⟩ := h
    rw [lift_ok] at h1
    obtain ⟨h1, rfl⟩ := h1
    rw [set_bind] at h
    cases h
    refine ⟨rfl, rfl, fun hb => ⟨?_, ?_⟩⟩
    · simp only [Bool.and_eq_true, decide_eq_true_eq] at hc; exact hc.1.1
    · rw [h1]; congr 1; rw [← hb]
  · cases h; exact ⟨rfl, rfl, by simp⟩

/-- What an echomail is counted as. -/
theorem echo_counted {env : Env} {self : MemMsg → M Unit} {m : MemMsg} {s s' : HSt} {t : Tally} (h : handleEchomailT env self m s = .ok t s') :
    EchoCount env self m s s' t := by
  unfold handleEchomailT at h
  dsimp only at h
  rw [bind_ok] at h
  obtain ⟨i, s1, h1, h⟩ := h
  rw [get_bind] at h
  have hs : s1.log = s.log ∧ s1.dupe = s.dupe ∧ ∃ a, AreaOf s1.cfg m.area i a := by
    rcases findOrAddArea_ok h1 with ⟨h2, rfl⟩ | ⟨h2, rfl, a, h3, -, -, -, -, rfl⟩
    · exact ⟨rfl, rfl, findArea_areaOf _ _ _ h2⟩
    · refine ⟨rfl, rfl, a, by simp, by rw [h3], fun j hj b hb => ?_⟩
      dsimp only at hb
      rw [List.getElem?_append_left hj] at hb
      exact findArea_none _ _ h2 b (List.mem_of_getElem? hb)
  obtain ⟨hl, hd, a, ha⟩ := hs
  rw [ha.1] at h
  dsimp only at h
  split at h
  · obtain ⟨k, rfl, hp⟩ := refuseT_ok h
    exact .refused s1 k hl hp
  · split at h
    · cases h
    · cases hr : resolveLinks s1.cfg.nodes a.tossNodes with
      | none => rw [hr] at h; cases h
      | some ls =>
        rw [hr] at h
        dsimp only at h
        cases hdn : denied { m with type := PKTS_ECHOMAIL } ls with
        | some r =>
          rw [hdn] at h
          obtain ⟨k, rfl, hp⟩ := refuseT_ok h
          exact .refused s1 k hl hp
        | none =>
          rw [hdn] at h
          dsimp only at h
          cases hk : a.aka.bind (s1.cfg.akas[·]?) with
          | none => rw [hk] at h; cases h
          | some aka =>
            rw [hk] at h
            dsimp only at h
            unfold tossEchoT at h
            rw [get_bind] at h
            dsimp only at h
            rw [set_bind, bind_ok] at h
            obtain ⟨p, s2, h2, h⟩ := h
            have e2 : s2 = { s1 with seen := markSeen s1.cfg a aka.node ls (zoneSeenBy aka.node { m with type := PKTS_ECHOMAIL }) s1.seen } := by
              split at h2
              · exact (liftO_ok.1 h2).2.symm
              · cases h2; rfl
            rw [bind_ok] at h
            obtain ⟨b, s3, h3, h⟩ := h
            obtain ⟨l3, c3, d3⟩ := dupeCheck_ok h3
            rw [e2] at l3 c3 d3
            dsimp only at l3 c3 d3
            cases b with
            | true =>
              rw [if_pos rfl, bind_ok] at h
              obtain ⟨t1, s4, h4, h5⟩ := h
              cases h5
              obtain ⟨hm, hc⟩ := d3 rfl
              split at h4
              · next h1' =>
                obtain ⟨k, rfl, hp⟩ := writeBadT_ok h4
                exact .duplicate s1 s3 i a s3.dupe k ha hd hm hc (l3.trans hl) rfl (.inl ⟨h1', hp⟩)
              · next h1' =>
                cases h4
                exact .duplicate s1 s' i a s'.dupe none ha hd hm hc (l3.trans hl) rfl (.inr ⟨h1', rfl, rfl⟩)
            | false =>
              rw [if_neg (by decide), bind_ok] at h
              obtain ⟨sb, s4, h4, h⟩ := h
              rw [lift_ok] at h4
              obtain ⟨-, rfl⟩ := h4
              exact deliverEchoT_ok h (l3.trans hl) (by rw [c3]; exact ha) ⟨_, _, rfl⟩

theorem checkLoopT_ok {env : Env} {m : MemMsg} {s s' : HSt} {t : Tally} (h : checkLoopT env m s = .ok t s') :
    LoopCount m s s' t := by
  unfold checkLoopT at h
  rw [get_bind] at h
  split at h
  · next hc =>
    rw [bind_ok] at h
    obtain ⟨l, s1, h1, h⟩ := h
    rw [lift_ok] at h1
    obtain ⟨h1, rfl⟩ := h1
    split at h
    · next hl =>
      simp only [Bool.and_eq_true, beq_iff_eq, Bool.not_eq_true'] at hl hc
      rw [bind_ok] at h
      obtain ⟨c, s2, h2, h⟩ := h
      have e : s2 = s := by
        unfold loopCopy at h2
        rw [bind_ok] at h2
        obtain ⟨ls, u, h3, h2⟩ := h2
        rw [lift_ok] at h3
        obtain ⟨-, rfl⟩ := h3
        rw [bind_ok] at h2
        obtain ⟨cs, u, h3, h2⟩ := h2
        cases h2
        exact (addBufs_quiet _ _).noFail h3
      subst e
      obtain ⟨k, rfl, hp⟩ := refuseT_ok h
      exact .loop k hl.2 hc.2 (by rw [h1, hl.1]) hp
    · cases h; exact .none rfl
  · cases h; exact .none rfl

theorem attachFile_log {env : Env} {m : MemMsg} {dest : Node4D} {w : Str} {s s' : HSt} (h : attachFile env m dest w s = .ok () s') :
    ∃ es, s' = { s with log := s.log ++ es } ∧ ∀ e ∈ es, e.sends = false ∧ ∀ i, e.stores i = false := by
  unfold attachFile at h
  rw [get_bind] at h
  dsimp only at h
  split at h
  · split at h
    · split at h
      · rw [emit_bind] at h; cases h
        refine ⟨_, congrArg (fun l => ({ s with log := l } : HSt)) (List.append_assoc s.log [_] [_]), ?_⟩; simp [Effect.sends, Effect.stores]
      · cases h
    · cases h; exact ⟨[_], rfl, by simp [Effect.sends, Effect.stores]⟩
  · split at h
    · rw [emit_bind] at h; cases h
      refine ⟨_, congrArg (fun l => ({ s with log := l } : HSt)) (List.append_assoc s.log [_] [_]), ?_⟩; simp [Effect.sends, Effect.stores]
    · cases h; exact ⟨[_], rfl, by simp [Effect.sends, Effect.stores]⟩

theorem attachFiles_log {env : Env} {m : MemMsg} {dest : Node4D} (ws : List Str) : ∀ {s s' : HSt}, attachFiles env m dest ws s = .ok () s' →
    ∃ es, s' = { s with log := s.log ++ es } ∧ ∀ e ∈ es, e.sends = false ∧ ∀ i, e.stores i = false := by
  induction ws with
  | nil => intro s s' h; cases h; exact ⟨[], by simp, by simp⟩
  | cons w ws ih =>
    intro s s' h
    simp only [attachFiles] at h
    rw [bind_ok] at h
    obtain ⟨_, u, h1, h2⟩ := h
    obtain ⟨es, rfl, he⟩ := attachFile_log h1
    obtain ⟨es', rfl, he'⟩ := ih h2
    refine ⟨es ++ es', by simp, fun e h => ?_⟩
    rcases List.mem_append.1 h with h | h
    · exact he e h
    · exact he' e h

theorem handleAttach_log {env : Env} {m m' : MemMsg} {dest : Node4D} {s s' : HSt} (h : handleAttach env m dest s = .ok m' s') :
    ∃ es, s' = { s with log := s.log ++ es } ∧ ∀ e ∈ es, e.sends = false ∧ ∀ i, e.stores i = false := by
  unfold handleAttach at h
  split at h
  · rw [bind_ok] at h
    obtain ⟨ws, u, h1, h⟩ := h
    obtain ⟨-, rfl⟩ := liftO_ok.1 h1
    rw [bind_ok] at h
    obtain ⟨_, u, h1, h⟩ := h
    cases h
    exact attachFiles_log ws h1
  · cases h; exact ⟨[], by simp, by simp⟩

/-- What a netmail that stays here is counted as. -/
theorem stored_counted {env : Env} {self : MemMsg → M Unit} {i : Nat} {m : MemMsg} {s s' : HSt} {t : Tally} (h : importNetmailT env self i m s = .ok t s') :
    StoredCount env self i m s s' t := by
  unfold importNetmailT at h
  split at h
  · next ht => cases h; exact .twit ht rfl
  · rw [get_bind] at h
    dsimp only at h
    have et : (stripSubject s.cfg m).text = m.text := by unfold stripSubject; split <;> rfl
    rw [et, bind_ok] at h
    obtain ⟨b, s1, h1, h⟩ := h
    have hb : s1 = s ∧ ((b = true ∧ (s.cfg.has CFG_IMPORTEMPTYNETMAIL = true ∨ hasText m.text = .ok true)) ∨
        (b = false ∧ s.cfg.has CFG_IMPORTEMPTYNETMAIL = false ∧ hasText m.text = .ok false)) := by
      split at h1
      · next hc => cases h1; exact ⟨rfl, .inl ⟨rfl, .inl hc⟩⟩
      · next hc =>
        obtain ⟨hx, rfl⟩ := lift_ok.1 h1
        refine ⟨rfl, ?_⟩
        cases b with
        | true => exact .inl ⟨rfl, .inr hx⟩
        | false => exact .inr ⟨rfl, by simpa using hc, hx⟩
    obtain ⟨rfl, hb⟩ := hb
    rw [bind_ok] at h
    obtain ⟨r, s2, h2, h⟩ := h
    rw [bind_ok] at h
    obtain ⟨_, s3, h3, h⟩ := h
    cases h
    have ends : s' = s2 ∨ answerReceipt env self r.1 s2 = .ok () s' := by
      split at h3
      · exact .inr h3
      · cases h3; exact .inl rfl
    rcases hb with ⟨rfl, hb⟩ | ⟨rfl, hb⟩
    · split at h2
      · next hs =>
        rw [Bool.true_and] at hs
        rw [bind_ok] at h2
        obtain ⟨_, u, h4, h5⟩ := h2
        cases h5
        obtain ⟨-, rfl⟩ := importMsg_ok.1 h4
        have := StoredCount.stored (env := env) (self := self) (i := i) (m := m) (s := s1) (s' := s') _ [.importMsg i _] hb (.inr ⟨(stores_iff _ _).1 hs, rfl⟩) ends
        simpa [Effect.stores] using this
      · next hs =>
        rw [Bool.true_and] at hs
        cases h2
        have := StoredCount.stored (env := env) (self := self) (i := i) (m := m) (s := s1) (s' := s') (stripSubject s1.cfg m) [] hb
          (.inl ⟨rfl, fun x => hs ((stores_iff _ _).2 x)⟩) (by rcases ends with e | e <;> simp [e])
        simpa using this
    · rw [if_neg (by simp)] at h2
      cases h2
      exact .empty _ hb.1 hb.2 ends

/-- What a netmail for others is counted as. -/
theorem route_counted {env : Env} {self : MemMsg → M Unit} {m : MemMsg} {s s' : HSt} {t : Tally} (h : routeOnT env self m s = .ok t s') :
    RouteCount env self m s s' t := by
  unfold routeOnT at h
  rw [get_bind] at h
  dsimp only at h
  generalize hm1 : ({ m with attr := routedAttr m, type := _ } : MemMsg) = m1 at h
  cases hr : routeNetmail s.cfg.nl s.cfg.routes s.cfg.changes m.dest (netmailPri s.cfg m1) with
  | none =>
    rw [hr] at h
    obtain ⟨k, rfl, hp⟩ := refuseT_ok h
    exact .lost k _ hr hp
  | some q =>
    obtain ⟨dest, pri, aka⟩ := q
    rw [hr] at h
    dsimp only at h
    rw [bind_ok] at h
    obtain ⟨t1, s1, h1, h⟩ := h
    have hl : LoopCount m s s1 t1 := by
      have := checkLoopT_ok h1
      cases this with
      | none e => exact .none e
      | loop k a1 a2 a3 a4 => exact .loop k a1 a2 a3 a4
    generalize ({ m with attr := routedAttr m, type := pri.toType } : MemMsg) = m3 at h
    cases hb : bounceReason s.cfg m3 with
    | some reason =>
      rw [hb] at h
      dsimp only at h
      rw [bind_ok] at h
      obtain ⟨_, s2, h2, h⟩ := h
      cases h
      exact .bounced s1 _ _ _ _ hl h2
    | none =>
      rw [hb] at h
      dsimp only at h
      rw [bind_ok] at h
      obtain ⟨m1, s2, h2, h⟩ := h
      rw [get_bind, bind_ok] at h
      obtain ⟨m2, s3, h3, h⟩ := h
      obtain ⟨-, rfl⟩ := liftO_ok.1 h3
      rw [bind_ok] at h
      obtain ⟨_, s4, h4, h⟩ := h
      rw [bind_ok] at h
      obtain ⟨_, s5, h5, h⟩ := h
      cases h
      obtain ⟨es, e2, he⟩ := handleAttach_log h2
      have e4 : s4 = { s2 with log := s2.log ++ [.netmail dest aka m2] } := by
        unfold sendNetmail at h4
        split at h4
        · cases h4; rfl
        · cases h4
      refine .sent s1 s2 s4 m2 dest aka es t1 hl (by rw [e2]) he e4 ?_
      split at h5
      · exact .inr h5
      · cases h5; exact .inl rfl

/-- What a netmail is counted as. -/
theorem net_counted {env : Env} {af self : MemMsg → M Unit} {m : MemMsg} {s s' : HSt} {t : Tally} (h : handleNetmailT env af self m s = .ok t s') :
    NetCount env af self m s s' t := by
  unfold handleNetmailT at h
  rw [bind_ok] at h
  obtain ⟨m1, s1, h1, h⟩ := h
  rw [bind_ok] at h
  obtain ⟨m2, s2, h2, h⟩ := h
  split at h
  · next hk => cases h; exact .killed s1 m1 m2 h1 h2 hk
  · next hk =>
    have hk : m2.has MMFLAG_KILL = false := by simpa using hk
    rw [get_bind] at h
    generalize (s2.cfg.isAka m2.dest && !m2.has MMFLAG_AUTOGEN && s2.cfg.areafixNames.any fun n => eqi n m2.to) = b at h
    rw [bind_ok] at h
    obtain ⟨_, s3, h3, h⟩ := h
    have h3' : s3 = s2 ∨ af m2 s2 = .ok () s3 := by
      split at h3
      · exact .inr h3
      · cases h3; exact .inl rfl
    split at h
    · next hc =>
      cases h
      simp only [Bool.and_eq_true, Bool.not_eq_true'] at hc
      rw [hc.1, if_pos rfl] at h3
      exact .command s1 s2 m1 m2 h1 h2 hk hc.2 h3
    · rw [get_bind] at h
      cases hn : netmailArea s3.cfg m2.dest with
      | some i => rw [hn] at h; exact .here s1 s2 s3 m1 m2 i t h1 h2 hk h3' hn (stored_counted h)
      | none => rw [hn] at h; exact .away s1 s2 s3 m1 m2 t h1 h2 hk h3' hn (route_counted h)

/-- C117. In a run every message is counted once, as what has been done with it. -/
theorem run_counted (env : Env) (af : (MemMsg → M Unit) → MemMsg → M Unit) (f : Nat) (ms : List MemMsg) : ∀ (s s' : HSt) (ts : List Tally),
    tallyRun env af (f + 1) ms s = .ok ts s' → RunCount env af f ms s s' ts := by
  induction ms with
  | nil => intro s s' ts h; cases h; exact .nil s
  | cons m r ih =>
    intro s s' ts h
    simp only [tallyRun] at h
    rw [bind_ok] at h
    obtain ⟨t, s1, h1, h⟩ := h
    rw [bind_ok] at h
    obtain ⟨us, s2, h2, h⟩ := h
    cases h
    have hm : handleMessage env af (f + 1) m s = .ok () s1 := by
      rw [← handleMessageT_forget]
      unfold M.forget
      rw [h1]
    change (if m.area = [] then handleNetmailT env (af (handleMessage env af f)) (handleMessage env af f) m
      else handleEchomailT env (handleMessage env af f) m) s = .ok t s1 at h1
    split at h1
    · next ha => exact .net m r s s1 s' t us ha hm (net_counted h1) (ih s1 s' us h2)
    · next ha => exact .echo m r s s1 s' t us ha hm (echo_counted h1) (ih s1 s' us h2)

/-- The message was killed by a filter, or there was nothing to do with it. -/
def Tally.none (t : Tally) : Bool := decide (t = {})

/-- The message was accepted as a new one of its area. -/
def Tally.new (t : Tally) : Bool := t.bad == 0 && t.dupes == 0 && !t.none

/-- An echomail is counted in exactly one way. -/
theorem echo_one {env : Env} {self : MemMsg → M Unit} {m : MemMsg} {s s' : HSt} {t : Tally} (h : EchoCount env self m s s' t) :
    t.bad + t.dupes + t.new.toNat + t.none.toNat = 1 ∧ t.routed = 0 ∧ (t.new = true → ∃ i, t.texts = [i] ∧ t.newDupes = []) ∧ t.newDupes.length = t.dupes := by
  cases h with
  | refused s1 k => simp [Tally.new, Tally.none]
  | duplicate s1 s2 i a d k => simp [Tally.new, Tally.none]
  | killed => simp [Tally.new, Tally.none]
  | kept s1 s2 m1 m2 i a es => simp [Tally.new, Tally.none]

/-- C117. Of the echomails of a run, those that are counted as bad, those that are counted as duplicates, the new ones and those that were killed make up all. -/
theorem echo_totals (env : Env) (af : (MemMsg → M Unit) → MemMsg → M Unit) (f : Nat) (ms : List MemMsg) (he : ∀ m ∈ ms, m.area ≠ []) (s s' : HSt) (ts : List Tally)
    (h : tallyRun env af (f + 1) ms s = .ok ts s') :
    (ts.map (·.bad)).sum + (ts.map (·.dupes)).sum + ts.countP Tally.new + ts.countP Tally.none = ms.length ∧ (ts.map (·.routed)).sum = 0 ∧
      (ts.flatMap (·.newDupes)).length = (ts.map (·.dupes)).sum := by
  have hr := run_counted env af f ms s s' ts h
  clear h
  induction hr with
  | nil => simp
  | echo m r s s1 s' t ts _ _ hc _ ih =>
    obtain ⟨h1, h2, h3⟩ := ih fun x hx => he x (List.mem_cons_of_mem _ hx)
    obtain ⟨e1, e2, -, e4⟩ := echo_one hc
    refine ⟨?_, by simp [e2, h2], by simp only [List.flatMap_cons, List.length_append, List.map_cons, List.sum_cons, e4, h3]⟩
    simp only [List.map_cons, List.sum_cons, List.countP_cons, List.length_cons]
    cases hn : t.new <;> cases hz : t.none <;> simp [hn, hz] at e1 ⊢ <;> omega
  | net m r s s1 s' t ts ha => exact absurd ha (he m (List.mem_cons_self ..))

namespace Ex

def tallyAf : (MemMsg → M Unit) → MemMsg → M Unit := fun _ _ => pure ()

def tallyOf (x : Out (List Tally)) : List Tally := match x with | .ok ts _ => ts | _ => []
def tallyLog (x : Out (List Tally)) : List Effect := match x with | .ok _ s => s.log | _ => []

/-- Two links, and an area for bad messages. -/
def tallyCfg : Config := { cfg [{ area b!"TEST" 0 [⟨0, 0⟩, ⟨1, 0⟩, ⟨3, 0⟩] with }, { area b!"BAD" 0 [] with type := .bad }] with dupeMode := 1 }

def tallyMsgs : List MemMsg :=
  [{ msg b!"TEST" [] with msgid := b!"1:2/4 00000001" }, { msg b!"TEST" [] with msgid := b!"1:2/4 00000001" }, msg b!"OTHER" []]

/-- A new message that is stored and sent to two nodes, its duplicate, and one for an unknown area. The last two are stored as bad messages. -/
theorem tally_example : tallyOf (tallyRun env tallyAf 2 tallyMsgs (st tallyCfg)) =
    [{ texts := [0], written := 2, imported := 1 }, { dupes := 1, newDupes := [0], texts := [1] }, { bad := 1, texts := [1] }] ∧
    (tallyLog (tallyRun env tallyAf 2 tallyMsgs (st tallyCfg))).map (fun e => (e.sends, e.stores 0, e.stores 1)) =
      [(true, false, false), (true, false, false), (false, true, false), (false, false, true), (false, false, true)] := by
  decide +kernel

/-- C14 (violated). The same message again, with the name of the area in small letters: it is the same area, but the duplicate is not found, and is stored and
sent once more. -/
theorem dupe_other_case : tallyOf (tallyRun env tallyAf 2
    [{ msg b!"TEST" [] with msgid := b!"1:2/4 00000001" }, { msg b!"Test" [] with msgid := b!"1:2/4 00000001" }] (st tallyCfg)) =
      [{ texts := [0], written := 2, imported := 1 }, { texts := [0], written := 2, imported := 1 }] := by
  decide +kernel

/-- C117 (violated). A message that a filter kills is in none of the totals, so that what was read is more than what the totals tell. -/
theorem killed_not_counted : tallyOf (tallyRun env tallyAf 2 [msg b!"TEST" []] (st { tallyCfg with filters := [⟨b!"TYPE=ECHOMAIL", [.kill]⟩] })) = [{}] := by
  decide +kernel

/-- A message of a twit is counted as a message of the area, but is not there. -/
theorem twit_counted : tallyOf (tallyRun env tallyAf 2 [msg b!"TEST" []] (st { tallyCfg with filters := [⟨b!"TYPE=ECHOMAIL", [.twit]⟩] })) =
    [{ texts := [0], written := 2 }] := by
  decide +kernel

def tallyLoop : MemMsg :=
  { orig := ⟨1, 2, 4, 0⟩, dest := ⟨1, 2, 9, 0⟩, frm := b!"A", to := b!"B", date := b!"01 Jan 00  00:00:00", subject := b!"S", flags := MMFLAG_TOSSED
    text := [[1] ++ b!"Via 1:2/3 @20000101.000000 CrashMail" ++ [13]] }

/-- C117 (violated). A loop-mail is counted both as bad and as routed. -/
theorem loop_counted_twice : tallyOf (tallyRun env tallyAf 2 [tallyLoop] (st { atCfg with loopMode := 2, areas := [{ area b!"BAD" 0 [] with type := .bad }] })) =
    [{ bad := 1, texts := [0], written := 1, routed := 1 }] := by
  decide +kernel

end Ex

end CM
