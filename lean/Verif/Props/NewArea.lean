import Verif.Lemmas.NewArea
import Verif.Props.Toss
/-! # New areas (C104) -/

set_option linter.unusedSimpArgs false
namespace CM

theorem findIdx_append_new {α : Type} {p : α → Bool} {l : List α} {x : α} (h : l.findIdx? p = none) (hx : p x = true) :
    (l ++ [x]).findIdx? p = some l.length := by
  rw [List.findIdx?_append, h, Option.none_or, List.findIdx?_cons, if_pos hx]
  simp

/-- C104. An echomail in an area the system does not have, whatever the outside world does: it is treated exactly as if an area
had been configured whose settings are those the specification says, and the area can be used at once only if the node the message
comes from may create areas. Missing: that the area has a path of its own. -/
theorem new_area_set_up_partial (env : Env) (self : MemMsg → M Unit) (m : MemMsg) (s t : HSt) (b : Bool)
    (hn : ∀ a ∈ s.cfg.areas, a.tag.map lower ≠ m.area.map lower) (h : Ret (handleEchomail env self m) s b t) :
    ∃ active a, SetUp env s.log s.cfg m.area m.pktOrig m.pktDest active false a ∧
      (active = true ↔ ∃ k n, FirstAt (fun n : ConfigNode => SameSystem n.node m.pktOrig) s.cfg.nodes (some k) ∧
        s.cfg.nodes[k]? = some n ∧ n.flags &&& NODE_AUTOADD ≠ 0) ∧
      handleEchomail env self m s = handleEchomail env self m { s with cfg := { s.cfg with
        areas := s.cfg.areas ++ [a]
        changed := true } } := by
  have hf : s.cfg.findArea m.area = none := by
    unfold Config.findArea
    rw [List.findIdx?_eq_none_iff]
    intro a ha
    rw [Bool.eq_false_iff]
    exact fun e => hn a ha ((eqi_iff _ _).1 e)
  have hb : ∃ i u, findOrAddArea env { m with type := PKTS_ECHOMAIL } s = .ok i u := by
    unfold handleEchomail at h
    dsimp only at h
    rw [Ret.bind] at h
    rcases h with h | ⟨i, u, h1, -⟩
    · exact absurd h.2 (findOrAddArea_noFail _ _ _ _)
    · exact ⟨i, u, h1⟩
  obtain ⟨i, u, h1⟩ := hb
  have h1' := h1
  unfold findOrAddArea at h1
  rw [get_bind] at h1
  dsimp only at h1
  rw [hf] at h1
  dsimp only at h1
  obtain ⟨a, ha, rfl, rfl⟩ := addArea_setUp h1
  refine ⟨_, a, ha, ?_, ?_⟩
  · have hk := firstAt_findIdx (fun n : ConfigNode => same_beq n.node m.pktOrig) s.cfg.nodes
    unfold findNode
    have huniq : ∀ k j, FirstAt (fun n : ConfigNode => SameSystem n.node m.pktOrig) s.cfg.nodes (some k) →
        FirstAt (fun n : ConfigNode => SameSystem n.node m.pktOrig) s.cfg.nodes (some j) → k = j := by
      rintro k j ⟨⟨x, x1, x2⟩, x3⟩ ⟨⟨y, y1, y2⟩, y3⟩
      rcases Nat.lt_trichotomy k j with l | l | l
      · exact absurd x2 (y3 k x l x1)
      · exact l
      · exact absurd y2 (x3 j y l y1)
    cases hx : s.cfg.nodes.findIdx? (fun n => compare4D n.node m.pktOrig == 0) with
    | none =>
      rw [hx] at hk
      have : s.cfg.nodes.find? (fun n => compare4D n.node m.pktOrig == 0) = none := by
        rw [List.find?_eq_none]
        intro x hm
        have := List.findIdx?_eq_none_iff.1 hx x hm
        rw [this]; decide
      rw [this]
      constructor
      · intro x; cases x
      · rintro ⟨k, n, ⟨⟨x, x1, x2⟩, -⟩, -, -⟩
        exact absurd x2 (hk x (List.mem_of_getElem? x1))
    | some k =>
      rw [hx] at hk
      obtain ⟨g1, g2, g3⟩ := List.findIdx?_eq_some_iff_getElem.1 hx
      have : s.cfg.nodes.find? (fun n => compare4D n.node m.pktOrig == 0) = some s.cfg.nodes[k] := by
        rw [List.find?_eq_some_iff_getElem]
        exact ⟨g2, k, g1, rfl, fun j hj => by simpa using g3 j hj⟩
      rw [this]
      dsimp only
      constructor
      · intro e
        refine ⟨k, _, hk, List.getElem?_eq_getElem g1, ?_⟩
        simpa [ConfigNode.has] using e
      · rintro ⟨j, n, hj, hn1, hn2⟩
        have := huniq _ _ hk hj
        subst this
        rw [List.getElem?_eq_getElem g1] at hn1
        injection hn1 with hn1
        rw [hn1]
        simpa [ConfigNode.has] using hn2
  · unfold handleEchomail
    dsimp only
    have h2 : findOrAddArea env { m with type := PKTS_ECHOMAIL } { s with cfg := { s.cfg with
        areas := s.cfg.areas ++ [a]
        changed := true } } = .ok s.cfg.areas.length { s with cfg := { s.cfg with
        areas := s.cfg.areas ++ [a]
        changed := true } } := by
      unfold findOrAddArea
      rw [get_bind]
      dsimp only
      rw [show Config.findArea { s.cfg with
          areas := s.cfg.areas ++ [a]
          changed := true } m.area = some s.cfg.areas.length from
        findIdx_append_new hf (by rw [ha.name, eqi_iff])]
      rfl
    show (findOrAddArea env { m with type := PKTS_ECHOMAIL } >>= _) s = (findOrAddArea env { m with type := PKTS_ECHOMAIL } >>= _) _
    rw [bind_run, h1', bind_run, h2]

namespace Ex

/-- 1:2/4 may create areas, which go into the directory `msgs`; 1:2/5 gets all areas of group A. -/
def growing : Config :=
  { cfg [{ area b!"DEFAULT_AC" AREA_MANDATORY [⟨3, 0⟩] with
            path := b!"msgs/%l"
            description := b!"new"
            keepNum := 100 },
         { area b!"BAD" 0 [] with
            path := b!"bad"
            type := .bad }] with
    nodes := [{ node 4 NODE_AUTOADD with defaultGroup := 65 }, { node 5 0 with addGroups := b!"A", readOnlyGroups := b!"A" },
      node 6 NODE_PASSIVE, node 7 0]
    arealists := [⟨0, b!"list", 1, 0⟩] }

def listEnv : Env := { env with areaFile := fun _ f => if f = b!"list" then some [b!"NET.ONE  \r\n", b!"net.one About nets\r\n"] else none }

def areasAfter (x : Out Unit) : List Area :=
  match x with
  | .ok _ t => t.cfg.areas
  | .fail t => t.cfg.areas
  | _ => []

/-- An area is created: the links are the one of the default area, the sender as the feed, and 1:2/5. -/
theorem area_created : (areasAfter (handleEchomail listEnv (fun _ => pure ()) (msg b!"Net.One" []) (st growing))).drop 2 =
    [{ tag := b!"Net.One", description := b!"About nets", path := b!"msgs/net_one", aka := some 0, flags := AREA_MANDATORY, base := some 0,
       group := 65, tossNodes := [⟨3, 0⟩, ⟨0, TOSSNODE_FEED⟩, ⟨1, TOSSNODE_READONLY⟩], keepNum := 100, changed := true }] := by decide +kernel

/-- The hypotheses are met. -/
example : (∀ a ∈ growing.areas, a.tag.map lower ≠ (b!"Net.One").map lower) ∧
    (areasAfter (handleEchomail listEnv (fun _ => pure ()) (msg b!"Net.One" []) (st growing))).length = 3 := by decide +kernel

/-- The full statement is violated: two areas whose names differ in a special character share their files, and the
configuration that is written then is refused at the next start. -/
theorem shared_path :
    (match handleEchomail listEnv (fun _ => pure ()) (msg b!"NET.ONE" []) (st growing) with
      | .ok _ t => (areasAfter (handleEchomail listEnv (fun _ => pure ()) (msg b!"NET_ONE" []) t)).map (·.path)
      | _ => []) = [b!"msgs/%l", b!"bad", b!"msgs/net_one", b!"msgs/net_one"] ∧
    checkConfig growing = .ok true ∧
    (match handleEchomail listEnv (fun _ => pure ()) (msg b!"NET.ONE" []) (st growing) with
      | .ok _ t => match handleEchomail listEnv (fun _ => pure ()) (msg b!"NET_ONE" []) t with
        | .ok _ u => (match checkConfig u.cfg with
          | .ok ok => some ok
          | .error _ => none)
        | _ => none
      | _ => none) = some false := by decide +kernel

end Ex

end CM
