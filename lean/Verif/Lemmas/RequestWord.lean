import Verif.Lemmas.RequestFinish
/-! # Requests: lines that begin with a percent sign -/

set_option linter.unusedSimpArgs false
namespace CM

/-- Has the list been asked for? -/
def AfSt.asks (st : AfSt) : Sheet → Bool
  | .list => st.list
  | .query => st.query
  | .unlinked => st.unlinked
  | .help => st.help
  | .info => st.info

/-- What a line has done to the state. -/
structure LineDone (st : AfSt) (turnedOn did : Bool) (ks : List Sheet) (st' : AfSt) : Prop where
  done : st'.done = (st.done || did)
  rescan : st'.rescan = (st.rescan || turnedOn)
  asks : ∀ k, st'.asks k = (st.asks k || decide (k ∈ ks))

theorem modNode_eq (ci : Nat) (f : ConfigNode → ConfigNode) (s : HSt) :
    modNode ci f s = .ok () { s with cfg := resetNode s.cfg ci f } := by
  unfold modNode
  rw [get_bind, set_run]
  rfl

theorem Replied.reset {env : Env} {self : MemMsg → M Unit} {r r' : AfReply} {ci : Nat} {f : ConfigNode → ConfigNode} {ls : List Str}
    {s t : HSt} (h : Replied env self r { s with cfg := resetNode s.cfg ci f } ls r' t) : Replied env self r s ls r' t :=
  .other (u := { s with cfg := resetNode s.cfg ci f }) (List.prefix_refl _) rfl h

theorem cmdReply_nil (t : Str) : cmdReply [] t = [remark t] := rfl

section
variable {self : MemMsg → M Unit} (hs : Settled self) {env : Env}
include hs

theorem reply_run {st st' : AfSt} {line text : Str} {s t : HSt} (g : st.r.Gen) (h : st.reply env self line text s = .ok st' t) :
    t.cfg = s.cfg ∧ st' = { st with r := st'.r } ∧ Replied env self st.r s (answer line text) st'.r t := by
  unfold AfSt.reply at h
  rw [bind_ok] at h
  obtain ⟨r, u, h1, h⟩ := h
  cases h
  obtain ⟨c1, c2⟩ := told_answer hs g h1
  exact ⟨c1, rfl, c2⟩

theorem packers_run {s0 : HSt} {r r' : AfReply} {line text : Str} {s t : HSt} (g : r.Gen)
    (h : (addCommandReply env self r line text >>= fun r =>
      afAddLines env self r (((s0.cfg.packers.filter fun p => p.cmd ≠ []).map (·.name) ++ [b!"NONE"]).flatMap (cmdReply []))) s = .ok r' t) :
    t.cfg = s.cfg ∧ Replied env self r s (answer line text ++ (packerNames s0.cfg).map remark) r' t := by
  rw [bind_ok] at h
  obtain ⟨r1, u, h1, h⟩ := h
  obtain ⟨c1, c2⟩ := told_answer hs g h1
  obtain ⟨c3, c4⟩ := told_lines hs (c2.gen g) h
  refine ⟨c3.trans c1, c2.trans ?_⟩
  have : (((s0.cfg.packers.filter fun p => p.cmd ≠ []).map (·.name) ++ [b!"NONE"]).flatMap (cmdReply [])) =
      (packerNames s0.cfg).map remark := by
    unfold packerNames
    rw [show cmdReply [] = fun t => [remark t] from funext cmdReply_nil]
    generalize (s0.cfg.packers.filter fun p => p.cmd ≠ []).map (·.name) ++ [b!"NONE"] = l
    induction l with
    | nil => rfl
    | cons a l ih => rw [List.flatMap_cons, List.map_cons, ih]; rfl
  rw [this] at c4
  exact c4

theorem modReply_run {ci : Nat} {f : ConfigNode → ConfigNode} {r r' : AfReply} {line text : Str} {s t : HSt} (g : r.Gen)
    (h : (modNode ci f >>= fun _ => addCommandReply env self r line text) s = .ok r' t) :
    t.cfg = resetNode s.cfg ci f ∧ Replied env self r s (answer line text) r' t := by
  rw [bind_ok] at h
  obtain ⟨_, u, h1, h⟩ := h
  rw [modNode_eq] at h1
  cases h1
  obtain ⟨c1, c2⟩ := told_answer hs g h
  exact ⟨c1, .reset c2⟩

theorem afCompress_run {ci : Nat} {line w : Str} {r r' : AfReply} {s t : HSt} (g : r.Gen) (hw : SaysWord line b!"%COMPRESS")
    (ha : secondWord line = some w) (h : afCompress env self ci line w r s = .ok r' t) :
    ∃ ls, CommandAnswered s.cfg ci line t.cfg ls false true [] ∧ Replied env self r s ls r' t := by
  unfold afCompress at h
  rw [get_bind] at h
  dsimp only at h
  have hlow : b!"NONE".map lower = b!"none" := rfl
  by_cases hq : w.head? = some 63
  · rw [if_pos hq] at h
    obtain ⟨c1, c2⟩ := packers_run hs g h
    exact ⟨_, by rw [c1]; exact .packers hw ha hq, c2⟩
  · rw [if_neg hq] at h
    by_cases hn : eqi w b!"NONE" = true
    · rw [if_pos hn] at h
      obtain ⟨c1, c2⟩ := modReply_run hs g h
      exact ⟨_, by rw [c1]; exact .noPacker hw ha hq ((eqi_iff _ _).1 hn), c2⟩
    · rw [if_neg hn] at h
      have hn' : w.map lower ≠ b!"none" := fun x => hn ((eqi_iff _ _).2 x)
      cases hk : s.cfg.packers.findIdx? fun p => eqi w p.name && p.cmd ≠ [] with
      | none =>
        rw [hk] at h
        dsimp only at h
        obtain ⟨c1, c2⟩ := packers_run hs g h
        rw [c1]
        refine ⟨_, .badPacker hw ha hq hn' fun k hp => ?_, c2⟩
        obtain ⟨⟨p, p1, p2, p3⟩, -⟩ := hp
        have := List.findIdx?_eq_none_iff.1 hk p (List.mem_of_getElem? p1)
        rw [(eqi_iff _ _).2 p2.symm, decide_eq_true p3] at this
        cases this
      | some k =>
        rw [hk] at h
        dsimp only at h
        obtain ⟨c1, c2⟩ := modReply_run hs g h
        rw [c1]
        refine ⟨_, .packer hw ha hq hn' ?_, c2⟩
        obtain ⟨k1, k2, k3⟩ := List.findIdx?_eq_some_iff_getElem.1 hk
        simp only [Bool.and_eq_true, decide_eq_true_eq] at k2
        refine ⟨⟨_, List.getElem?_eq_getElem k1, ((eqi_iff _ _).1 k2.1).symm, k2.2⟩, fun j p hj hp hx => ?_⟩
        have hj2 : j < s.cfg.packers.length := by omega
        rw [List.getElem?_eq_getElem hj2] at hp
        cases hp
        exact absurd (by simp only [Bool.and_eq_true, decide_eq_true_eq]; exact ⟨(eqi_iff _ _).2 hx.1.symm, hx.2⟩) (k3 j hj)

theorem afPercent_run {ci : Nat} {line : Str} {st st' : AfSt} {s t : HSt} (g : st.r.Gen)
    (h : afPercent env self ci line st s = .ok st' t) :
    ∃ ls turnedOn did ks, CommandAnswered s.cfg ci line t.cfg ls turnedOn did ks ∧ Replied env self st.r s ls st'.r t ∧
      LineDone st turnedOn did ks st' := by
  unfold afPercent at h
  rw [get_bind] at h
  have hword : ∀ w : Str, eqi (jbstrcpy 100 line).1 w = true ↔ SaysWord line w := fun w => eqi_iff _ _
  cases hcn : s.cfg.nodes[ci]? with
  | none => rw [hcn] at h; cases h
  | some cn =>
    rw [hcn] at h
    dsimp only at h
    have hsec : secondWord line = if (jbstrcpy 40 (jbstrcpy 100 line).2.1).2.2 = true then
      some (jbstrcpy 40 (jbstrcpy 100 line).2.1).1 else none := rfl
    generalize jbstrcpy 40 (jbstrcpy 100 line).2.1 = j at h hsec
    obtain ⟨arg, rest, hasArg⟩ := j
    dsimp only at h hsec
    by_cases w1 : SaysWord line b!"%PAUSE"
    · rw [if_pos ((hword _).2 w1)] at h
      by_cases hp : cn.has NODE_PASSIVE = true
      · rw [if_pos hp] at h
        obtain ⟨c1, c2, c3⟩ := reply_run hs g h
        exact ⟨_, _, _, _, by rw [c1]; exact .paused w1 hcn hp, c3, by rw [c2]; simp, by rw [c2]; simp,
          fun k => by rw [c2]; cases k <;> simp [AfSt.asks]⟩
      · rw [if_neg hp, bind_ok] at h
        obtain ⟨_, u, h1, h⟩ := h
        rw [modNode_eq] at h1
        cases h1
        rw [bind_ok] at h
        obtain ⟨st1, u, h1, h⟩ := h
        obtain ⟨c1, c2, c3⟩ := reply_run hs g h1
        rw [bind_ok] at h
        obtain ⟨st2, u2, h1, h⟩ := h
        obtain ⟨d1, d2, d3⟩ := reply_run hs (c3.gen g) h1
        cases h
        have e : t.cfg = resetNode s.cfg ci fun n => { n with flags := n.flags ||| NODE_PASSIVE } := d1.trans c1
        refine ⟨_, _, _, _, by rw [e]; exact .pause w1 hcn (by simpa using hp),
          .reset (c3.trans d3), by simp, by rw [d2, c2]; simp,
          fun k => by rw [d2, c2]; cases k <;> simp [AfSt.asks]⟩
    · rw [if_neg (fun x => w1 ((hword _).1 x))] at h
      by_cases w2 : SaysWord line b!"%RESUME"
      · rw [if_pos ((hword _).2 w2)] at h
        by_cases hp : cn.has NODE_PASSIVE = true
        · rw [if_pos hp, bind_ok] at h
          obtain ⟨_, u, h1, h⟩ := h
          rw [modNode_eq] at h1
          cases h1
          rw [bind_ok] at h
          obtain ⟨st1, u, h1, h⟩ := h
          obtain ⟨c1, c2, c3⟩ := reply_run hs g h1
          cases h
          refine ⟨_, _, _, _, by rw [c1]; exact .resume w2 hcn hp,
            .reset c3, by simp, by rw [c2]; simp,
            fun k => by rw [c2]; cases k <;> simp [AfSt.asks]⟩
        · rw [if_neg hp] at h
          obtain ⟨c1, c2, c3⟩ := reply_run hs g h
          exact ⟨_, _, _, _, by rw [c1]; exact .active w2 hcn (by simpa using hp), c3, by rw [c2]; simp, by rw [c2]; simp,
            fun k => by rw [c2]; cases k <;> simp [AfSt.asks]⟩
      · rw [if_neg (fun x => w2 ((hword _).1 x))] at h
        by_cases w3 : SaysWord line b!"%PWD"
        · rw [if_pos ((hword _).2 w3)] at h
          by_cases ha : hasArg = true
          · rw [if_pos ha, bind_ok] at h
            obtain ⟨_, u, h1, h⟩ := h
            rw [modNode_eq] at h1
            cases h1
            rw [bind_ok] at h
            obtain ⟨st1, u, h1, h⟩ := h
            obtain ⟨c1, c2, c3⟩ := reply_run hs g h1
            cases h
            refine ⟨_, _, _, _, by rw [c1]; exact .password w3 (by rw [hsec, if_pos ha]),
              .reset c3, by simp, by rw [c2]; simp,
              fun k => by rw [c2]; cases k <;> simp [AfSt.asks]⟩
          · rw [if_neg ha] at h
            obtain ⟨c1, c2, c3⟩ := reply_run hs g h
            exact ⟨_, _, _, _, by rw [c1]; exact .noPassword w3 (by rw [hsec, if_neg ha]), c3,
              by rw [c2]; simp, by rw [c2]; simp, fun k => by rw [c2]; cases k <;> simp [AfSt.asks]⟩
        · rw [if_neg (fun x => w3 ((hword _).1 x))] at h
          by_cases w4 : SaysWord line b!"%RESCAN"
          · rw [if_pos ((hword _).2 w4)] at h
            by_cases ha : s.cfg.has CFG_ALLOWRESCAN = true
            · rw [if_pos ha, bind_ok] at h
              obtain ⟨st1, u, h1, h⟩ := h
              obtain ⟨c1, c2, c3⟩ := reply_run hs g h1
              cases h
              exact ⟨_, _, _, _, by rw [c1]; exact .rescan w4 ha, c3, by rw [c2]; simp, by simp,
                fun k => by rw [c2]; cases k <;> simp [AfSt.asks]⟩
            · rw [if_neg ha] at h
              obtain ⟨c1, c2, c3⟩ := reply_run hs g h
              exact ⟨_, _, _, _, by rw [c1]; exact .noRescan w4 (by simpa using ha), c3,
                by rw [c2]; simp, by rw [c2]; simp, fun k => by rw [c2]; cases k <;> simp [AfSt.asks]⟩
          · rw [if_neg (fun x => w4 ((hword _).1 x))] at h
            by_cases w5 : SaysWord line b!"%COMPRESS"
            · rw [if_pos ((hword _).2 w5)] at h
              by_cases ha : hasArg = true
              · rw [if_pos ha, bind_ok] at h
                obtain ⟨r1, u, h1, h⟩ := h
                cases h
                obtain ⟨ls, c1, c2⟩ := afCompress_run hs g w5 (by rw [hsec, if_pos ha]) h1
                exact ⟨ls, _, _, _, c1, c2, by simp, by simp, fun k => by cases k <;> simp [AfSt.asks]⟩
              · rw [if_neg ha] at h
                obtain ⟨c1, c2, c3⟩ := reply_run hs g h
                exact ⟨_, _, _, _, by rw [c1]; exact .noMethod w5 (by rw [hsec, if_neg ha]), c3,
                  by rw [c2]; simp, by rw [c2]; simp, fun k => by rw [c2]; cases k <;> simp [AfSt.asks]⟩
            · rw [if_neg (fun x => w5 ((hword _).1 x))] at h
              by_cases k1 : SaysWord line b!"%LIST"
              · rw [if_pos ((hword _).2 k1), bind_ok] at h
                obtain ⟨st1, u, h1, h⟩ := h
                obtain ⟨c1, c2, c3⟩ := reply_run hs g h1
                cases h
                exact ⟨_, _, _, _, by rw [c1]; exact .list .list k1, c3, by simp, by rw [c2]; simp,
                  fun k => by rw [c2]; cases k <;> simp [AfSt.asks]⟩
              · rw [if_neg (fun x => k1 ((hword _).1 x))] at h
                by_cases k2 : SaysWord line b!"%QUERY"
                · rw [if_pos ((hword _).2 k2), bind_ok] at h
                  obtain ⟨st1, u, h1, h⟩ := h
                  obtain ⟨c1, c2, c3⟩ := reply_run hs g h1
                  cases h
                  exact ⟨_, _, _, _, by rw [c1]; exact .list .query k2, c3, by simp, by rw [c2]; simp,
                    fun k => by rw [c2]; cases k <;> simp [AfSt.asks]⟩
                · rw [if_neg (fun x => k2 ((hword _).1 x))] at h
                  by_cases k3 : SaysWord line b!"%UNLINKED"
                  · rw [if_pos ((hword _).2 k3), bind_ok] at h
                    obtain ⟨st1, u, h1, h⟩ := h
                    obtain ⟨c1, c2, c3⟩ := reply_run hs g h1
                    cases h
                    exact ⟨_, _, _, _, by rw [c1]; exact .list .unlinked k3, c3, by simp, by rw [c2]; simp,
                      fun k => by rw [c2]; cases k <;> simp [AfSt.asks]⟩
                  · rw [if_neg (fun x => k3 ((hword _).1 x))] at h
                    by_cases k4 : SaysWord line b!"%HELP"
                    · rw [if_pos ((hword _).2 k4), bind_ok] at h
                      obtain ⟨st1, u, h1, h⟩ := h
                      obtain ⟨c1, c2, c3⟩ := reply_run hs g h1
                      cases h
                      exact ⟨_, _, _, _, by rw [c1]; exact .list .help k4, c3, by simp, by rw [c2]; simp,
                        fun k => by rw [c2]; cases k <;> simp [AfSt.asks]⟩
                    · rw [if_neg (fun x => k4 ((hword _).1 x))] at h
                      by_cases k5 : SaysWord line b!"%INFO"
                      · rw [if_pos ((hword _).2 k5), bind_ok] at h
                        obtain ⟨st1, u, h1, h⟩ := h
                        obtain ⟨c1, c2, c3⟩ := reply_run hs g h1
                        cases h
                        exact ⟨_, _, _, _, by rw [c1]; exact .list .info k5, c3, by simp, by rw [c2]; simp,
                          fun k => by rw [c2]; cases k <;> simp [AfSt.asks]⟩
                      · rw [if_neg (fun x => k5 ((hword _).1 x)), bind_ok] at h
                        obtain ⟨st1, u, h1, h⟩ := h
                        obtain ⟨c1, c2, c3⟩ := reply_run hs g h1
                        cases h
                        rw [c1]
                        refine ⟨_, _, _, _, .unknown ?_ ?_, c3, by simp, by rw [c2]; simp,
                          fun k => by rw [c2]; cases k <;> simp [AfSt.asks]⟩
                        · intro w hw
                          simp only [List.mem_cons, List.not_mem_nil, or_false] at hw
                          rcases hw with rfl | rfl | rfl | rfl | rfl <;> assumption
                        · intro k
                          cases k <;> assumption

end

end CM
