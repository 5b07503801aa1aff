import Verif.Lemmas.Depth
import Verif.Model.Areafix
/-! # AreaFix: the messages it sends are generated netmails -/

namespace CM

/-- A computation that hands only generated netmails to the handler and whose results satisfy `P`. -/
structure Uses {α : Type} (P : α → Prop) (x : (MemMsg → M Unit) → M α) : Prop where
  congr : ∀ self self', (∀ m, Gen m → self m = self' m) → x self = x self'
  post : ∀ self s a t, x self s = .ok a t → P a

section
variable {α β : Type}

theorem Uses.pure {P : α → Prop} {a : α} (h : P a) : Uses P fun _ => (Pure.pure a : M α) :=
  ⟨fun _ _ _ => rfl, fun _ _ _ _ e => by cases e; exact h⟩

theorem Uses.const {P : α → Prop} {x : M α} (h : ∀ s a t, x s = .ok a t → P a) : Uses P fun _ => x :=
  ⟨fun _ _ _ => rfl, fun _ => h⟩

theorem Uses.any (x : M α) : Uses (fun _ => True) fun _ => x := Uses.const fun _ _ _ _ => trivial

theorem Uses.ub {P : α → Prop} (u : UB) : Uses P fun _ => (M.ub u : M α) := Uses.const fun _ _ _ e => by cases e

theorem Uses.fail {P : α → Prop} : Uses P fun _ => (M.fail : M α) := Uses.const fun _ _ _ e => by cases e

theorem Uses.mono {P Q : α → Prop} {x : (MemMsg → M Unit) → M α} (h : Uses P x) (hq : ∀ a, P a → Q a) : Uses Q x :=
  ⟨h.congr, fun self s a t e => hq _ (h.post self s a t e)⟩

theorem Uses.bind {P : α → Prop} {Q : β → Prop} {x : (MemMsg → M Unit) → M α} {f : (MemMsg → M Unit) → α → M β}
    (hx : Uses P x) (hf : ∀ a, P a → Uses Q fun self => f self a) : Uses Q fun self => x self >>= f self := by
  refine ⟨fun self self' h => ?_, fun self s b t h => ?_⟩
  · exact bindC P (hx.congr _ _ h) (hx.post _) fun a p => (hf a p).congr _ _ h
  · rw [bind_ok] at h
    obtain ⟨a, u, h1, h2⟩ := h
    exact (hf a (hx.post _ _ _ _ h1)).post _ _ _ _ h2

theorem Uses.ite {P : α → Prop} {c : Prop} [Decidable c] {x y : (MemMsg → M Unit) → M α} (hx : c → Uses P x)
    (hy : ¬ c → Uses P y) : Uses P fun self => if c then x self else y self := by
  by_cases h : c
  · simp only [if_pos h]; exact hx h
  · simp only [if_neg h]; exact hy h

theorem Uses.attempt {m : MemMsg} (g : Gen m) : Uses (fun _ => True) fun self => M.attempt (self m) :=
  ⟨fun self self' h => by rw [h m g], fun _ _ _ _ _ => trivial⟩

end

/-- The configuration stays as it is. -/
def CfgEq (s t : HSt) : Prop := t.cfg = s.cfg

theorem CfgEq.good : Good CfgEq := ⟨fun _ => rfl, fun _ _ _ h1 h2 => h2.trans h1, fun _ _ _ => rfl⟩

/-- Handling a generated netmail leaves the configuration as it is. -/
abbrev Tame (self : MemMsg → M Unit) : Prop := ∀ m, Gen m → Sat CfgEq (self m)

theorem handleMessage_tame (env : Env) (af : (MemMsg → M Unit) → MemMsg → M Unit) (n : Nat) :
    Tame (handleMessage env af n) := fun m g => handleMessage_gen CfgEq.good env af n m g

theorem attempt_sat {R : HSt → HSt → Prop} {x : M Unit} (h : Sat R x) : Sat R (M.attempt x) := by
  intro s
  unfold M.attempt
  refine ⟨fun a t e => ?_, fun t e => ?_⟩
  · cases hx : x s with
    | fail u => rw [hx] at e; cases e; exact (h s).2 _ hx
    | ok b u => rw [hx] at e; cases e; exact (h s).1 _ _ hx
    | ub u => rw [hx] at e; cases e
    | stuck => rw [hx] at e; cases e
  · cases hx : x s with
    | fail u => rw [hx] at e; cases e
    | ok b u => rw [hx] at e; cases e
    | ub u => rw [hx] at e; cases e
    | stuck => rw [hx] at e; cases e

theorem attempt_noFail {x : M Unit} {s t : HSt} : M.attempt x s ≠ .fail t := by
  unfold M.attempt
  cases x s <;> simp

/-! ## Replies -/

/-- A reply whose message is a generated netmail. -/
abbrev AfReply.Gen (r : AfReply) : Prop := CM.Gen r.mm

theorem afInit_gen {env : Env} {frm to : Node4D} {toname subject : Str} {s t : HSt} {r : AfReply}
    (h : afInit env frm toname to subject s = .ok r t) : r.Gen := by
  unfold afInit at h
  rw [get_bind, bind_ok] at h
  obtain ⟨m, u, h1, h⟩ := h
  rw [liftO_ok] at h1
  cases h
  refine CM.Gen.keep ⟨rfl, ?_, ?_, ?_⟩ (makeNetmailKludges_keep h1.1)
  · dsimp [MemMsg.has]; decide
  · dsimp [MemMsg.attrHas]; decide
  · dsimp [MemMsg.attrHas]; decide

theorem afInit_quiet (env : Env) (frm to : Node4D) (toname subject : Str) : Quiet (afInit env frm toname to subject) := by
  unfold afInit
  exact Quiet.bind Quiet.get fun s => Quiet.bind (Quiet.liftO _) fun m => Quiet.pure _

theorem Gen.title {m : MemMsg} (g : Gen m) (t : Str) : Gen { m with subject := t } := ⟨g.area, g.autogen, g.rreq, g.audit⟩

theorem and_not_mask (a m k : UInt16) (h : k &&& m = m) : a &&& ~~~k &&& m = 0 := by
  apply UInt16.toBitVec_inj.1
  have h' : k.toBitVec &&& m.toBitVec = m.toBitVec := by
    have := congrArg UInt16.toBitVec h
    simpa using this
  simp only [UInt16.toBitVec_and, UInt16.toBitVec_not]
  rw [← h']
  apply BitVec.eq_of_getLsbD_eq
  intro i hi
  simp
  intro _ _ h1 h2
  rw [h1] at h2; cases h2

theorem or_self_mask (a m : UInt16) : (a ||| m) &&& m = m := by
  apply UInt16.toBitVec_inj.1
  simp only [UInt16.toBitVec_and, UInt16.toBitVec_or]
  apply BitVec.eq_of_getLsbD_eq
  intro i hi
  simp only [BitVec.getLsbD_and, BitVec.getLsbD_or]
  cases a.toBitVec.getLsbD i <;> cases m.toBitVec.getLsbD i <;> rfl

theorem afReuse_gen (env : Env) {r : AfReply} (g : r.Gen) (s : HSt) : Gen (afReuse env r s) := by
  refine ⟨g.area, ?_, ?_, ?_⟩
  · unfold MemMsg.has afReuse
    dsimp only
    rw [or_self_mask]; decide
  · unfold MemMsg.attrHas afReuse
    dsimp only
    rw [and_not_mask _ _ _ (by decide)]; rfl
  · unfold MemMsg.attrHas afReuse
    dsimp only
    rw [and_not_mask _ _ _ (by decide)]; rfl

theorem afSend_uses {r : AfReply} (g : r.Gen) : Uses (fun _ => True) fun self => afSend self r :=
  Uses.attempt (Gen.title g _)

theorem afSplit_uses (env : Env) {r : AfReply} (g : r.Gen) : Uses AfReply.Gen fun self => afSplit env self r := by
  unfold afSplit
  refine Uses.bind (P := Gen) (Uses.const fun s m t h => ?_) fun m gm => ?_
  · rw [liftO_ok] at h; exact g.keep (mmAddLine_keep h.1)
  refine Uses.bind (afSend_uses gm) fun _ _ => ?_
  refine Uses.bind (Uses.any M.get) fun s _ => ?_
  refine Uses.bind (P := Gen) (Uses.const fun s m t h => ?_) fun m gm => ?_
  · rw [liftO_ok] at h; exact (afReuse_gen env g _).keep (makeNetmailKludges_keep h.1)
  refine Uses.bind (P := Gen) (Uses.const fun s m t h => ?_) fun m gm => ?_
  · rw [liftO_ok] at h; exact gm.keep (mmAddLine_keep h.1)
  exact Uses.pure gm

theorem afAddLine_uses (env : Env) {r : AfReply} (g : r.Gen) (line : Str) :
    Uses AfReply.Gen fun self => afAddLine env self r line := by
  unfold afAddLine
  refine Uses.bind (Uses.any M.get) fun s _ => ?_
  refine Uses.bind (Uses.ite (fun _ => afSplit_uses env g) fun _ => Uses.pure g) fun r g => ?_
  refine Uses.ite (fun _ => Uses.ub _) fun _ => ?_
  refine Uses.bind (P := Gen) (Uses.const fun s m t h => ?_) fun m gm => ?_
  · rw [liftO_ok] at h; exact g.keep (mmAddLine_keep h.1)
  exact Uses.pure gm

theorem afAddLines_uses (env : Env) {r : AfReply} (g : r.Gen) (ls : List Str) :
    Uses AfReply.Gen fun self => afAddLines env self r ls := by
  induction ls generalizing r with
  | nil => exact Uses.pure g
  | cons l ls ih => exact Uses.bind (afAddLine_uses env g l) fun r g => ih g

theorem addCommandReply_uses (env : Env) {r : AfReply} (g : r.Gen) (cmd reply : Str) :
    Uses AfReply.Gen fun self => addCommandReply env self r cmd reply := afAddLines_uses env g _

theorem afSay_uses (env : Env) {r : AfReply} (g : r.Gen) (wild : Bool) (buf long short : Str) :
    Uses AfReply.Gen fun self => afSay env self r wild buf long short :=
  Uses.ite (fun _ => afAddLine_uses env g _) fun _ => addCommandReply_uses env g _ _

section
variable {self : MemMsg → M Unit} (hs : Tame self)
include hs

theorem afSend_cfg {r : AfReply} (g : r.Gen) : Sat CfgEq (afSend self r) := attempt_sat (hs _ (Gen.title g _))

theorem afSplit_cfg (env : Env) {r : AfReply} (g : r.Gen) : Sat CfgEq (afSplit env self r) := by
  unfold afSplit
  refine CfgEq.good.bindP Gen (CfgEq.good.liftO _) (fun s m t h => ?_) fun m gm => ?_
  · rw [liftO_ok] at h; exact g.keep (mmAddLine_keep h.1)
  refine CfgEq.good.bind (afSend_cfg hs gm) fun _ => CfgEq.good.bind CfgEq.good.get fun s => ?_
  exact CfgEq.good.bind (CfgEq.good.liftO _) fun m => CfgEq.good.bind (CfgEq.good.liftO _) fun m => CfgEq.good.pure _

theorem afAddLine_cfg (env : Env) {r : AfReply} (g : r.Gen) (line : Str) : Sat CfgEq (afAddLine env self r line) := by
  unfold afAddLine
  refine CfgEq.good.bind CfgEq.good.get fun s => CfgEq.good.bind ?_ fun r => ?_
  · split
    · exact afSplit_cfg hs env g
    · exact CfgEq.good.pure _
  · split
    · exact Sat.ub _
    · exact CfgEq.good.bind (CfgEq.good.liftO _) fun m => CfgEq.good.pure _

theorem afAddLines_cfg (env : Env) {r : AfReply} (g : r.Gen) (ls : List Str) : Sat CfgEq (afAddLines env self r ls) := by
  induction ls generalizing r with
  | nil => exact CfgEq.good.pure _
  | cons l ls ih =>
    exact CfgEq.good.bindP AfReply.Gen (afAddLine_cfg hs env g l) (fun s r t h => (afAddLine_uses env g l).post _ _ _ _ h)
      fun r g => ih g

theorem addCommandReply_cfg (env : Env) {r : AfReply} (g : r.Gen) (cmd reply : Str) :
    Sat CfgEq (addCommandReply env self r cmd reply) := afAddLines_cfg hs env g _

theorem afSay_cfg (env : Env) {r : AfReply} (g : r.Gen) (wild : Bool) (buf long short : Str) :
    Sat CfgEq (afSay env self r wild buf long short) := by
  unfold afSay
  split
  · exact afAddLine_cfg hs env g _
  · exact addCommandReply_cfg hs env g _ _

end

/-! ## Which messages are sent -/

theorem newNetmail_uses (env : Env) (dest aka : Node4D) (to subject : Str) :
    Uses Gen fun _ => newNetmail env dest aka to subject FLAG_PVT MMFLAG_AUTOGEN :=
  Uses.const fun _ _ _ h => newNetmail_gen h

theorem mmAddLines_uses {m : MemMsg} (g : Gen m) (ls : List Str) : Uses Gen fun _ => mmAddLines m ls :=
  Uses.const fun _ _ _ h => g.keep (mmAddLines_keep h)

theorem sendRemove1_uses (env : Env) (tag : Str) (aka : Node4D) (t : TossNode) (n : ConfigNode) :
    Uses (fun _ => True) fun self => sendRemove1 env self tag aka t n := by
  unfold sendRemove1
  refine Uses.bind (P := fun _ => True) (Uses.ite (fun _ => ?_) fun _ => Uses.pure trivial) fun _ _ =>
    Uses.ite (fun _ => Uses.ite (fun _ => Uses.ub _) fun _ => ?_) fun _ => Uses.pure trivial
  · exact Uses.bind (newNetmail_uses _ _ _ _ _) fun m g => Uses.bind (mmAddLines_uses g _) fun m g => Uses.attempt g
  · exact Uses.bind (newNetmail_uses _ _ _ _ _) fun m g => Uses.bind (mmAddLines_uses g _) fun m g => Uses.attempt g

theorem sendRemove_uses (env : Env) (tag : Str) (aka : Option Node4D) (ts : List TossNode) :
    Uses (fun _ => True) fun self => sendRemove env self tag aka ts := by
  induction ts with
  | nil => exact Uses.pure trivial
  | cons t ts ih =>
    unfold sendRemove
    refine Uses.bind (Uses.any M.get) fun s _ => ?_
    cases s.cfg.nodes[t.node]? with
    | none => exact Uses.ub _
    | some n =>
      refine Uses.bind (P := fun _ => True) (Uses.ite (fun _ => ?_) fun _ => Uses.pure trivial) fun _ _ => ih
      cases aka with
      | none => exact Uses.ub _
      | some k => exact sendRemove1_uses env tag k t n

theorem afAdd_uses (env : Env) (ci : Nat) (cn : ConfigNode) (buf : Str) (wild : Bool) (i : Nat) (a : Area)
    {L : AfLoop} (g : L.r.Gen) : Uses (fun L => L.r.Gen) fun self => afAdd env self ci cn buf wild i a L := by
  unfold afAdd
  cases a.linkOf ci with
  | some _ => exact Uses.bind (afSay_uses env g _ _ _ _) fun r g => Uses.pure g
  | none =>
    refine Uses.bind (Uses.any _) fun b _ => Uses.ite (fun _ => ?_) fun _ => ?_
    · refine Uses.ite (fun _ => ?_) fun _ => ?_
      · exact Uses.bind (afSay_uses env g _ _ _ _) fun r g => Uses.pure g
      · refine Uses.bind (Uses.any _) fun ro _ => ?_
        refine Uses.bind (P := AfReply.Gen) (Uses.ite (fun _ => afSay_uses env g _ _ _ _) fun _ => afSay_uses env g _ _ _ _) fun r g => ?_
        exact Uses.bind (Uses.any _) fun _ _ => Uses.pure g
    · refine Uses.ite (fun _ => Uses.pure g) fun _ => ?_
      exact Uses.bind (addCommandReply_uses env g _ _) fun r g => Uses.pure g

theorem afAfterRemove_uses (env : Env) (i : Nat) (a : Area) (ts : List TossNode) (f : Bool) :
    Uses (fun _ => True) fun self => afAfterRemove env self i a ts f := by
  unfold afAfterRemove
  refine Uses.bind (Uses.any M.get) fun s _ => ?_
  refine Uses.ite (fun _ => Uses.bind (sendRemove_uses env _ _ _) fun _ _ => Uses.any _) fun _ => ?_
  exact Uses.any _

theorem afRemove_uses (env : Env) (ci : Nat) (buf : Str) (wild : Bool) (i : Nat) (a : Area) {L : AfLoop}
    (g : L.r.Gen) : Uses (fun L => L.r.Gen) fun self => afRemove env self ci buf wild i a L := by
  unfold afRemove
  cases a.linkOf ci with
  | none =>
    refine Uses.ite (fun _ => Uses.pure g) fun _ => ?_
    exact Uses.bind (addCommandReply_uses env g _ _) fun r g => Uses.pure g
  | some t =>
    refine Uses.ite (fun _ => Uses.bind (afSay_uses env g _ _ _ _) fun r g => Uses.pure g) fun _ => ?_
    refine Uses.bind (afSay_uses env g _ _ _ _) fun r g => Uses.bind (Uses.any _) fun _ _ => ?_
    exact Uses.bind (afAfterRemove_uses env _ _ _ _) fun _ _ => Uses.pure g

theorem afUpdate_uses (env : Env) (ci : Nat) (buf : Str) (wild : Bool) (i : Nat) (a : Area) {L : AfLoop}
    (g : L.r.Gen) : Uses (fun L => L.r.Gen) fun self => afUpdate env self ci buf wild i a L := by
  unfold afUpdate
  cases a.linkOf ci with
  | none => exact Uses.pure g
  | some t => exact Uses.bind (afSay_uses env g _ _ _ _) fun r g => Uses.pure g

theorem afArea_uses (env : Env) (ci : Nat) (cmd : AfCmd) (buf name : Str) (wild : Bool) (i : Nat) {L : AfLoop}
    (g : L.r.Gen) : Uses (fun L => L.r.Gen) fun self => afArea env self ci cmd buf name wild i L := by
  unfold afArea
  refine Uses.bind (Uses.any M.get) fun s _ => ?_
  cases s.cfg.areas[i]? with
  | none => exact Uses.pure g
  | some a =>
    cases s.cfg.nodes[ci]? with
    | none => exact Uses.pure g
    | some cn =>
      refine Uses.ite (fun _ => ?_) fun _ => Uses.pure g
      cases cmd with
      | add => exact afAdd_uses env ci cn buf wild i a g
      | remove => exact afRemove_uses env ci buf wild i a g
      | update => exact afUpdate_uses env ci buf wild i a g

theorem afAreas_uses (env : Env) (ci : Nat) (cmd : AfCmd) (buf name : Str) (wild : Bool) (k i : Nat) {L : AfLoop}
    (g : L.r.Gen) : Uses (fun L => L.r.Gen) fun self => afAreas env self ci cmd buf name wild k i L := by
  induction k generalizing i L with
  | zero => exact Uses.pure g
  | succ k ih => exact Uses.bind (afArea_uses env ci cmd buf name wild i g) fun L g => ih _ g

theorem afRescan_uses (env : Env) (ci i : Nat) (num : UInt32) {r : AfReply} (g : r.Gen) :
    Uses AfReply.Gen fun self => afRescan env self ci i num r := by
  unfold afRescan
  refine Uses.bind (Uses.any M.get) fun s _ => Uses.ite (fun _ => ?_) fun _ => afAddLine_uses env g _
  cases s.cfg.areas[i]? with
  | none => exact Uses.ub _
  | some a =>
    cases s.cfg.nodes[ci]? with
    | none => exact Uses.ub _
    | some cn =>
      dsimp only
      cases a.base with
      | none => exact afAddLine_uses env g _
      | some b =>
        refine Uses.ite (fun _ => afAddLine_uses env g _) fun _ => ?_
        exact Uses.bind (Uses.any _) fun _ _ => Uses.ite (fun _ => afAddLine_uses env g _) fun _ => Uses.fail

theorem afOptions_uses (env : Env) (ci : Nat) (cmd : AfCmd) (opt : Str) (wild global : Bool) {L : AfLoop}
    (g : L.r.Gen) : Uses AfReply.Gen fun self => afOptions env self ci cmd opt wild global L := by
  unfold afOptions
  cases L.rescan with
  | none => exact Uses.pure g
  | some i =>
    refine Uses.ite (fun _ => ?_) fun _ => Uses.pure g
    refine Uses.bind (P := AfReply.Gen) (Uses.ite (fun _ => afAddLine_uses env g _) fun _ => Uses.pure g) fun r g => ?_
    exact Uses.ite (fun _ => afRescan_uses env ci i _ g) fun _ => Uses.pure g

theorem afForward_uses (env : Env) (ci : Nat) (cn : ConfigNode) (mynode : Node4D) (buf name : Str) (al : Arealist)
    {r : AfReply} (g : r.Gen) : Uses AfReply.Gen fun self => afForward env self ci cn mynode buf name al r := by
  unfold afForward
  refine Uses.bind (Uses.any M.get) fun s _ => ?_
  cases s.cfg.nodes[al.node]? with
  | none => exact Uses.ub _
  | some up =>
    refine Uses.bind (addCommandReply_uses env g _ _) fun r g => Uses.bind (Uses.any _) fun _ _ => ?_
    refine Uses.ite (fun _ => Uses.ub _) fun _ => ?_
    refine Uses.bind (Uses.any _) fun _ _ => Uses.bind (Uses.any _) fun _ _ => Uses.bind (Uses.any _) fun _ _ => ?_
    exact Uses.bind (Uses.any _) fun _ _ => Uses.pure g

theorem afNoneAdd_uses (env : Env) (ci : Nat) (mynode : Node4D) (buf name : Str) (wild found : Bool) {r : AfReply}
    (g : r.Gen) : Uses AfReply.Gen fun self => afNoneAdd env self ci mynode buf name wild found r := by
  unfold afNoneAdd
  refine Uses.ite (fun _ => afAddLine_uses env g _) fun _ => Uses.ite (fun _ => Uses.pure g) fun _ => ?_
  refine Uses.bind (Uses.any M.get) fun s _ => ?_
  cases s.cfg.nodes[ci]? with
  | none => exact Uses.ub _
  | some cn =>
    refine Uses.bind (Uses.any _) fun al _ => ?_
    cases al with
    | none => exact addCommandReply_uses env g _ _
    | some al => exact afForward_uses env ci cn mynode buf name al g

theorem afFinish_uses (env : Env) (ci : Nat) (mynode : Node4D) (cmd : AfCmd) (buf name opt : Str)
    (wild global : Bool) (L : AfLoop) {r : AfReply} (g : r.Gen) :
    Uses AfReply.Gen fun self => afFinish env self ci mynode cmd buf name opt wild global L r := by
  unfold afFinish
  cases cmd with
  | add => exact Uses.ite (fun _ => Uses.pure g) fun _ => afNoneAdd_uses env ci mynode buf name wild _ g
  | remove =>
    exact Uses.ite (fun _ => Uses.pure g) fun _ => Uses.ite (fun _ => afAddLine_uses env g _) fun _ =>
      addCommandReply_uses env g _ _
  | update =>
    refine Uses.ite (fun _ => Uses.ite (fun _ => addCommandReply_uses env g _ _) fun _ => Uses.pure g) fun _ => ?_
    exact Uses.ite (fun _ => afAddLine_uses env g _) fun _ => addCommandReply_uses env g _ _

theorem afAreaLine_uses (env : Env) (ci : Nat) (mynode : Node4D) (global : Bool) (buf : Str) {r : AfReply}
    (g : r.Gen) : Uses AfReply.Gen fun self => afAreaLine env self ci mynode global buf r := by
  unfold afAreaLine
  dsimp only
  refine Uses.bind (P := AfReply.Gen) (Uses.ite (fun _ => afAddLines_uses env g _) fun _ => Uses.pure g) fun r g => ?_
  refine Uses.bind (Uses.any M.get) fun s _ => ?_
  refine Uses.bind (afAreas_uses env ci _ _ _ _ _ _ (L := { r := r }) g) fun L gL => ?_
  refine Uses.bind (afOptions_uses env ci _ _ _ _ gL) fun r g => ?_
  refine Uses.bind (afFinish_uses env ci _ _ _ _ _ _ _ _ g) fun r g => ?_
  exact Uses.ite (fun _ => afAddLine_uses env g _) fun _ => Uses.pure g

theorem reply_uses (env : Env) {st : AfSt} (g : st.r.Gen) (cmd reply : Str) :
    Uses (fun st : AfSt => st.r.Gen) fun self => st.reply env self cmd reply := by
  unfold AfSt.reply
  exact Uses.bind (addCommandReply_uses env g _ _) fun r g => Uses.pure g

theorem afCompress_uses (env : Env) (ci : Nat) (buf arg : Str) {r : AfReply} (g : r.Gen) :
    Uses AfReply.Gen fun self => afCompress env self ci buf arg r := by
  unfold afCompress
  refine Uses.bind (Uses.any M.get) fun s _ => ?_
  dsimp only
  refine Uses.ite (fun _ => Uses.bind (addCommandReply_uses env g _ _) fun r g => afAddLines_uses env g _) fun _ => ?_
  refine Uses.ite (fun _ => Uses.bind (Uses.any _) fun _ _ => addCommandReply_uses env g _ _) fun _ => ?_
  cases s.cfg.packers.findIdx? _ with
  | some k => exact Uses.bind (Uses.any _) fun _ _ => addCommandReply_uses env g _ _
  | none => exact Uses.bind (addCommandReply_uses env g _ _) fun r g => afAddLines_uses env g _

theorem afPercent_uses (env : Env) (ci : Nat) (buf : Str) {st : AfSt} (g : st.r.Gen) :
    Uses (fun st : AfSt => st.r.Gen) fun self => afPercent env self ci buf st := by
  unfold afPercent
  refine Uses.bind (Uses.any M.get) fun s _ => ?_
  cases s.cfg.nodes[ci]? with
  | none => exact Uses.ub _
  | some cn =>
    dsimp only
    have hr := fun (st : AfSt) (g : st.r.Gen) (c m : Str) => reply_uses env g c m
    have hd : ∀ (c m : Str) (f : AfSt → AfSt), (∀ st, (f st).r = st.r) →
        Uses (fun st : AfSt => st.r.Gen) fun self => st.reply env self c m >>= fun st => Pure.pure (f st) :=
      fun c m f hf => Uses.bind (hr st g c m) fun st g => Uses.pure (by rw [hf]; exact g)
    refine Uses.ite (fun _ => Uses.ite (fun _ => hr st g _ _) fun _ => ?_) fun _ => ?_
    · refine Uses.bind (Uses.any _) fun _ _ => ?_
      exact Uses.bind (hr st g _ _) fun st g => Uses.bind (hr st g _ _) fun st g => Uses.pure g
    refine Uses.ite (fun _ => Uses.ite (fun _ => ?_) fun _ => hr st g _ _) fun _ => ?_
    · exact Uses.bind (Uses.any _) fun _ _ => hd _ _ _ fun _ => rfl
    refine Uses.ite (fun _ => Uses.ite (fun _ => ?_) fun _ => hr st g _ _) fun _ => ?_
    · exact Uses.bind (Uses.any _) fun _ _ => hd _ _ _ fun _ => rfl
    refine Uses.ite (fun _ => Uses.ite (fun _ => hd _ _ _ fun _ => rfl) fun _ => hr st g _ _) fun _ => ?_
    refine Uses.ite (fun _ => Uses.ite (fun _ => ?_) fun _ => hr st g _ _) fun _ => ?_
    · exact Uses.bind (afCompress_uses env ci _ _ g) fun r g => Uses.pure g
    refine Uses.ite (fun _ => hd _ _ _ fun _ => rfl) fun _ => ?_
    refine Uses.ite (fun _ => hd _ _ _ fun _ => rfl) fun _ => ?_
    refine Uses.ite (fun _ => hd _ _ _ fun _ => rfl) fun _ => ?_
    refine Uses.ite (fun _ => hd _ _ _ fun _ => rfl) fun _ => ?_
    refine Uses.ite (fun _ => hd _ _ _ fun _ => rfl) fun _ => ?_
    exact hd _ _ _ fun _ => rfl

theorem afLine_uses (env : Env) (ci : Nat) (mynode : Node4D) (buf : Str) {st : AfSt} (g : st.r.Gen) :
    Uses (fun st : AfSt => st.r.Gen) fun self => afLine env self ci mynode buf st := by
  unfold afLine
  refine Uses.bind (P := fun st : AfSt => st.r.Gen) ?_ fun st g => Uses.bind (Uses.any _) fun _ _ => Uses.pure g
  cases buf with
  | nil => exact Uses.pure g
  | cons c l =>
    refine Uses.ite (fun _ => afPercent_uses env ci _ g) fun _ => Uses.ite (fun _ => Uses.pure g) fun _ => ?_
    exact Uses.bind (afAreaLine_uses env ci mynode _ _ g) fun r g => Uses.pure g

theorem afChunk_uses (env : Env) (ci : Nat) (mynode : Node4D) (f : Nat) (s : Str) {st : AfSt} (g : st.r.Gen) :
    Uses (fun p : AfSt × Bool => p.1.r.Gen) fun self => afChunk env self ci mynode f s st := by
  induction f generalizing s st with
  | zero => exact Uses.pure g
  | succ f ih =>
    unfold afChunk
    refine Uses.ite (fun _ => Uses.pure g) fun _ => ?_
    dsimp only
    refine Uses.ite (fun _ => Uses.ub _) fun _ => ?_
    refine Uses.bind (afLine_uses env ci mynode _ g) fun st g => Uses.ite (fun _ => Uses.pure g) fun _ => ih _ g

theorem afText_uses (env : Env) (ci : Nat) (mynode : Node4D) (cs : List Str) {st : AfSt} (g : st.r.Gen) :
    Uses (fun st : AfSt => st.r.Gen) fun self => afText env self ci mynode cs st := by
  induction cs generalizing st with
  | nil => exact Uses.pure g
  | cons c cs ih =>
    unfold afText
    refine Uses.bind (afChunk_uses env ci mynode _ _ g) fun p g => ?_
    obtain ⟨st, stop⟩ := p
    exact Uses.ite (fun _ => Uses.pure g) fun _ => ih g

theorem afInit_uses (env : Env) (frm to : Node4D) (toname subject : Str) :
    Uses AfReply.Gen fun _ => afInit env frm toname to subject := Uses.const fun _ _ _ h => afInit_gen h

theorem sendList_uses (env : Env) (type : ListType) (from4 : Node4D) (toname : Str) (ci : Nat) :
    Uses (fun _ => True) fun self => sendList env self type from4 toname ci := by
  unfold sendList
  refine Uses.bind (Uses.any M.get) fun s _ => ?_
  cases s.cfg.nodes[ci]? with
  | none => exact Uses.ub _
  | some cn =>
    refine Uses.bind (afInit_uses _ _ _ _ _) fun r g => Uses.bind (afAddLines_uses env g _) fun r g => ?_
    refine Uses.bind (Uses.any _) fun es _ => Uses.bind (Uses.any _) fun body _ => ?_
    exact Uses.bind (afAddLines_uses env g _) fun r g => afSend_uses g

theorem sendHelp_uses (env : Env) (from4 : Node4D) (toname : Str) (ci : Nat) :
    Uses (fun _ => True) fun self => sendHelp env self from4 toname ci := by
  unfold sendHelp
  refine Uses.bind (Uses.any M.get) fun s _ => ?_
  cases s.cfg.nodes[ci]? with
  | none => exact Uses.ub _
  | some cn =>
    exact Uses.bind (afInit_uses _ _ _ _ _) fun r g => Uses.bind (afAddLines_uses env g _) fun r g => afSend_uses g

theorem sendInfo_uses (env : Env) (from4 : Node4D) (toname : Str) (ci : Nat) :
    Uses (fun _ => True) fun self => sendInfo env self from4 toname ci := by
  unfold sendInfo
  refine Uses.bind (Uses.any M.get) fun s _ => ?_
  cases s.cfg.nodes[ci]? with
  | none => exact Uses.ub _
  | some cn =>
    refine Uses.bind (afInit_uses _ _ _ _ _) fun r g => ?_
    dsimp only
    refine Uses.bind (Uses.any _) fun _ _ => Uses.bind (Uses.any _) fun _ _ => ?_
    exact Uses.bind (afAddLines_uses env g _) fun r g => afSend_uses g

theorem sendRemote1_uses (env : Env) (i : Nat) : Uses (fun _ => True) fun self => sendRemote1 env self i := by
  unfold sendRemote1
  refine Uses.bind (Uses.any M.get) fun s _ => ?_
  cases s.cfg.nodes[i]? with
  | none => exact Uses.pure trivial
  | some n =>
    refine Uses.ite (fun _ => Uses.pure trivial) fun _ => ?_
    cases s.cfg.findRoute n.node with
    | none => exact Uses.ub _
    | some rt =>
      refine Uses.bind (newNetmail_uses _ _ _ _ _) fun m g => Uses.bind (mmAddLines_uses g _) fun m g => ?_
      exact Uses.bind (Uses.attempt g) fun _ _ => Uses.any _

theorem sendRemote_uses (env : Env) (k i : Nat) : Uses (fun _ => True) fun self => sendRemote env self k i := by
  induction k generalizing i with
  | zero => exact Uses.pure trivial
  | succ k ih => exact Uses.bind (sendRemote1_uses env i) fun _ _ => ih _

theorem afLists_uses (env : Env) (mynode : Node4D) (toname : Str) (ci : Nat) (st : AfSt) :
    Uses (fun _ => True) fun self => afLists env self mynode toname ci st := by
  unfold afLists
  refine Uses.bind (Uses.ite (fun _ => sendList_uses env _ _ _ _) fun _ => Uses.pure trivial) fun _ _ => ?_
  refine Uses.bind (Uses.ite (fun _ => sendList_uses env _ _ _ _) fun _ => Uses.pure trivial) fun _ _ => ?_
  refine Uses.bind (Uses.ite (fun _ => sendList_uses env _ _ _ _) fun _ => Uses.pure trivial) fun _ _ => ?_
  refine Uses.bind (Uses.ite (fun _ => sendHelp_uses env _ _ _) fun _ => Uses.pure trivial) fun _ _ => ?_
  exact Uses.ite (fun _ => sendInfo_uses env _ _ _) fun _ => Uses.pure trivial

theorem afRefuse_uses (env : Env) {r : AfReply} (g : r.Gen) (line : Str) :
    Uses (fun _ => True) fun self => afRefuse env self r line :=
  Uses.bind (afAddLine_uses env g line) fun _ g => afSend_uses g

theorem afRun_uses (env : Env) (m : MemMsg) (mynode : Node4D) (ci : Nat) (rest : Str) {r : AfReply} (g : r.Gen) :
    Uses (fun _ => True) fun self => afRun env self m mynode ci rest r := by
  unfold afRun
  dsimp only
  refine Uses.bind (P := fun st : AfSt => st.r.Gen) (Uses.ite (fun _ => ?_) fun _ => Uses.pure g) fun st g => ?_
  · exact Uses.bind (addCommandReply_uses env g _ _) fun r g => Uses.pure g
  refine Uses.bind (afText_uses env ci mynode _ g) fun st g => ?_
  refine Uses.bind (P := AfReply.Gen) (Uses.ite (fun _ => Uses.pure g) fun _ => afAddLine_uses env g _) fun r g => ?_
  refine Uses.bind (Uses.any M.get) fun s _ => Uses.ite (fun _ => Uses.fail) fun _ => ?_
  refine Uses.bind (afSend_uses g) fun _ _ => Uses.bind (afLists_uses env _ _ _ _) fun _ _ => ?_
  exact Uses.bind (Uses.any M.get) fun s _ => sendRemote_uses env _ _

theorem areaFix_uses (env : Env) (m : MemMsg) : Uses (fun _ => True) fun self => areaFix env self m := by
  unfold areaFix
  refine Uses.bind (Uses.any M.get) fun s _ => ?_
  cases s.cfg.findRoute m.orig with
  | none => exact Uses.pure trivial
  | some rt =>
    refine Uses.bind (afInit_uses _ _ _ _ _) fun r g => ?_
    cases s.cfg.nodes.findIdx? fun n => compare4D n.node m.orig == 0 with
    | none => exact afRefuse_uses env g _
    | some ci =>
      dsimp only
      cases s.cfg.nodes[ci]? with
      | none => exact Uses.ub _
      | some cn => exact Uses.ite (fun _ => afRefuse_uses env g _) fun _ => afRun_uses env m _ _ _ g

end CM
