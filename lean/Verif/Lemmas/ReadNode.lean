import Verif.Lemmas.ReadItem
/-! # Reading what was written: nodes -/
set_option linter.unusedSimpArgs false

namespace CM

/-- The state with this node at the end of the list. -/
def withNode (s : RdSt) (N : List ConfigNode) (n : ConfigNode) : RdSt := { s with cfg := { s.cfg with nodes := N ++ [n] } }

theorem rdLine_nodeCmd {s : RdSt} {N : List ConfigNode} {a b : ConfigNode} {l w rest : Str} {ok : Bool} (hl : jbstrcpy 30 l = (w, rest, ok))
    (h1 : isAreaWord w = false) (h2 : areaCmdWords.any (eqi w) = false) (h4 : eqi w b!"NODE" = false)
    (h5 : nodeCmdWords.any (eqi w) = true) (h3 : rdNodeCmd w rest a = .ok b) :
    rdLine (withNode s N a) l = .ok (withNode s N b) := by
  unfold rdLine
  rw [hl]
  dsimp only
  rw [if_neg (by rw [h1]; decide), if_neg (by rw [h2]; decide), if_neg (by rw [h4]; decide), if_pos h5]
  have e : (withNode s N a).cfg.nodes.getLast? = some a := by simp [withNode]
  rw [e]
  dsimp only
  rw [h3]
  show Except.ok _ = _
  simp [withNode]

theorem rdArg_quoted {m : Nat} {x out rest : Str} (h : writeSafely x = .ok out) (h1 : 10 ∉ x) (h2 : x.length < m) :
    rdArg m (out ++ rest) = .ok (x, rest) := by
  unfold rdArg
  rw [jbstrcpy_writeSafely m x rest out h1 h2 h]
  rfl

theorem rdArg_sp (m : Nat) (x : Str) : rdArg m (32 :: x) = rdArg m x := by
  unfold rdArg
  rw [jbstrcpy_sp]

theorem groups_oneLine {g : Str} (h : GroupList g) : 10 ∉ g := by
  intro hc
  have := (h.2 10 hc).1
  revert this; decide

theorem correctFlags_back {g : Str} (h : GroupList g) : correctFlags g = (g, true) := by
  have h1 : (correctFlags g).2 = true := (correctFlags_iff g).2 fun c hc => .inl (h.2 c hc)
  have h2 := correctFlags_upper g h1
  have h3 : ∀ c : UInt8, 65 ≤ c → c ≤ 90 → upper c = c := by decide +kernel
  have h4 : g.map upper = g := by
    conv => rhs; rw [← List.map_id g]
    apply List.map_congr_left
    intro c hc
    exact h3 c (h.2 c hc).1 (h.2 c hc).2
  rw [h4] at h2
  exact Prod.ext h2 h1

theorem rdGroups_quoted {g out rest : Str} (h : writeSafely g = .ok out) (hg : GroupList g) :
    rdGroups (32 :: (out ++ rest)) = .ok (g, rest) := by
  have hl := hg.1
  unfold rdGroups
  rw [jbstrcpy_sp, jbstrcpy_writeSafely 70 g rest out (groups_oneLine hg) (by omega) h]
  dsimp only
  rw [if_pos rfl]
  unfold rdFit
  rw [if_pos hg.1]
  show (if (correctFlags g).2 = true then _ else _) = _
  rw [correctFlags_back hg]
  rfl

/-! ## The lines after the first -/

theorem reads_pktFrom (s : RdSt) (N : List ConfigNode) (n : ConfigNode) (a : Node4D) :
    Reads (withNode s N n) (b!"PKTFROM " ++ writeNode4D a ++ [10])
      (withNode s N { n with flags := n.flags ||| NODE_PKTFROM, pktFrom := a }) := by
  have hp := plain_oneLine (writeNode4D_plain a)
  have hl := writeNode4D_length a
  refine .line (l := b!"PKTFROM " ++ writeNode4D a) (by simp [hp]) ?_
  have e : b!"PKTFROM " ++ writeNode4D a ++ [10] = b!"PKTFROM" ++ 32 :: (writeNode4D a ++ 10 :: []) := by simp
  rw [e]
  refine rdLine_nodeCmd (jbstrcpy_word_sp 30 b!"PKTFROM" _ (by decide) (by decide)) (by decide) (by decide) (by decide) (by decide) ?_
  unfold rdNodeCmd
  rw [if_pos (by decide)]
  have e : rdArg 200 (writeNode4D a ++ 10 :: []) = .ok (writeNode4D a, [10]) := by
    unfold rdArg
    rw [jbstrcpy_word_lf 200 _ [] (writeNode4D_plain a) (by omega)]
    rfl
  rw [e]
  show (do let a ← rdNode (writeNode4D a); _) = _
  rw [rdNode_write]
  rfl

theorem reads_areafixInfo (s : RdSt) (N : List ConfigNode) (n : ConfigNode) {pw g r a pw' g' r' a' : Str}
    (h1 : writeSafely pw = .ok pw') (h2 : writeSafely g = .ok g') (h3 : writeSafely r = .ok r') (h4 : writeSafely a = .ok a')
    (hp : 10 ∉ pw) (hl : pw.length < 40) (hg : GroupList g) (hr : GroupList r) (ha : GroupList a) :
    Reads (withNode s N n) (b!"AREAFIXINFO " ++ pw' ++ [32] ++ g' ++ [32] ++ r' ++ [32] ++ a' ++ [32, 10])
      (withNode s N { n with areafixPW := pw, groups := g, readOnlyGroups := r, addGroups := a }) := by
  have o1 := writeSafely_oneLine h1 hp
  have o2 := writeSafely_oneLine h2 (groups_oneLine hg)
  have o3 := writeSafely_oneLine h3 (groups_oneLine hr)
  have o4 := writeSafely_oneLine h4 (groups_oneLine ha)
  have e : b!"AREAFIXINFO " ++ pw' ++ [32] ++ g' ++ [32] ++ r' ++ [32] ++ a' ++ [32, 10] =
      b!"AREAFIXINFO " ++ pw' ++ [32] ++ g' ++ [32] ++ r' ++ [32] ++ a' ++ [32] ++ [10] := by simp
  rw [e]
  refine .line (by simp [o1, o2, o3, o4]) ?_
  have e : b!"AREAFIXINFO " ++ pw' ++ [32] ++ g' ++ [32] ++ r' ++ [32] ++ a' ++ [32] ++ [10] =
      b!"AREAFIXINFO" ++ 32 :: (pw' ++ 32 :: (g' ++ 32 :: (r' ++ 32 :: (a' ++ [32, 10])))) := by simp
  rw [e]
  refine rdLine_nodeCmd (jbstrcpy_word_sp 30 b!"AREAFIXINFO" _ (by decide) (by decide)) (by decide) (by decide) (by decide) (by decide) ?_
  unfold rdNodeCmd
  rw [if_neg (by decide), if_pos (by decide), rdArg_quoted h1 hp hl]
  show (do let g ← rdGroups (32 :: (g' ++ _)); _) = _
  rw [rdGroups_quoted h2 hg]
  show (do let g ← rdGroups (32 :: (r' ++ _)); _) = _
  rw [rdGroups_quoted h3 hr]
  show (do let g ← rdGroups (32 :: (a' ++ _)); _) = _
  rw [rdGroups_quoted h4 ha]
  rfl

theorem reads_remoteAF (s : RdSt) (N : List ConfigNode) (n : ConfigNode) {x p x' p' : Str} (c : Prop) [Decidable c]
    (h1 : writeSafely x = .ok x') (h2 : writeSafely p = .ok p') (o1 : 10 ∉ x) (l1 : x.length < 36) (o2 : 10 ∉ p) (l2 : p.length < 72) :
    Reads (withNode s N n) (b!"REMOTEAF " ++ x' ++ [32] ++ p' ++ (if c then b!" NEEDSPLUS" else []) ++ [10])
      (withNode s N { n with remoteAFName := x, remoteAFPw := p, flags := if c then n.flags ||| NODE_AFNEEDSPLUS else n.flags }) := by
  have p1 := writeSafely_oneLine h1 o1
  have p2 := writeSafely_oneLine h2 o2
  refine .line ?_ ?_
  · have : (10 : UInt8) ∉ (if c then b!" NEEDSPLUS" else []) := by split <;> decide
    simp only [List.mem_append, p1, p2, this]
    decide
  have e : b!"REMOTEAF " ++ x' ++ [32] ++ p' ++ (if c then b!" NEEDSPLUS" else []) ++ [10] =
      b!"REMOTEAF" ++ 32 :: (x' ++ 32 :: (p' ++ ((if c then b!" NEEDSPLUS" else []) ++ [10]))) := by simp
  rw [e]
  refine rdLine_nodeCmd (jbstrcpy_word_sp 30 b!"REMOTEAF" _ (by decide) (by decide)) (by decide) (by decide) (by decide) (by decide) ?_
  unfold rdNodeCmd
  rw [if_neg (by decide), if_neg (by decide), if_neg (by decide), if_pos (by decide), rdArg_quoted h1 o1 l1]
  show (do let p ← rdArg 72 (32 :: (p' ++ _)); _) = _
  rw [rdArg_sp, rdArg_quoted h2 o2 l2]
  show (rdWords 200 ((if c then b!" NEEDSPLUS" else []) ++ [10])).foldlM rdPlus _ = _
  by_cases hc : c
  · rw [if_pos hc, if_pos hc]
    have : rdWords 200 (b!" NEEDSPLUS" ++ [10]) = [b!"NEEDSPLUS"] := by
      have := rdWords_plain 200 [b!"NEEDSPLUS"] (by decide)
      simpa using this
    rw [this]
    rfl
  · rw [if_neg hc, if_neg hc]
    have : rdWords 200 ([] ++ [10]) = [] := rdWords_plain 200 [] (by simp)
    rw [this]
    rfl

theorem reads_sysop (s : RdSt) (N : List ConfigNode) (n : ConfigNode) {x x' : Str} (h1 : writeSafely x = .ok x') (o1 : 10 ∉ x) (l1 : x.length < 36) :
    Reads (withNode s N n) (b!"REMOTESYSOP " ++ x' ++ [10]) (withNode s N { n with sysopName := x }) := by
  have p1 := writeSafely_oneLine h1 o1
  refine .line (by simp [p1]) ?_
  have e : b!"REMOTESYSOP " ++ x' ++ [10] = b!"REMOTESYSOP" ++ 32 :: (x' ++ [10]) := by simp
  rw [e]
  refine rdLine_nodeCmd (jbstrcpy_word_sp 30 b!"REMOTESYSOP" _ (by decide) (by decide)) (by decide) (by decide) (by decide) (by decide) ?_
  unfold rdNodeCmd
  rw [if_neg (by decide), if_neg (by decide), if_neg (by decide), if_neg (by decide), rdArg_quoted h1 o1 l1]
  rfl

theorem reads_defaultGroup (s : RdSt) (N : List ConfigNode) (n : ConfigNode) {g : UInt8} (h1 : 65 ≤ g) (h2 : g ≤ 90) :
    Reads (withNode s N n) (b!"DEFAULTGROUP " ++ [g, 10]) (withNode s N { n with defaultGroup := g }) := by
  obtain ⟨p, r, hn⟩ := letter_plain g h1 h2
  have e : b!"DEFAULTGROUP " ++ [g, 10] = b!"DEFAULTGROUP " ++ [g] ++ [10] := by simp
  rw [e]
  refine .line (by simp [Ne.symm hn]) ?_
  have e : b!"DEFAULTGROUP " ++ [g] ++ [10] = b!"DEFAULTGROUP" ++ 32 :: ([g] ++ 10 :: []) := by simp
  rw [e]
  refine rdLine_nodeCmd (jbstrcpy_word_sp 30 b!"DEFAULTGROUP" _ (by decide) (by decide)) (by decide) (by decide) (by decide) (by decide) ?_
  unfold rdNodeCmd
  rw [if_neg (by decide), if_neg (by decide), if_pos (by decide)]
  unfold rdArg
  rw [jbstrcpy_word_lf 2 [g] [] p (by simp)]
  show (do let g ← rdGroup [g]; _) = _
  rw [r]
  rfl

/-! ## The first line -/

/-- The switches of a node as words. -/
def switchWords (n : ConfigNode) : List Str :=
  (if n.has NODE_PASSIVE then [b!"PASSIVE"] else []) ++
  (if n.has NODE_NOTIFY then [b!"NOTIFY"] else []) ++
  (if n.has NODE_NOSEENBY then [b!"NOSEENBY"] else []) ++
  (if n.has NODE_TINYSEENBY then [b!"TINYSEENBY"] else []) ++
  (if n.has NODE_FORWARDREQ then [b!"FORWARDREQ"] else []) ++
  (if n.has NODE_PACKNETMAIL then [b!"PACKNETMAIL"] else []) ++
  (if n.has NODE_NONETMAILPASSWORD then [b!"NONETMAILPASSWORD"] else []) ++
  (if n.has NODE_SENDAREAFIX then [b!"SENDAREAFIX"] else []) ++
  (if n.has NODE_SENDTEXT then [b!"SENDTEXT"] else []) ++
  (if n.has NODE_AUTOADD then [b!"AUTOADD"] else []) ++
  (if n.echomailPri = 4 then [b!"CRASH"] else []) ++
  (if n.echomailPri = 3 then [b!"DIRECT"] else []) ++
  (if n.echomailPri = 1 then [b!"HOLD"] else [])

theorem flatMap_ite (c : Prop) [Decidable c] (w : Str) :
    (if c then [w] else []).flatMap (fun w => (32 : UInt8) :: w) = if c then 32 :: w else [] := by
  split <;> simp

theorem nodeSwitches_words (n : ConfigNode) : nodeSwitches n = (switchWords n).flatMap (fun w => 32 :: w) := by
  unfold nodeSwitches switchWords
  simp only [List.flatMap_append, flatMap_ite]

theorem switchWords_plain (n : ConfigNode) : ∀ w ∈ switchWords n, PlainWord w ∧ w.length < 200 := by
  have key : ∀ (c : Prop) [Decidable c] (w x : Str), PlainWord w ∧ w.length < 200 → x ∈ (if c then [w] else []) → PlainWord x ∧ x.length < 200 := by
    intro c _ w x h hx
    split at hx
    · rw [List.mem_singleton.1 hx]; exact h
    · cases hx
  intro w hw
  unfold switchWords at hw
  simp only [List.mem_append] at hw
  rcases hw with (((((((((((hw | hw) | hw) | hw) | hw) | hw) | hw) | hw) | hw) | hw) | hw) | hw) | hw <;>
    exact key _ _ _ (by decide) hw

theorem foldlM_app {α β ε : Type} {f : β → α → Except ε β} {l1 l2 : List α} {a b c : β} (h1 : l1.foldlM f a = .ok b) (h2 : l2.foldlM f b = .ok c) :
    (l1 ++ l2).foldlM f a = .ok c := by
  rw [List.foldlM_append, h1]
  exact h2

/-- A node with these switches. -/
def swNode (b : ConfigNode) (f : UInt32) (p : UInt8) : ConfigNode := { b with flags := f, echomailPri := p }

theorem fold_flag (b : ConfigNode) (f : UInt32) (p : UInt8) (w : Str) (m : UInt32) (c : Prop) [Decidable c]
    (h : ∀ n, rdSwitch n w = .ok { n with flags := n.flags ||| m }) :
    (if c then [w] else []).foldlM rdSwitch (swNode b f p) = .ok (swNode b (if c then f ||| m else f) p) := by
  by_cases hc : c
  · rw [if_pos hc, if_pos hc, List.foldlM_cons, h]; rfl
  · rw [if_neg hc, if_neg hc]; rfl

theorem fold_pri (b : ConfigNode) (f : UInt32) (p : UInt8) (w : Str) (m : UInt8) (c : Prop) [Decidable c]
    (h : ∀ n, rdSwitch n w = .ok { n with echomailPri := m }) :
    (if c then [w] else []).foldlM rdSwitch (swNode b f p) = .ok (swNode b f (if c then m else p)) := by
  by_cases hc : c
  · rw [if_pos hc, if_pos hc, List.foldlM_cons, h]; rfl
  · rw [if_neg hc, if_neg hc]; rfl

/-- The switches of the first line. -/
def headFlags (f : UInt32) : UInt32 :=
  let f1 := if (f &&& 2 != 0) = true then (0 : UInt32) ||| 2 else 0
  let f2 := if (f &&& 32 != 0) = true then f1 ||| 32 else f1
  let f3 := if (f &&& 8 != 0) = true then f2 ||| 8 else f2
  let f4 := if (f &&& 4 != 0) = true then f3 ||| 4 else f3
  let f5 := if (f &&& 16 != 0) = true then f4 ||| 16 else f4
  let f6 := if (f &&& 64 != 0) = true then f5 ||| 64 else f5
  let f7 := if (f &&& 2048 != 0) = true then f6 ||| 2048 else f6
  let f8 := if (f &&& 128 != 0) = true then f7 ||| 128 else f7
  let f9 := if (f &&& 256 != 0) = true then f8 ||| 256 else f8
  if (f &&& 1 != 0) = true then f9 ||| 1 else f9

theorem nodeFlags_table : (List.range 4096).all (fun i =>
    let f := UInt32.ofNat i
    let g := if (f &&& 512 != 0) = true then headFlags f ||| 512 else headFlags f
    (if (f &&& 1024 != 0) = true then g ||| 1024 else g) == f) = true := by decide +kernel

theorem nodeFlags_back (f : UInt32) (h : f &&& 4095 = f) :
    (if (f &&& 1024 != 0) = true then (if (f &&& 512 != 0) = true then headFlags f ||| 512 else headFlags f) ||| 1024
      else if (f &&& 512 != 0) = true then headFlags f ||| 512 else headFlags f) = f := by
  have hl : f.toNat < 4096 := by
    rw [← h, UInt32.toNat_and]
    have := Nat.and_le_right (n := f.toNat) (m := (4095 : UInt32).toNat)
    have e : (4095 : UInt32).toNat = 4095 := rfl
    omega
  have := List.all_eq_true.1 nodeFlags_table f.toNat (by simpa using hl)
  rw [UInt32.ofNat_toNat] at this
  simpa using this

theorem pri_back : ∀ e : UInt8, 1 ≤ e → e ≤ 4 →
    (let p1 : UInt8 := if e = 4 then 4 else 2
     let p2 : UInt8 := if e = 3 then 3 else p1
     if e = 1 then 1 else p2) = e := by decide +kernel

theorem fold_switches (n b : ConfigNode) (hp : 1 ≤ n.echomailPri ∧ n.echomailPri ≤ 4) :
    (switchWords n).foldlM rdSwitch (swNode b 0 2) = .ok (swNode b (headFlags n.flags) n.echomailPri) := by
  have e := pri_back n.echomailPri hp.1 hp.2
  have h := fold_flag b 0 2 b!"PASSIVE" 2 (n.has NODE_PASSIVE = true) fun _ => rfl
  have h := foldlM_app h (fold_flag b _ 2 b!"NOTIFY" 32 (n.has NODE_NOTIFY = true) fun _ => rfl)
  have h := foldlM_app h (fold_flag b _ 2 b!"NOSEENBY" 8 (n.has NODE_NOSEENBY = true) fun _ => rfl)
  have h := foldlM_app h (fold_flag b _ 2 b!"TINYSEENBY" 4 (n.has NODE_TINYSEENBY = true) fun _ => rfl)
  have h := foldlM_app h (fold_flag b _ 2 b!"FORWARDREQ" 16 (n.has NODE_FORWARDREQ = true) fun _ => rfl)
  have h := foldlM_app h (fold_flag b _ 2 b!"PACKNETMAIL" 64 (n.has NODE_PACKNETMAIL = true) fun _ => rfl)
  have h := foldlM_app h (fold_flag b _ 2 b!"NONETMAILPASSWORD" 2048 (n.has NODE_NONETMAILPASSWORD = true) fun _ => rfl)
  have h := foldlM_app h (fold_flag b _ 2 b!"SENDAREAFIX" 128 (n.has NODE_SENDAREAFIX = true) fun _ => rfl)
  have h := foldlM_app h (fold_flag b _ 2 b!"SENDTEXT" 256 (n.has NODE_SENDTEXT = true) fun _ => rfl)
  have h := foldlM_app h (fold_flag b _ 2 b!"AUTOADD" 1 (n.has NODE_AUTOADD = true) fun _ => rfl)
  have h := foldlM_app h (fold_pri b _ 2 b!"CRASH" 4 (n.echomailPri = 4) fun _ => rfl)
  have h := foldlM_app h (fold_pri b _ _ b!"DIRECT" 3 (n.echomailPri = 3) fun _ => rfl)
  have h := foldlM_app h (fold_pri b _ _ b!"HOLD" 1 (n.echomailPri = 1) fun _ => rfl)
  dsimp only at e
  rw [e] at h
  exact h

/-- The packer of the node is known by the name it is written with. -/
def PackerBack (old new : List Packer) (n : ConfigNode) : Prop :=
  ∀ i, n.packer = some i → ∃ p q, old[i]? = some p ∧ new[i]? = some q ∧ p.name = q.name ∧ p.name ≠ [] ∧ 10 ∉ p.name ∧
    p.name.length < 10 ∧ ∀ x ∈ new.take i, eqi p.name x.name = false

theorem rdPacker_back {old new : List Packer} {n : ConfigNode} (h : PackerBack old new n) :
    rdPacker new ((n.packer.bind (old[·]?)).elim [] (·.name)) = .ok n.packer ∧
    10 ∉ (n.packer.bind (old[·]?)).elim [] (·.name) ∧ ((n.packer.bind (old[·]?)).elim [] (·.name)).length < 10 := by
  cases hp : n.packer with
  | none => exact ⟨rfl, by simp, by simp⟩
  | some i =>
    obtain ⟨p, q, h1, h2, h3, h4, h5, h6, h7⟩ := h i hp
    simp only [Option.bind_some, h1, Option.elim_some]
    refine ⟨?_, h5, h6⟩
    unfold rdPacker
    rw [if_neg h4]
    have : new.findIdx? (fun x => eqi p.name x.name) = some i := by
      obtain ⟨hi, rfl⟩ := List.getElem?_eq_some_iff.1 h2
      rw [List.findIdx?_eq_some_iff_getElem]
      refine ⟨hi, by rw [h3]; exact (eqi_iff _ _).2 rfl, fun j hj => ?_⟩
      rw [h7 new[j] (List.mem_take_iff_getElem.2 ⟨j, by omega, rfl⟩)]
      decide
    rw [this]

theorem reads_nodeHead (s : RdSt) (old : List Packer) (n : ConfigNode) {packer pw : Str}
    (h1 : writeSafely ((n.packer.bind (old[·]?)).elim [] (·.name)) = .ok packer) (h2 : writeSafely n.packetPW = .ok pw)
    (hp : PackerBack old s.cfg.packers n) (ok : NodeOk s.cfg.packers.length n) :
    Reads s (b!"NODE " ++ writeNode4D n.node ++ [32] ++ packer ++ [32] ++ pw ++ nodeSwitches n ++ [10])
      (withNode s s.cfg.nodes { node := n.node, packer := n.packer, packetPW := n.packetPW, flags := headFlags n.flags, echomailPri := n.echomailPri }) := by
  obtain ⟨k1, k2, k3⟩ := rdPacker_back hp
  have o1 := writeSafely_oneLine h1 k2
  have o2 := writeSafely_oneLine h2 ok.oneLine.1
  have o3 := plain_oneLine (writeNode4D_plain n.node)
  have o4 : 10 ∉ nodeSwitches n := by
    rw [nodeSwitches_words]
    intro hc
    obtain ⟨w, hw, hc⟩ := List.mem_flatMap.1 hc
    rcases List.mem_cons.1 hc with hc | hc
    · revert hc; decide
    · exact plain_oneLine (switchWords_plain n w hw).1 hc
  have hl := writeNode4D_length n.node
  refine .line (by simp [o1, o2, o3, o4]) ?_
  have e : b!"NODE " ++ writeNode4D n.node ++ [32] ++ packer ++ [32] ++ pw ++ nodeSwitches n ++ [10] =
      b!"NODE" ++ 32 :: (writeNode4D n.node ++ 32 :: (packer ++ 32 :: (pw ++ (nodeSwitches n ++ [10])))) := by simp
  rw [e]
  have key : rdNodeLine s.cfg.packers (writeNode4D n.node ++ 32 :: (packer ++ 32 :: (pw ++ (nodeSwitches n ++ [10])))) =
      .ok { node := n.node, packer := n.packer, packetPW := n.packetPW, flags := headFlags n.flags, echomailPri := n.echomailPri } := by
    have a1 : rdArg 200 (writeNode4D n.node ++ 32 :: (packer ++ 32 :: (pw ++ (nodeSwitches n ++ [10])))) =
        .ok (writeNode4D n.node, packer ++ 32 :: (pw ++ (nodeSwitches n ++ [10]))) := by
      unfold rdArg
      rw [jbstrcpy_word_sp 200 _ _ (writeNode4D_plain _) (by omega)]
      rfl
    have a2 : rdArg 9 (32 :: (pw ++ (nodeSwitches n ++ [10]))) = .ok (n.packetPW, nodeSwitches n ++ [10]) := by
      rw [rdArg_sp, rdArg_quoted h2 ok.oneLine.1 ok.packetPW]
    have a3 : rdWords 200 (nodeSwitches n ++ [10]) = switchWords n := by
      rw [nodeSwitches_words, rdWords_plain 200 _ (switchWords_plain n)]
    unfold rdNodeLine
    refine ebind_ok.2 ⟨_, a1, ebind_ok.2 ⟨_, rdNode_write _, ebind_ok.2 ⟨_, rdArg_quoted h1 k2 k3, ebind_ok.2 ⟨_, k1, ebind_ok.2 ⟨_, a2, ?_⟩⟩⟩⟩⟩
    dsimp only
    rw [a3]
    exact fold_switches n { node := n.node, packer := n.packer, packetPW := n.packetPW } ok.pri
  unfold rdLine
  rw [jbstrcpy_word_sp 30 b!"NODE" _ (by decide) (by decide)]
  dsimp only
  rw [if_neg (by decide), if_neg (by decide), if_pos (by decide), key]
  rfl

/-- The text of `WriteNode` in its parts. -/
theorem nodeText_parts {cfg : Config} {n : ConfigNode} {txt : Str} (h : nodeText cfg n = .ok txt) :
    ∃ packer pw info raf sysop, writeSafely ((n.packer.bind (cfg.packers[·]?)).elim [] (·.name)) = .ok packer ∧
      writeSafely n.packetPW = .ok pw ∧
      ((n.areafixPW = [] ∧ n.groups = [] ∧ n.readOnlyGroups = [] ∧ n.addGroups = [] ∧ info = []) ∨
        ∃ p g r a, writeSafely n.areafixPW = .ok p ∧ writeSafely n.groups = .ok g ∧ writeSafely n.readOnlyGroups = .ok r ∧
          writeSafely n.addGroups = .ok a ∧ info = b!"AREAFIXINFO " ++ p ++ [32] ++ g ++ [32] ++ r ++ [32] ++ a ++ [32, 10]) ∧
      ((n.remoteAFName = [] ∧ raf = []) ∨ ∃ x p, n.remoteAFName ≠ [] ∧ writeSafely n.remoteAFName = .ok x ∧ writeSafely n.remoteAFPw = .ok p ∧
        raf = b!"REMOTEAF " ++ x ++ [32] ++ p ++ (if n.has NODE_AFNEEDSPLUS then b!" NEEDSPLUS" else []) ++ [10]) ∧
      ((n.sysopName = [] ∧ sysop = []) ∨ ∃ x, writeSafely n.sysopName = .ok x ∧ sysop = b!"REMOTESYSOP " ++ x ++ [10]) ∧
      txt = b!"NODE " ++ writeNode4D n.node ++ [32] ++ packer ++ [32] ++ pw ++ nodeSwitches n ++ [10] ++
        (if n.has NODE_PKTFROM then b!"PKTFROM " ++ writeNode4D n.pktFrom ++ [10] else []) ++ info ++ raf ++ sysop ++
        (if n.defaultGroup ≠ 0 then b!"DEFAULTGROUP " ++ [n.defaultGroup, 10] else []) := by
  unfold nodeText at h
  obtain ⟨packer, h1, h⟩ := ebind_ok.1 h
  obtain ⟨pw, h2, h⟩ := ebind_ok.1 h
  dsimp only at h
  rcases iteq.1 h with ⟨hc, h⟩ | ⟨hc, h⟩
  · obtain ⟨p, hp, h⟩ := ebind_ok.1 h
    obtain ⟨g, hg, h⟩ := ebind_ok.1 h
    obtain ⟨r, hr, h⟩ := ebind_ok.1 h
    obtain ⟨a, ha, h⟩ := ebind_ok.1 h
    obtain ⟨_, hx, h⟩ := ebind_ok.1 h
    have := epure_ok.1 hx; subst this
    rcases iteq.1 h with ⟨hc2, h⟩ | ⟨hc2, h⟩
    · obtain ⟨x, hx, h⟩ := ebind_ok.1 h
      obtain ⟨y, hy, h⟩ := ebind_ok.1 h
      obtain ⟨_, hz, h⟩ := ebind_ok.1 h
      have := epure_ok.1 hz; subst this
      rcases iteq.1 h with ⟨hc3, h⟩ | ⟨hc3, h⟩
      · obtain ⟨z, hz, h⟩ := ebind_ok.1 h
        exact ⟨_, _, _, _, _, h1, h2, .inr ⟨_, _, _, _, hp, hg, hr, ha, rfl⟩, .inr ⟨_, _, hc2, hx, hy, rfl⟩, .inr ⟨_, hz, rfl⟩, (epure_ok.1 h).symm⟩
      · exact ⟨_, _, _, _, _, h1, h2, .inr ⟨_, _, _, _, hp, hg, hr, ha, rfl⟩, .inr ⟨_, _, hc2, hx, hy, rfl⟩, .inl ⟨Decidable.of_not_not hc3, rfl⟩, (epure_ok.1 h).symm⟩
    · rcases iteq.1 h with ⟨hc3, h⟩ | ⟨hc3, h⟩
      · obtain ⟨z, hz, h⟩ := ebind_ok.1 h
        exact ⟨_, _, _, _, _, h1, h2, .inr ⟨_, _, _, _, hp, hg, hr, ha, rfl⟩, .inl ⟨Decidable.of_not_not hc2, rfl⟩, .inr ⟨_, hz, rfl⟩, (epure_ok.1 h).symm⟩
      · exact ⟨_, _, _, _, _, h1, h2, .inr ⟨_, _, _, _, hp, hg, hr, ha, rfl⟩, .inl ⟨Decidable.of_not_not hc2, rfl⟩, .inl ⟨Decidable.of_not_not hc3, rfl⟩, (epure_ok.1 h).symm⟩
  · have hc' : n.areafixPW = [] ∧ n.groups = [] ∧ n.readOnlyGroups = [] ∧ n.addGroups = [] := by
      simpa [and_assoc] using hc
    obtain ⟨c1, c2, c3, c4⟩ := hc'
    rcases iteq.1 h with ⟨hc2, h⟩ | ⟨hc2, h⟩
    · obtain ⟨x, hx, h⟩ := ebind_ok.1 h
      obtain ⟨y, hy, h⟩ := ebind_ok.1 h
      obtain ⟨_, hz, h⟩ := ebind_ok.1 h
      have := epure_ok.1 hz; subst this
      rcases iteq.1 h with ⟨hc3, h⟩ | ⟨hc3, h⟩
      · obtain ⟨z, hz, h⟩ := ebind_ok.1 h
        exact ⟨_, _, _, _, _, h1, h2, .inl ⟨c1, c2, c3, c4, rfl⟩, .inr ⟨_, _, hc2, hx, hy, rfl⟩, .inr ⟨_, hz, rfl⟩, (epure_ok.1 h).symm⟩
      · exact ⟨_, _, _, _, _, h1, h2, .inl ⟨c1, c2, c3, c4, rfl⟩, .inr ⟨_, _, hc2, hx, hy, rfl⟩, .inl ⟨Decidable.of_not_not hc3, rfl⟩, (epure_ok.1 h).symm⟩
    · rcases iteq.1 h with ⟨hc3, h⟩ | ⟨hc3, h⟩
      · obtain ⟨z, hz, h⟩ := ebind_ok.1 h
        exact ⟨_, _, _, _, _, h1, h2, .inl ⟨c1, c2, c3, c4, rfl⟩, .inl ⟨Decidable.of_not_not hc2, rfl⟩, .inr ⟨_, hz, rfl⟩, (epure_ok.1 h).symm⟩
      · exact ⟨_, _, _, _, _, h1, h2, .inl ⟨c1, c2, c3, c4, rfl⟩, .inl ⟨Decidable.of_not_not hc2, rfl⟩, .inl ⟨Decidable.of_not_not hc3, rfl⟩, (epure_ok.1 h).symm⟩

theorem reads_node (s : RdSt) (cfg : Config) (n : ConfigNode) {txt : Str} (h : nodeText cfg n = .ok txt)
    (ok : NodeOk s.cfg.packers.length n) (hp : PackerBack cfg.packers s.cfg.packers n)
    (hr : n.remoteAFName = [] → n.remoteAFPw = [] ∧ n.has NODE_AFNEEDSPLUS = false) :
    Reads s txt (withNode s s.cfg.nodes n) := by
  obtain ⟨packer, pw, info, raf, sysop, h1, h2, h3, h4, h5, rfl⟩ := nodeText_parts h
  obtain ⟨q1, q2, q3, q4, q5⟩ := ok.oneLine
  have r1 := reads_nodeHead s cfg.packers n h1 h2 hp ok
  have r2 := r1.append (y := if n.has NODE_PKTFROM then b!"PKTFROM " ++ writeNode4D n.pktFrom ++ [10] else [])
    (u := withNode s s.cfg.nodes { node := n.node, packer := n.packer, packetPW := n.packetPW, flags := if (n.flags &&& 512 != 0) = true then headFlags n.flags ||| 512 else headFlags n.flags, echomailPri := n.echomailPri, pktFrom := n.pktFrom }) (by
    by_cases hc : n.has NODE_PKTFROM = true
    · rw [if_pos hc, if_pos (show (n.flags &&& 512 != 0) = true from hc)]
      exact reads_pktFrom s s.cfg.nodes _ n.pktFrom
    · rw [if_neg hc, if_neg (show ¬ (n.flags &&& 512 != 0) = true from hc), ok.pktFrom (by simpa using hc)]
      exact .nil _)
  have r3 := r2.append (y := info)
    (u := withNode s s.cfg.nodes { node := n.node, packer := n.packer, packetPW := n.packetPW, flags := if (n.flags &&& 512 != 0) = true then headFlags n.flags ||| 512 else headFlags n.flags, echomailPri := n.echomailPri, pktFrom := n.pktFrom, areafixPW := n.areafixPW, groups := n.groups, readOnlyGroups := n.readOnlyGroups, addGroups := n.addGroups }) (by
    rcases h3 with ⟨e1, e2, e3, e4, rfl⟩ | ⟨p, g, r, a, e1, e2, e3, e4, rfl⟩
    · rw [e1, e2, e3, e4]; exact .nil _
    · exact reads_areafixInfo s s.cfg.nodes _ e1 e2 e3 e4 q2 ok.areafixPW ok.groups ok.readOnly ok.add)
  have r4 := r3.append (y := raf)
    (u := withNode s s.cfg.nodes { node := n.node, packer := n.packer, packetPW := n.packetPW, flags := n.flags, echomailPri := n.echomailPri, pktFrom := n.pktFrom, areafixPW := n.areafixPW, groups := n.groups, readOnlyGroups := n.readOnlyGroups, addGroups := n.addGroups, remoteAFName := n.remoteAFName, remoteAFPw := n.remoteAFPw }) (by
    have hf := nodeFlags_back n.flags ok.flags
    rcases h4 with ⟨e1, rfl⟩ | ⟨x, p, _, e1, e2, rfl⟩
    · obtain ⟨e2, e3⟩ := hr e1
      rw [if_neg (show ¬ (n.flags &&& 1024 != 0) = true by rw [show (n.flags &&& 1024 != 0) = false from e3]; decide)] at hf
      rw [e1, e2, hf]
      exact .nil _
    · have := reads_remoteAF s s.cfg.nodes { node := n.node, packer := n.packer, packetPW := n.packetPW, flags := if (n.flags &&& 512 != 0) = true then headFlags n.flags ||| 512 else headFlags n.flags, echomailPri := n.echomailPri, pktFrom := n.pktFrom, areafixPW := n.areafixPW, groups := n.groups, readOnlyGroups := n.readOnlyGroups, addGroups := n.addGroups }
        ((n.flags &&& 1024 != 0) = true) e1 e2 q4 ok.remoteName q5 ok.remotePw
      dsimp only at this
      rw [show NODE_AFNEEDSPLUS = 1024 from rfl, hf] at this
      exact this)
  have r5 := r4.append (y := sysop)
    (u := withNode s s.cfg.nodes { node := n.node, packer := n.packer, packetPW := n.packetPW, flags := n.flags, echomailPri := n.echomailPri, pktFrom := n.pktFrom, areafixPW := n.areafixPW, groups := n.groups, readOnlyGroups := n.readOnlyGroups, addGroups := n.addGroups, remoteAFName := n.remoteAFName, remoteAFPw := n.remoteAFPw, sysopName := n.sysopName }) (by
    rcases h5 with ⟨e1, rfl⟩ | ⟨x, e1, rfl⟩
    · rw [e1]; exact .nil _
    · exact reads_sysop s s.cfg.nodes _ e1 q3 ok.sysop)
  have r6 := r5.append (y := if n.defaultGroup ≠ 0 then b!"DEFAULTGROUP " ++ [n.defaultGroup, 10] else [])
    (u := withNode s s.cfg.nodes n) (by
    have e : n = { node := n.node, packer := n.packer, packetPW := n.packetPW, flags := n.flags, echomailPri := n.echomailPri, pktFrom := n.pktFrom, areafixPW := n.areafixPW, groups := n.groups, readOnlyGroups := n.readOnlyGroups, addGroups := n.addGroups, remoteAFName := n.remoteAFName, remoteAFPw := n.remoteAFPw, sysopName := n.sysopName, defaultGroup := n.defaultGroup } := by
      have := ok.unmarked
      cases n
      simp_all
    by_cases hc : n.defaultGroup = 0
    · rw [if_neg (by simpa using hc)]
      rw [hc] at e
      rw [← e]
      exact .nil _
    · rw [if_pos hc]
      have hg : 65 ≤ n.defaultGroup ∧ n.defaultGroup ≤ 90 := ok.defaultGroup.resolve_left hc
      have := reads_defaultGroup s s.cfg.nodes { node := n.node, packer := n.packer, packetPW := n.packetPW, flags := n.flags, echomailPri := n.echomailPri, pktFrom := n.pktFrom, areafixPW := n.areafixPW, groups := n.groups, readOnlyGroups := n.readOnlyGroups, addGroups := n.addGroups, remoteAFName := n.remoteAFName, remoteAFPw := n.remoteAFPw, sysopName := n.sysopName } hg.1 hg.2
      dsimp only at this
      rw [← e] at this
      exact this)
  exact r6

end CM
