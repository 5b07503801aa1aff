import Verif.Lemmas.NodelistV7Data
set_option linter.unusedSimpArgs false
/-! # C86: lookups in V7+ nodelists -/

namespace CM

/-- The nodelist with these entries is open (before the first lookup, or after others). -/
structure V7Ready (A : V7Arch) (f : Data) (es : List (Node4D × UInt32)) (x : V7Ndx) : Prop where
  file : x.file = f
  size : x.recSize ≤ 512
  buf : x.buf.length = 512
  root : ∃ n : Nat, x.root = n ∧ V7Below A.long f x.recSize n es

/-- C86. A V7+ nodelist can be opened. -/
theorem v7_start (A : V7Arch) (hL : A.long = 4 ∨ A.long = 8) (f dat dtp : Data) (es : List (Node4D × UInt32)) (h : V7Index A.long f es) :
    ∃ x, v7Start A (some f) (some dat) (some dtp) = some x ∧ V7Ready A f es x := by
  obtain ⟨size, root, h1, h2, h3, h4, h5⟩ := h.ex
  have hl : A.long ≠ 0 := by omega
  obtain ⟨l1, l2⟩ := long_range hL h2
  have t2 : f.take 2 = leBytes 2 size := by
    have := congrArg (List.take 2) h3
    rwa [List.take_take, show min 2 (2 + A.long) = 2 by omega, List.take_left' (leBytes_length _ _)] at this
  have tl : (f.drop 2).take A.long = leBytes A.long root := by
    have := congrArg (List.drop 2) h3
    rwa [List.drop_take, show 2 + A.long - 2 = A.long by omega, List.drop_left' (leBytes_length _ _)] at this
  have e1 : leNat (f.take 2) = size := by rw [t2, leNat_leBytes _ _ (by omega)]
  refine ⟨{ file := f, pos := 2 + 7 * A.long, recSize := size, root := root }, ?_, rfl, h1, List.length_replicate .., root, rfl, h5⟩
  unfold v7Start
  dsimp only
  rw [if_neg (by omega), e1, if_neg (by omega), if_neg (by omega), tl, leNat_leBytes _ _ l1, l2]

/-- C86. An address is found exactly when the nodelist has an entry for it, with the position that the entry gives; other addresses can be looked up afterwards. -/
theorem v7_lookup (A : V7Arch) (hL : A.long = 4 ∨ A.long = 8) (f : Data) (es : List (Node4D × UInt32)) (x : V7Ndx) (h : V7Ready A f es x) (node : Node4D) (hz : node.zone ≠ 0) :
    ∃ F, ∀ fuel, F ≤ fuel → ∃ res x', v7Find A fuel node x = .ok (res, x') ∧ V7Ready A f es x' ∧ ∀ v, res = some v ↔ (node, v) ∈ es := by
  obtain ⟨n, hn, hb⟩ := h.root
  obtain ⟨F, hF⟩ := v7Search_below A hL f x.recSize h.size node hz n es hb
  refine ⟨F, fun fuel hfu => ?_⟩
  obtain ⟨res, x', e, ⟨k1, k2, k3, k4⟩, hv⟩ := hF fuel hfu x h.file rfl h.buf
  refine ⟨res, x', by rw [v7Find_eq, hn, e], ⟨k1, by rw [k2]; exact h.size, k4, n, k3.trans hn, by rw [k2]; exact hb⟩, hv⟩

/-- C86. A node is known exactly when it has an entry. -/
theorem v7_check_node (A : V7Arch) (hL : A.long = 4 ∨ A.long = 8) (f : Data) (es : List (Node4D × UInt32)) (x : V7Ndx) (h : V7Ready A f es x) (node : Node4D) (hz : node.zone ≠ 0) :
    ∃ F, ∀ fuel, F ≤ fuel → ∃ b, v7CheckNode A fuel node x = .ok b ∧ (b = true ↔ ∃ v, (node, v) ∈ es) := by
  obtain ⟨F, hF⟩ := v7_lookup A hL f es x h node hz
  refine ⟨F, fun fuel hfu => ?_⟩
  obtain ⟨res, x', e, -, hv⟩ := hF fuel hfu
  refine ⟨res.isSome, by unfold v7CheckNode; rw [e]; rfl, ?_⟩
  rw [Option.isSome_iff_exists]
  exact ⟨fun ⟨v, h⟩ => ⟨v, (hv v).1 h⟩, fun ⟨v, h⟩ => ⟨v, (hv v).2 h⟩⟩

theorem longOf_small (A : V7Arch) (n : Nat) (h : n < 65536) : longOf A (UInt32.ofNat n) = (n : Int) := by
  have e : (UInt32.ofNat n).toNat = n := by rw [UInt32.toNat_ofNat']; omega
  unfold longOf signedOf
  rw [e]
  split
  · rw [if_pos (by omega)]
  · rfl

/-- C86, partial. The hub and the region of an address, or of the node of a point, are those in the nodelist, provided that the bytes read as `char` are not negative; an address without entry has none. Missing: bytes from 128 on when `char` is signed, for which the result can be wrong (`Ex.signed_hub`). -/
theorem v7_hub_region_partial (A : V7Arch) (hL : A.long = 4 ∨ A.long = 8) (f dat dtp : Data) (es : List (Node4D × UInt32)) (x : V7Ndx) (h : V7Ready A f es x) (node : Node4D) (hz : node.zone ≠ 0) :
    ∃ F, ∀ fuel, F ≤ fuel →
      (∀ v hub region hd phone pass pack, ({ node with point := 0 }, v) ∈ es → V7Data dat dtp v.toNat hub region hd phone pass pack →
        PlainChars A (hd ++ (pack ++ (leBytes 2 region ++ leBytes 2 hub))) →
        v7GetHub A fuel node x dat dtp = .ok (hub : Int) ∧ v7GetRegion A fuel node x dat dtp = .ok (region : Int)) ∧
      ((∀ v, ({ node with point := 0 }, v) ∉ es) → v7GetHub A fuel node x dat dtp = .ok (-1) ∧ v7GetRegion A fuel node x dat dtp = .ok (-1)) := by
  obtain ⟨F, hF⟩ := v7_lookup A hL f es x h { node with point := 0 } hz
  refine ⟨F, fun fuel hfu => ?_⟩
  obtain ⟨res, x', e, -, hv⟩ := hF fuel hfu
  constructor
  · intro v hub region hd phone pass pack hin hdat hpc
    have hr := (hv v).2 hin
    subst hr
    have ed := v7HubRegion_spec hdat hpc
    unfold v7GetHub v7GetRegion v7Get
    rw [e]
    constructor
    · show (do let p ← v7HubRegion A dat dtp v; match p with | none => pure (-1) | some p => pure (longOf A p.1) : Except JErr Int) = _
      rw [ed]
      show Except.ok _ = _
      rw [longOf_small A hub hdat.small.1]
    · show (do let p ← v7HubRegion A dat dtp v; match p with | none => pure (-1) | some p => pure (longOf A p.2) : Except JErr Int) = _
      rw [ed]
      show Except.ok _ = _
      rw [longOf_small A region hdat.small.2]
  · intro hno
    cases res with
    | some v => exact absurd ((hv v).1 rfl) (hno v)
    | none =>
      unfold v7GetHub v7GetRegion v7Get
      rw [e]
      exact ⟨rfl, rfl⟩

/-! ## Concrete cases -/

theorem found7_iff (r : Data) (off : Nat) (b : Data) : Found7 r off b ↔ off + b.length ≤ r.length ∧ (r.drop off).take b.length = b := by
  constructor
  · rintro ⟨p, s, rfl, rfl⟩
    simp only [List.length_append, List.drop_left, List.take_left, and_true]
    omega
  · rintro ⟨h1, h2⟩
    refine ⟨r.take off, (r.drop off).drop b.length, ?_, by rw [List.length_take]; omega⟩
    conv => lhs; rw [← List.take_append_drop off r, ← List.take_append_drop b.length (r.drop off), h2]

instance (r : Data) (off : Nat) (b : Data) : Decidable (Found7 r off b) := decidable_of_iff _ (found7_iff r off b).symm

namespace Ex

/-- Padding to a record of 64 bytes. -/
def v7Pad (d : Data) : Data := d ++ List.replicate (64 - d.length) 0

/-- A leaf with one entry. -/
def v7LeafOf (L : Nat) (a : Node4D) (v : Nat) : Data :=
  v7Pad (List.replicate L 255 ++ leBytes L 0 ++ leBytes L 0 ++ leBytes 2 1 ++ leBytes 2 0 ++ List.replicate (L - 4) 0 ++
    (leBytes 2 56 ++ leBytes 2 8 ++ List.replicate (L - 4) 0 ++ leBytes L v) ++ List.replicate (56 - 6 * L) 0 ++
    (leBytes 2 a.zone.toNat ++ leBytes 2 a.net.toNat ++ leBytes 2 a.node.toNat ++ leBytes 2 a.point.toNat))

/-- A record above two others. -/
def v7NodeOf (L : Nat) (first : Nat) (a : Node4D) (below : Nat) : Data :=
  v7Pad (leBytes L first ++ leBytes L 0 ++ leBytes L 0 ++ leBytes 2 1 ++ leBytes 2 0 ++ List.replicate (L - 4) 0 ++
    (leBytes 2 56 ++ leBytes 2 6 ++ List.replicate (L - 4) 0 ++ leBytes L 0 ++ leBytes L below) ++ List.replicate (56 - 7 * L) 0 ++
    (leBytes 2 a.zone.toNat ++ leBytes 2 a.net.toNat ++ leBytes 2 a.node.toNat))

/-- An index with two entries. -/
def v7File (L : Nat) : Data :=
  v7Pad (leBytes 2 64 ++ leBytes L 1) ++ v7NodeOf L 2 ⟨2, 205, 0, 0⟩ 3 ++ v7LeafOf L ⟨2, 200, 108, 0⟩ 0 ++ v7LeafOf L ⟨2, 205, 1, 0⟩ 50

def v7Entries : List (Node4D × UInt32) := [(⟨2, 200, 108, 0⟩, 0), (⟨2, 205, 1, 0⟩, 50)]

theorem v7_leaf (L : Nat) (a : Node4D) (v : UInt32) (r : Data)
    (h1 : Found7 r 0 (List.replicate L 255)) (h2 : Found7 r (3 * L) (leBytes 2 1)) (h3 : Found7 r (4 * L) (leBytes 2 56)) (h4 : Found7 r (4 * L + 2) (leBytes 2 8))
    (h5 : Found7 r 56 (leBytes 2 a.zone.toNat ++ (leBytes 2 a.net.toNat ++ (leBytes 2 a.node.toNat ++ leBytes 2 a.point.toNat)))) (h6 : Found7 r (4 * L + L) (leBytes L v.toNat)) :
    V7LeafRec L r [(a, v)] := by
  refine ⟨h1, by simp, h2, fun i e he => ?_⟩
  match i, he with
  | 0, he =>
    simp only [List.getElem?_cons_zero, Option.some.injEq] at he
    subst he
    rw [Nat.zero_mul, Nat.add_zero]
    exact ⟨⟨56, _, by decide, .full a, h3, h4, h5⟩, h6⟩
  | i + 1, he => simp at he

theorem v7_index (L : Nat) (hL : L = 4 ∨ L = 8) : V7Index L (v7File L) v7Entries := by
  have key : V7Below L (v7File L) 64 1 ([(⟨2, 200, 108, 0⟩, 0)] ++ [[(⟨2, 205, 1, 0⟩, 50)]].flatten) := by
    refine .index 1 (v7NodeOf L 2 ⟨2, 205, 0, 0⟩ 3) 2 [(⟨2, 205, 0, 0⟩, 3)] _ _ ?_ ?_ rfl (by simp) ?_ ?_ ?_ ?_
    · rcases hL with rfl | rfl <;> (unfold V7Rec; decide +kernel)
    · refine ⟨by rcases hL with rfl | rfl <;> decide +kernel, by rcases hL with rfl | rfl <;> decide +kernel, by decide, by rcases hL with rfl | rfl <;> decide +kernel, fun i k hk => ?_⟩
      match i, hk with
      | 0, hk =>
        simp only [List.getElem?_cons_zero, Option.some.injEq] at hk
        subst hk
        refine ⟨by rcases hL with rfl | rfl <;> decide +kernel, ⟨56, _, by decide, .short _ rfl, ?_, ?_, ?_⟩, ?_⟩ <;> (rcases hL with rfl | rfl <;> decide +kernel)
      | i + 1, hk => simp at hk
    · refine .leaf 2 (v7LeafOf L ⟨2, 200, 108, 0⟩ 0) _ ?_ ?_ (by simp) (by simp)
      · rcases hL with rfl | rfl <;> (unfold V7Rec; decide +kernel)
      · refine v7_leaf L _ _ _ ?_ ?_ ?_ ?_ ?_ ?_ <;> (rcases hL with rfl | rfl <;> decide +kernel)
    · intro i k es hk he
      match i, hk, he with
      | 0, hk, he =>
        simp only [List.getElem?_cons_zero, Option.some.injEq] at hk he
        subst hk
        subst he
        refine .leaf 3 (v7LeafOf L ⟨2, 205, 1, 0⟩ 50) _ ?_ ?_ (by simp) (by simp)
        · rcases hL with rfl | rfl <;> (unfold V7Rec; decide +kernel)
        · refine v7_leaf L _ _ _ ?_ ?_ ?_ ?_ ?_ ?_ <;> (rcases hL with rfl | rfl <;> decide +kernel)
      | i + 1, hk, he => simp at hk
    · intro e he k hk
      simp only [List.mem_singleton] at he hk
      subst he
      subst hk
      unfold AddrBefore
      decide
    · intro i es e j k hes he hk
      match i, j, hes, hk with
      | 0, 0, hes, hk =>
        simp only [List.getElem?_cons_zero, Option.some.injEq] at hk hes
        subst hk
        subst hes
        simp only [List.mem_singleton] at he
        subst he
        unfold AddrBefore
        decide
      | i + 1, _, hes, _ => simp at hes
      | 0, j + 1, _, hk => simp at hk
  exact ⟨64, 1, by decide, by rcases hL with rfl | rfl <;> decide +kernel, by rcases hL with rfl | rfl <;> decide +kernel, by rcases hL with rfl | rfl <;> decide +kernel, key⟩

/-- The lookups on a machine with 8-byte `long`s, computed. -/
theorem v7_lookups : ∃ x, v7Start ⟨8, true⟩ (some (v7File 8)) (some []) (some []) = some x ∧ V7Ready ⟨8, true⟩ (v7File 8) v7Entries x ∧
    (v7Find ⟨8, true⟩ 2 ⟨2, 205, 1, 0⟩ x).toOption.map (·.1) = some (some 50) ∧ (v7Find ⟨8, true⟩ 2 ⟨2, 200, 108, 0⟩ x).toOption.map (·.1) = some (some 0) ∧
    (v7Find ⟨8, true⟩ 2 ⟨2, 205, 2, 0⟩ x).toOption.map (·.1) = some none := by
  obtain ⟨x, h1, h2⟩ := v7_start ⟨8, true⟩ (Or.inr rfl) (v7File 8) [] [] v7Entries (v7_index 8 (Or.inr rfl))
  refine ⟨x, h1, h2, ?_⟩
  have : x = { file := v7File 8, pos := 58, recSize := 64, root := 1 } := by
    have e : v7Start ⟨8, true⟩ (some (v7File 8)) (some []) (some []) = some { file := v7File 8, pos := 58, recSize := 64, root := 1 } := by decide +kernel
    rw [e] at h1
    cases h1
    rfl
  subst this
  decide +kernel

/-- The same nodelist written with 4-byte `long`s is opened on a machine with 8-byte `long`s, but its nodes are not found. -/
theorem v7_other_long : V7Index 4 (v7File 4) v7Entries ∧ ∃ x, v7Start ⟨8, true⟩ (some (v7File 4)) (some []) (some []) = some x ∧
    v7CheckNode ⟨8, true⟩ 5 ⟨2, 205, 1, 0⟩ x = .ok false := by
  refine ⟨v7_index 4 (Or.inl rfl), { file := v7File 4, pos := 58, recSize := 64, root := 1 }, ?_, ?_⟩ <;> decide +kernel

/-- A damaged index: the root is above itself. -/
def v7Loop : Data := v7Pad (leBytes 2 64 ++ leBytes 8 1) ++ v7Pad (leBytes 8 1)

set_option maxRecDepth 20000 in
/-- The search in it never ends. -/
theorem v7_endless (fuel : Nat) (node : Node4D) : ∃ x, v7Start ⟨8, true⟩ (some v7Loop) (some []) (some []) = some x ∧ v7Find ⟨8, true⟩ fuel node x = .error .stuck := by
  refine ⟨{ file := v7Loop, pos := 58, recSize := 64, root := 1 }, rfl, ?_⟩
  have hr : ∀ pos, v7Read ⟨8, true⟩ { file := v7Loop, pos := pos, recSize := 64, root := 1, buf := v7Pad (leBytes 8 1) ++ List.replicate 448 0 } 1 =
      .ok (true, { file := v7Loop, pos := 128, recSize := 64, root := 1, buf := v7Pad (leBytes 8 1) ++ List.replicate 448 0 }) := by
    intro pos
    rfl
  have key : ∀ fuel, v7Search ⟨8, true⟩ node fuel { file := v7Loop, pos := 128, recSize := 64, root := 1, buf := v7Pad (leBytes 8 1) ++ List.replicate 448 0 } = .error .stuck := by
    intro fuel
    induction fuel with
    | zero => rfl
    | succ fuel ih =>
      have e : v7Search ⟨8, true⟩ node (fuel + 1) { file := v7Loop, pos := 128, recSize := 64, root := 1, buf := v7Pad (leBytes 8 1) ++ List.replicate 448 0 } =
          v7From ⟨8, true⟩ node fuel { file := v7Loop, pos := 128, recSize := 64, root := 1, buf := v7Pad (leBytes 8 1) ++ List.replicate 448 0 } 1 := by rfl
      rw [e]
      unfold v7From
      rw [hr]
      exact ih
  have e : v7Find ⟨8, true⟩ fuel node { file := v7Loop, pos := 58, recSize := 64, root := 1 } =
      v7Search ⟨8, true⟩ node fuel { file := v7Loop, pos := 128, recSize := 64, root := 1, buf := v7Pad (leBytes 8 1) ++ List.replicate 448 0 } := by rfl
  rw [e]
  exact key fuel

set_option maxRecDepth 20000 in
/-- A damaged index: a key outside of the record. Looking up an address reads memory outside of the buffer. -/
theorem v7_wild_key : ∃ f x, v7Start ⟨8, true⟩ (some f) (some []) (some []) = some x ∧ (∀ fuel, v7Find ⟨8, true⟩ (fuel + 1) ⟨2, 205, 1, 0⟩ x = .error (.ub .oobRead)) := by
  refine ⟨v7Pad (leBytes 2 64 ++ leBytes 8 1) ++ v7Pad (List.replicate 8 255 ++ leBytes 8 0 ++ leBytes 8 0 ++ leBytes 8 1 ++ leBytes 2 60000 ++ leBytes 2 8), _, rfl, fun fuel => ?_⟩
  rfl

/-! ## Hubs -/

/-- A record of the data file: no telephone number, no password, text `00000000 ` in three words. -/
def v7Head : Data := leBytes 2 2 ++ leBytes 2 205 ++ leBytes 2 1 ++ leBytes 2 200 ++ leBytes 2 0 ++ leBytes 2 0 ++ leBytes 2 0 ++ [0, 0, 0, 0, 0, 0, 6, 0]
def v7Zeros : Data := leBytes 2 (1600 * 29 + 40 * 29 + 29) ++ leBytes 2 (1600 * 29 + 40 * 29 + 29) ++ leBytes 2 (1600 * 29 + 40 * 29)
def v7Dat : Data := List.replicate 50 0 ++ (v7Head ++ v7Zeros)

theorem v7_data (hub region : Nat) (h1 : hub < 65536) (h2 : region < 65536) : V7Data v7Dat (leBytes 2 region ++ leBytes 2 hub) 50 hub region v7Head [] [] v7Zeros where
  header := by decide
  lens := by decide
  short := by decide
  there := ⟨List.replicate 50 0, [], by decide, by decide⟩
  text := by
    refine ⟨[], b!" ", 0, by decide, ?_, by decide, ⟨[], [], by simp, rfl⟩⟩
    exact .cons _ _ _ _ _ _ _ 29 29 29 (by decide) (by decide) (by decide) (by decide) (.cons _ _ _ _ _ _ _ 29 29 29 (by decide) (by decide) (by decide) (by decide)
      (.cons _ _ _ _ _ _ _ 29 29 0 (by decide) (by decide) (by decide) (by decide) .nil))
  small := ⟨h1, h2⟩

/-- The hub 200 of a node of region 25. -/
theorem v7_hub_case : ∃ x, v7Start ⟨8, false⟩ (some (v7File 8)) (some v7Dat) (some (leBytes 2 25 ++ leBytes 2 200)) = some x ∧
    ∃ F, ∀ fuel, F ≤ fuel → v7GetHub ⟨8, false⟩ fuel ⟨2, 205, 1, 7⟩ x v7Dat (leBytes 2 25 ++ leBytes 2 200) = .ok 200 := by
  obtain ⟨x, h1, h2⟩ := v7_start ⟨8, false⟩ (Or.inr rfl) (v7File 8) v7Dat (leBytes 2 25 ++ leBytes 2 200) v7Entries (v7_index 8 (Or.inr rfl))
  refine ⟨x, h1, ?_⟩
  obtain ⟨F, hF⟩ := v7_hub_region_partial ⟨8, false⟩ (Or.inr rfl) (v7File 8) v7Dat (leBytes 2 25 ++ leBytes 2 200) v7Entries x h2 ⟨2, 205, 1, 7⟩ (by decide)
  exact ⟨F, fun fuel hfu => ((hF fuel hfu).1 50 200 25 _ _ _ _ (by decide) (v7_data 200 25 (by decide) (by decide)) (fun c _ h => by cases h)).1⟩

/-- With a signed `char` no hub is found for this node: the packed digits `000` have a low byte above 127, and are read as other characters. -/
theorem signed_hub : V7Data v7Dat (leBytes 2 25 ++ leBytes 2 200) 50 200 25 v7Head [] [] v7Zeros ∧
    ∃ x, v7Start ⟨8, true⟩ (some (v7File 8)) (some v7Dat) (some (leBytes 2 25 ++ leBytes 2 200)) = some x ∧
    v7GetHub ⟨8, true⟩ 2 ⟨2, 205, 1, 0⟩ x v7Dat (leBytes 2 25 ++ leBytes 2 200) = .ok (-1) := by
  refine ⟨v7_data 200 25 (by decide) (by decide), { file := v7File 8, pos := 58, recSize := 64, root := 1 }, ?_, ?_⟩ <;> decide +kernel

/-- A damaged record: its names are longer than its text. Memory outside of the buffer is read. -/
theorem v7_wild_names : v7HubRegion ⟨8, false⟩ (v7Head.take 17 ++ [100] ++ v7Head.drop 18 ++ v7Zeros) (leBytes 2 25 ++ leBytes 2 200) 0 = .error (.ub .oobRead) := by
  decide +kernel

end Ex

end CM
