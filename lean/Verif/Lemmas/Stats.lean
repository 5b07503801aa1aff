import Verif.Spec.Stats
import Verif.Lemmas.Bytes
import Verif.Lemmas.Base
import Verif.Lemmas.Node4D
/-! # Lemmas about the statistics file -/

namespace CM

@[simp] theorem le64_length (x : UInt64) : (le64 x).length = 8 := rfl
@[simp] theorem junkBytes_length (j : Nat → UInt8) (o n : Nat) : (junkBytes j o n).length = n := by
  simp [junkBytes]
@[simp] theorem node4DBytes_length (n : Node4D) : (node4DBytes n).length = 8 := rfl

theorem rd64L_le64 (x : UInt64) (r : List UInt8) : rd64L (le64 x ++ r) = x := by
  apply UInt64.toNat_inj.1
  have := x.toNat_lt
  have e : (le64 x ++ r).drop 4 = le32 (UInt32.ofNat (x.toNat / 4294967296)) ++ r := rfl
  rw [rd64L, e, le64, List.append_assoc, rd32L_le32, rd32L_le32]
  simp only [UInt64.toNat_ofNat', UInt32.toNat_ofNat']
  omega

theorem rd16L_le16 (x : UInt16) (r : List UInt8) : rd16L (le16 x ++ r) = x := rd16_le16 x

theorem days_cases (d : Days) : ∃ a b c d' e f g h, d = #v[a, b, c, d', e, f, g, h] :=
  ⟨d[0], d[1], d[2], d[3], d[4], d[5], d[6], d[7], by
    ext i hi
    match i, hi with
    | 0, _ | 1, _ | 2, _ | 3, _ | 4, _ | 5, _ | 6, _ | 7, _ => rfl⟩

@[simp] theorem daysBytes_length (d : Days) : (daysBytes d).length = 16 := by
  obtain ⟨a, b, c, e, f, g, h, k, rfl⟩ := days_cases d
  rfl

theorem drop_at {α : Type} (p q : List α) (n : Nat) (h : p.length = n) : (p ++ q).drop n = q := by
  subst h; simp

theorem take_at {α : Type} (p q : List α) (n : Nat) (h : p.length = n) : (p ++ q).take n = p := by
  subst h; simp

theorem areaRecord_ok {j : Nat → UInt8} {a : AreaStat} {r : List UInt8} (h : areaRecord j a = .ok r) :
    ∃ aka, a.aka = some aka ∧ a.tag.length < 80 ∧
      r = (a.tag ++ [0] ++ junkBytes j (a.tag.length + 1) (79 - a.tag.length)) ++ (node4DBytes aka ++
        ([a.group] ++ (junkBytes j 89 3 ++ (le32 a.texts ++ (daysBytes a.last8 ++ (le32 a.dupes ++
        (junkBytes j 116 4 ++ (le64 a.firstTime ++ le64 a.lastTime)))))))) := by
  unfold areaRecord at h
  split at h
  · cases h
  · cases e : a.aka with
    | none => rw [e] at h; cases h
    | some aka =>
      rw [e] at h
      refine ⟨aka, rfl, by omega, ?_⟩
      injection h with h
      simp [← h, List.append_assoc]

theorem areaRecord_length {j : Nat → UInt8} {a : AreaStat} {r : List UInt8} (h : areaRecord j a = .ok r) :
    r.length = 136 := by
  obtain ⟨aka, _, hl, rfl⟩ := areaRecord_ok h
  simp
  omega

/-- The record of an area as it is taken apart again. -/
def diskOf (a : AreaStat) : DiskArea := ⟨a.tag, a.texts, a.dupes, a.last8, a.firstTime, a.lastTime⟩

theorem cstr_append (t r : List UInt8) (h : NoNul t) : cstr (t ++ 0 :: r) = t := by
  unfold cstr
  rw [List.takeWhile_append_of_pos]
  · simp
  · intro c hc
    simp only [bne_iff_ne, ne_eq]
    rintro rfl
    exact h hc

theorem days_read (d : Days) (r : List UInt8) :
    (Vector.ofFn fun i : Fin 8 => rd16L ((daysBytes d ++ r).drop (2 * i.val))) = d := by
  obtain ⟨a, b, c, e, f, g, h, k, rfl⟩ := days_cases d
  ext i hi
  rw [Vector.getElem_ofFn]
  match i, hi with
  | 0, _ => exact rd16_le16 a
  | 1, _ => exact rd16_le16 b
  | 2, _ => exact rd16_le16 c
  | 3, _ => exact rd16_le16 e
  | 4, _ => exact rd16_le16 f
  | 5, _ => exact rd16_le16 g
  | 6, _ => exact rd16_le16 h
  | 7, _ => exact rd16_le16 k

theorem parseArea_record {j : Nat → UInt8} {a : AreaStat} {r : List UInt8} (h : areaRecord j a = .ok r)
    (hn : NoNul a.tag) : parseArea r = .ok (diskOf a) := by
  obtain ⟨aka, _, hl, e⟩ := areaRecord_ok h
  have l1 : (a.tag ++ [0] ++ junkBytes j (a.tag.length + 1) (79 - a.tag.length)).length = 80 := by
    simp; omega
  have t80 : r.take 80 = a.tag ++ 0 :: junkBytes j (a.tag.length + 1) (79 - a.tag.length) := by
    rw [e, take_at _ _ 80 l1]; simp
  have d92 : r.drop 92 = le32 a.texts ++ (daysBytes a.last8 ++ (le32 a.dupes ++
      (junkBytes j 116 4 ++ (le64 a.firstTime ++ le64 a.lastTime)))) := by
    rw [e, show (92 : Nat) = 80 + (8 + (1 + 3)) from rfl, ← List.drop_drop, ← List.drop_drop,
      ← List.drop_drop, drop_at _ _ _ l1, drop_at _ _ 8 rfl, drop_at _ _ 1 rfl, drop_at _ _ 3 (by simp)]
  have d96 : r.drop 96 = daysBytes a.last8 ++ (le32 a.dupes ++
      (junkBytes j 116 4 ++ (le64 a.firstTime ++ le64 a.lastTime))) := by
    rw [show (96 : Nat) = 92 + 4 from rfl, ← List.drop_drop, d92, drop_at _ _ 4 rfl]
  have d112 : r.drop 112 = le32 a.dupes ++ (junkBytes j 116 4 ++ (le64 a.firstTime ++ le64 a.lastTime)) := by
    rw [show (112 : Nat) = 96 + 16 from rfl, ← List.drop_drop, d96, drop_at _ _ 16 (by simp)]
  have d120 : r.drop 120 = le64 a.firstTime ++ le64 a.lastTime := by
    rw [show (120 : Nat) = 112 + (4 + 4) from rfl, ← List.drop_drop, ← List.drop_drop, d112,
      drop_at _ _ 4 rfl, drop_at _ _ 4 (by simp)]
  have d128 : r.drop 128 = le64 a.lastTime := by
    rw [show (128 : Nat) = 120 + 8 from rfl, ← List.drop_drop, d120, drop_at _ _ 8 rfl]
  unfold parseArea
  rw [if_pos (by rw [t80]; simp), t80, cstr_append _ _ hn, d92, d112, d120, d128, rd32L_le32, rd32L_le32,
    rd64L_le64]
  have hd : (Vector.ofFn fun i : Fin 8 => rd16L (r.drop (96 + 2 * i.val))) = a.last8 := by
    rw [← days_read a.last8 (le32 a.dupes ++ (junkBytes j 116 4 ++ (le64 a.firstTime ++ le64 a.lastTime)))]
    congr 1
    funext i
    rw [← d96, List.drop_drop]
  have hl : rd64L (le64 a.lastTime) = a.lastTime := by
    have := rd64L_le64 a.lastTime []
    rwa [List.append_nil] at this
  rw [hd, hl]
  rfl

theorem nodeRecord_length (j : Nat → UInt8) (n : NodeStat) : (nodeRecord j n).length = 56 := by
  simp [nodeRecord]

theorem parseNode_record (j : Nat → UInt8) (n : NodeStat) : parseNode (nodeRecord j n) = n := by
  have e : nodeRecord j n = le16 n.node.zone ++ (le16 n.node.net ++ (le16 n.node.node ++ (le16 n.node.point ++
    (le32 n.gotNetmails ++ (le32 n.gotNetmailBytes ++ (le32 n.sentNetmails ++
    (le32 n.sentNetmailBytes ++ (le32 n.gotEchomails ++ (le32 n.gotEchomailBytes ++ (le32 n.sentEchomails ++
    (le32 n.sentEchomailBytes ++ (le32 n.dupes ++ (junkBytes j 44 4 ++ (le64 n.firstTime)))))))))))))) := by
    simp [nodeRecord, node4DBytes, List.append_assoc]
  have h2 : ∀ {k : Nat} {x : UInt16} {q : List UInt8}, (nodeRecord j n).drop k = le16 x ++ q →
      (nodeRecord j n).drop (k + 2) = q := by
    intro k x q h; rw [← List.drop_drop, h, drop_at _ _ 2 rfl]
  have h4 : ∀ {k : Nat} {x : UInt32} {q : List UInt8}, (nodeRecord j n).drop k = le32 x ++ q →
      (nodeRecord j n).drop (k + 4) = q := by
    intro k x q h; rw [← List.drop_drop, h, drop_at _ _ 4 rfl]
  have a0 : (nodeRecord j n).drop 0 = _ := e
  have a1 := h2 a0
  have a2 := h2 a1
  have a3 := h2 a2
  have a4 := h2 a3
  have a5 := h4 a4
  have a6 := h4 a5
  have a7 := h4 a6
  have a8 := h4 a7
  have a9 := h4 a8
  have a10 := h4 a9
  have a11 := h4 a10
  have a12 := h4 a11
  have a13 := h4 a12
  have a14 : (nodeRecord j n).drop 48 = le64 n.firstTime := by
    rw [show (48 : Nat) = 0 + 2 + 2 + 2 + 2 + 4 + 4 + 4 + 4 + 4 + 4 + 4 + 4 + 4 + 4 from rfl, ← List.drop_drop, a13,
      drop_at _ _ 4 (by simp)]
  have hl : rd64L (le64 n.firstTime) = n.firstTime := by
    have := rd64L_le64 n.firstTime []
    rwa [List.append_nil] at this
  simp only [Nat.zero_add, Nat.reduceAdd] at a1 a2 a3 a4 a5 a6 a7 a8 a9 a10 a11 a12
  unfold parseNode
  rw [a1, a2, a3, a4, a5, a6, a7, a8, a9, a10, a11, a12, a14, e]
  simp only [rd16L_le16, rd32L_le32, hl]

/-- A run of updates, each of the first member that fits: a member ends up with the data of the last
record it was the first to fit. -/
theorem foldl_updFirst {κ α : Type} (m : κ → α → Bool) (c : κ → α → α)
    (hm : ∀ k v a, m k (c v a) = m k a) (hc : ∀ k v a, c k (c v a) = c k a) (l : List α) (ws : List κ) (i : Nat) :
    (ws.foldl (fun l w => updFirst (m w) (c w) l) l)[i]? =
      l[i]?.map (fun a => match ws.reverse.find? (fun w => l.findIdx? (m w) == some i) with
        | none => a
        | some w => c w a) := by
  have one : ∀ (w : κ) (l : List α) (i : Nat), (updFirst (m w) (c w) l)[i]? =
      l[i]?.map (fun a => if l.findIdx? (m w) == some i then c w a else a) := by
    intro w l
    induction l with
    | nil => intro i; simp [updFirst]
    | cons a r ih =>
      intro i
      unfold updFirst
      rw [List.findIdx?_cons]
      by_cases h : m w a = true
      · rw [if_pos h, if_pos h]
        cases i with
        | zero => simp
        | succ i => simp
      · rw [if_neg h, if_neg h]
        cases i with
        | zero => cases List.findIdx? (m w) r <;> simp
        | succ i =>
          simp only [List.getElem?_cons_succ, ih]
          cases List.findIdx? (m w) r <;> simp
  have idx : ∀ (v w : κ) (l : List α), (updFirst (m w) (c w) l).findIdx? (m v) = l.findIdx? (m v) := by
    intro v w l
    induction l with
    | nil => rfl
    | cons a r ih =>
      unfold updFirst
      split
      · simp [List.findIdx?_cons, hm]
      · simp [List.findIdx?_cons, ih]
  have idxs : ∀ (v : κ) (ws : List κ) (l : List α),
      (ws.foldl (fun l w => updFirst (m w) (c w) l) l).findIdx? (m v) = l.findIdx? (m v) := by
    intro v ws
    induction ws with
    | nil => intro l; rfl
    | cons w ws ih => intro l; rw [List.foldl_cons, ih, idx]
  induction ws using snocInd with
  | nil => rw [List.foldl_nil]; cases l[i]? <;> rfl
  | snoc ws w ih =>
    rw [List.foldl_append, List.foldl_cons, List.foldl_nil, one, ih, List.reverse_append, idxs]
    simp only [List.reverse_cons, List.reverse_nil, List.nil_append, List.cons_append, List.find?_cons]
    cases l[i]? with
    | none => rfl
    | some a =>
      simp only [Option.map_some, Option.some.injEq]
      by_cases h : (List.findIdx? (m w) l == some i) = true
      · rw [if_pos h]
        simp only [h]
        split <;> simp [hc]
      · rw [if_neg h]
        simp only [h]

end CM
