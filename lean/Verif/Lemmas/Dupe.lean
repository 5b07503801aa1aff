import Verif.Model.Dupe
import Verif.Lemmas.Bytes
import Verif.Lemmas.Base
/-! # Lemmas about the duplicate database -/
set_option linter.unusedSimpArgs false

namespace CM

/-- The last `n` elements. -/
def lastN {α} (n : Nat) (l : List α) : List α := l.drop (l.length - n)

theorem lastN_of_le {α} {n : Nat} {l : List α} (h : l.length ≤ n) : lastN n l = l := by
  unfold lastN; rw [Nat.sub_eq_zero_of_le h]; rfl

theorem lastN_length {α} (n : Nat) (l : List α) : (lastN n l).length = min n l.length := by
  simp [lastN]; omega

theorem lastN_append {α} (n : Nat) (a b : List α) : lastN n (lastN n a ++ b) = lastN n (a ++ b) := by
  unfold lastN
  by_cases h : a.length ≤ n
  · rw [Nat.sub_eq_zero_of_le h]; rfl
  · have e : (a ++ b).length - n = (a.length - n) + b.length := by simp; omega
    have e2 : (List.drop (a.length - n) a ++ b).length - n = b.length := by
      simp only [List.length_append, List.length_drop]; omega
    rw [e, e2, ← List.drop_drop, List.drop_append_of_le_length (l₁ := a) (by omega)]

theorem lastN_lastN {α} (n : Nat) (a : List α) : lastN n (lastN n a) = lastN n a := by
  have := lastN_append n a []
  simpa using this

theorem lastN_map {α β} (n : Nat) (f : α → β) (l : List α) : (lastN n l).map f = lastN n (l.map f) := by
  simp [lastN]

/-- A record in the file: size word and bytes. -/
def encRec (r : List UInt8) : List UInt8 := le16 (UInt16.ofNat r.length) ++ r

/-- The records of a file, one after the other. -/
def encAll (rs : List (List UInt8)) : List UInt8 := (rs.map encRec).flatten

/-- A record of a size the reader accepts. -/
def RecOK (r : List UInt8) : Prop := 1 ≤ r.length ∧ r.length ≤ 300

theorem encAll_cons (r : List UInt8) (rs : List (List UInt8)) : encAll (r :: rs) = encRec r ++ encAll rs := rfl

theorem encAll_append (as bs : List (List UInt8)) : encAll (as ++ bs) = encAll as ++ encAll bs := by
  simp [encAll]

theorem encRec_length (r : List UInt8) : (encRec r).length = r.length + 2 := by
  simp [encRec]; omega

theorem size_toNat {r : List UInt8} (h : RecOK r) : (UInt16.ofNat r.length).toNat = r.length := by
  rw [UInt16.toNat_ofNat']; have := h.2; omega

/-- The ring in order of age, oldest first. -/
def dupeRing (db : DupeDB) : List (UInt32 × UInt32) := db.idx.drop db.num ++ db.idx.take db.num

/-- The ring is well formed. -/
structure RingOK (n : Nat) (db : DupeDB) : Prop where
  num_lt : db.num < n
  num_le : db.num ≤ db.idx.length
  len : db.idx.length ≤ n
  grow : db.idx.length < n → db.num = db.idx.length

theorem addDupeIndex_spec (n : Nat) (db : DupeDB) (off crc : UInt32) (h : RingOK n db) :
    ∃ db', addDupeIndex n db off crc = .ok db' ∧ RingOK n db' ∧
      dupeRing db' = lastN n (dupeRing db ++ [(off, crc)]) ∧ db'.file = db.file ∧ db'.changed = db.changed := by
  obtain ⟨h1, h2, h3, h4⟩ := h
  unfold addDupeIndex
  rw [if_pos h1]
  refine ⟨_, rfl, ?_, ?_, rfl, rfl⟩
  · by_cases hlt : db.num < db.idx.length
    · have hn : db.idx.length = n := by
        rcases Nat.lt_or_ge db.idx.length n with h | h
        · have := h4 h; omega
        · omega
      by_cases he : db.num + 1 = n <;> constructor <;> simp [hlt, he] <;> omega
    · have hlen : db.num = db.idx.length := by omega
      by_cases he : db.num + 1 = n <;> constructor <;> simp [hlt, he] <;> omega
  · by_cases hlt : db.num < db.idx.length
    · have hn : db.idx.length = n := by
        rcases Nat.lt_or_ge db.idx.length n with h | h
        · have := h4 h; omega
        · omega
      have hr : (dupeRing db).length = n := by simp [dupeRing]; omega
      have e : lastN n (dupeRing db ++ [(off, crc)]) = (dupeRing db).tail ++ [(off, crc)] := by
        unfold lastN
        have : (dupeRing db ++ [(off, crc)]).length - n = 1 := by simp [hr]
        rw [this, List.drop_append_of_le_length (by omega), List.drop_one]
      have et : (dupeRing db).tail = db.idx.drop (db.num + 1) ++ db.idx.take db.num := by
        unfold dupeRing
        rw [← List.drop_one, List.drop_append_of_le_length (by simp; omega), List.drop_drop]
      rw [e, et]
      unfold dupeRing
      simp only [hlt, if_true]
      by_cases he : db.num + 1 = n
      · simp only [he, if_true, List.drop_zero, List.take_zero, List.append_nil]
        rw [← hn, List.drop_length, List.nil_append]
        apply List.ext_getElem
        · simp; omega
        · intro i hi1 hi2
          rw [List.getElem_set]
          by_cases hi : db.num = i
          · subst hi
            simp only [if_true]
            rw [List.getElem_append_right (by simp; omega)]
            simp
          · simp only [hi, if_false]
            simp only [List.length_set] at hi1
            rw [List.getElem_append_left (by simp; omega)]
            simp
      · simp only [he, if_false]
        rw [List.append_assoc]
        congr 1
        · rw [List.drop_set]; simp
        · rw [List.take_set]
          have : (db.idx.take (db.num + 1)) = db.idx.take db.num ++ [db.idx[db.num]] := by
            rw [List.take_add_one, List.getElem?_eq_getElem hlt]; rfl
          rw [this, List.set_append_right _ _ (by simp; omega)]
          simp [Nat.min_eq_left (Nat.le_of_lt hlt)]
    · have hlen : db.num = db.idx.length := by omega
      have e : dupeRing db = db.idx := by simp [dupeRing, hlen]
      rw [e, lastN_of_le (by simp; omega)]
      unfold dupeRing
      simp only [hlt, if_false]
      by_cases he : db.num + 1 = n
      · simp [he]
      · simp only [he, if_false]
        rw [List.drop_eq_nil_of_le (by simp; omega), List.take_of_length_le (by simp; omega)]
        rfl

/-- The index entries of the records of a file, starting at an offset. -/
inductive Idx : Nat → List (UInt32 × UInt32) → List (List UInt8) → Prop
  | nil (o) : Idx o [] []
  | cons {o e r es rs} (h1 : e.1.toNat = o) (h2 : 4 ≤ r.length → e.2 = rd32L r)
      (h3 : Idx (o + (encRec r).length) es rs) : Idx o (e :: es) (r :: rs)

theorem Idx.length {o es rs} (h : Idx o es rs) : es.length = rs.length := by
  induction h with
  | nil => rfl
  | cons _ _ _ ih => simp [ih]

theorem Idx.append {o es rs es' rs'} (h : Idx o es rs) (h' : Idx (o + (encAll rs).length) es' rs') :
    Idx o (es ++ es') (rs ++ rs') := by
  induction h with
  | nil => simpa [encAll] using h'
  | cons h1 h2 h3 ih =>
    refine .cons h1 h2 (ih ?_)
    rw [encAll_cons, List.length_append] at h'
    rwa [Nat.add_assoc]

theorem Idx.get {o es rs} (h : Idx o es rs) (pre suf : List UInt8) (hp : pre.length = o) :
    ∀ (i : Nat) (e : UInt32 × UInt32), es[i]? = some e → ∃ r rest, rs[i]? = some r ∧ (4 ≤ r.length → e.2 = rd32L r) ∧
      (pre ++ encAll rs ++ suf).drop e.1.toNat = encRec r ++ rest := by
  induction h generalizing pre with
  | nil => intro i e h; simp at h
  | @cons o e r es rs h1 h2 h3 ih =>
    intro i x hx
    cases i with
    | zero =>
      simp only [List.getElem?_cons_zero, Option.some.injEq] at hx
      subst hx
      refine ⟨r, encAll rs ++ suf, by simp, h2, ?_⟩
      rw [h1, ← hp, List.append_assoc, List.drop_left, encAll_cons, List.append_assoc]
    | succ i =>
      simp only [List.getElem?_cons_succ] at hx
      obtain ⟨r', rest, a, b, c⟩ := ih (pre ++ encRec r) (by simp [hp]) i x hx
      refine ⟨r', rest, by simpa using a, b, ?_⟩
      rw [encAll_cons]
      simpa only [List.append_assoc] using c

theorem readAt_rec {file : List UInt8} {o : Nat} {r rest : List UInt8}
    (h : file.drop o = encRec r ++ rest) : readAt file o = some (UInt16.ofNat r.length, r ++ rest) := by
  unfold readAt
  rw [h]
  simp only [encRec, le16, List.cons_append, List.nil_append, rd16_le16]

theorem probe_iff {file : List UInt8} {e : UInt32 × UInt32} {r rest dbuf : List UInt8}
    (h : file.drop e.1.toNat = encRec r ++ rest) (hr : RecOK r) (hd : RecOK dbuf) (hc : 4 ≤ dbuf.length)
    (he : 4 ≤ r.length → e.2 = rd32L r) :
    dupeProbe file (rd32L dbuf) dbuf e = true ↔ r = dbuf := by
  unfold dupeProbe
  rw [readAt_rec h]
  simp only [Bool.and_eq_true, beq_iff_eq, decide_eq_true_eq, size_toNat hr]
  constructor
  · rintro ⟨_, ⟨h1, _⟩, h3⟩
    rw [← h3]
    simp
  · rintro rfl
    simp [he hc]

/-- The invariant of the open database: the file holds all records `all` in order and the index the
last `n` of them. -/
structure DupeInv (n : Nat) (db : DupeDB) (all : List (List UInt8)) : Prop where
  ring : RingOK n db
  file : db.file = dupeId ++ encAll all
  ok : ∀ r ∈ all, RecOK r
  size : db.file.length < 2 ^ 32
  entries : ∃ es, Idx 4 es all ∧ dupeRing db = lastN n es

theorem mem_ring (db : DupeDB) (e : UInt32 × UInt32) : e ∈ dupeRing db ↔ e ∈ db.idx := by
  unfold dupeRing
  rw [List.mem_append, or_comm, ← List.mem_append, List.take_append_drop]

theorem DupeInv.any_iff {n : Nat} {db : DupeDB} {all : List (List UInt8)} (h : DupeInv n db all)
    (dbuf : List UInt8) (hd : RecOK dbuf) (hc : 4 ≤ dbuf.length) :
    db.idx.any (dupeProbe db.file (rd32L dbuf) dbuf) = true ↔ dbuf ∈ lastN n all := by
  obtain ⟨es, hes, hring⟩ := h.entries
  have hlen := hes.length
  have get := hes.get dupeId [] rfl
  rw [List.append_nil, ← h.file] at get
  rw [List.any_eq_true]
  constructor
  · rintro ⟨e, he, hp⟩
    rw [← mem_ring, hring] at he
    obtain ⟨i, hi⟩ := List.mem_iff_getElem?.1 he
    unfold lastN at hi
    rw [List.getElem?_drop] at hi
    obtain ⟨r, rest, h1, h2, h3⟩ := get _ _ hi
    have hr := h.ok r (List.mem_iff_getElem?.2 ⟨_, h1⟩)
    rw [probe_iff h3 hr hd hc h2] at hp
    subst hp
    refine List.mem_iff_getElem?.2 ⟨i, ?_⟩
    unfold lastN
    rw [List.getElem?_drop, ← hlen]; exact h1
  · intro hm
    obtain ⟨i, hi⟩ := List.mem_iff_getElem?.1 hm
    unfold lastN at hi
    rw [List.getElem?_drop] at hi
    have hlt : all.length - n + i < es.length := by
      rw [hlen]
      exact (List.getElem?_eq_some_iff.1 hi).1
    obtain ⟨r, rest, h1, h2, h3⟩ := get _ _ (List.getElem?_eq_getElem hlt)
    rw [h1] at hi
    simp only [Option.some.injEq] at hi
    subst hi
    refine ⟨es[all.length - n + i], ?_, ?_⟩
    · rw [← mem_ring, hring]
      refine List.mem_iff_getElem?.2 ⟨i, ?_⟩
      unfold lastN
      rw [List.getElem?_drop, hlen]
      exact List.getElem?_eq_getElem hlt
    · rw [probe_iff h3 hd hd hc h2]

theorem addDupeBuf_spec {n : Nat} {db : DupeDB} {all : List (List UInt8)} (h : DupeInv n db all)
    (dbuf : List UInt8) (hd : RecOK dbuf) (hs : db.file.length + (encRec dbuf).length < 2 ^ 32) :
    ∃ db', addDupeBuf n db dbuf = .ok db' ∧ DupeInv n db' (all ++ [dbuf]) ∧ db'.changed = true ∧
      db'.file = db.file ++ encRec dbuf := by
  have hr : RingOK n { db with file := db.file ++ (le16 (UInt16.ofNat dbuf.length) ++ dbuf) } :=
    ⟨h.ring.num_lt, h.ring.num_le, h.ring.len, h.ring.grow⟩
  obtain ⟨db', h1, h2, h3, h4, _⟩ := addDupeIndex_spec n _ (UInt32.ofNat db.file.length) (rd32L dbuf) hr
  have hfile : db'.file = db.file ++ encRec dbuf := h4
  refine ⟨{ db' with changed := true }, by unfold addDupeBuf; simp only [h1, bind, Except.bind], ?_, rfl, hfile⟩
  refine ⟨⟨h2.num_lt, h2.num_le, h2.len, h2.grow⟩, ?_, ?_, ?_, ?_⟩
  · change db'.file = _
    rw [hfile, h.file, encAll_append]; simp [encAll]
  · intro r hr
    rw [List.mem_append, List.mem_singleton] at hr
    rcases hr with hr | rfl
    · exact h.ok r hr
    · exact hd
  · change db'.file.length < _
    rw [hfile]; simpa using hs
  · obtain ⟨es, hes, hring⟩ := h.entries
    refine ⟨es ++ [(UInt32.ofNat db.file.length, rd32L dbuf)], ?_, ?_⟩
    · refine hes.append (.cons ?_ (fun _ => rfl) (.nil _))
      simp only [UInt32.toNat_ofNat']
      rw [Nat.mod_eq_of_lt h.size, h.file]
      simp [dupeId]; omega
    · change dupeRing db' = _
      rw [h3]
      change lastN n (dupeRing db ++ _) = _
      rw [hring, lastN_append]

theorem openDupeLoop_spec (n f : Nat) (db : DupeDB) (b4 : List UInt8) (off : UInt32)
    (rs : List (List UInt8)) (t : List UInt8) (hr : RingOK n db) (hok : ∀ r ∈ rs, RecOK r)
    (hsize : off.toNat + (encAll rs).length < 2 ^ 32) (hf : rs.length < f) (ht : t.length ≤ 1) :
    ∃ db' es, openDupeLoop n f db b4 off (encAll rs ++ t) = .ok (.opened db') ∧ RingOK n db' ∧
      Idx off.toNat es rs ∧ dupeRing db' = lastN n (dupeRing db ++ es) ∧ db'.file = db.file ∧
      db'.changed = db.changed := by
  induction rs generalizing f db b4 off with
  | nil =>
    obtain ⟨f, rfl⟩ := Nat.exists_eq_succ_of_ne_zero (n := f) (by simp at hf; omega)
    refine ⟨db, [], ?_, hr, .nil _, ?_, rfl, rfl⟩
    · simp only [encAll, List.map_nil, List.flatten_nil, List.nil_append, openDupeLoop]
      match t with
      | [] => rfl
      | [a] => rfl
      | _ :: _ :: _ => simp at ht
    · rw [List.append_nil, lastN_of_le]
      have := hr.len
      have := hr.num_le
      simp [dupeRing]; omega
  | cons r rs ih =>
    obtain ⟨f, rfl⟩ := Nat.exists_eq_succ_of_ne_zero (n := f) (by simp at hf; omega)
    have hro := hok r (by simp)
    have hsz := size_toNat hro
    have hro1 := hro.1
    have hro2 := hro.2
    simp only [encAll_cons, List.length_append, encRec_length] at hsize
    have e1 : encAll (r :: rs) ++ t = UInt8.ofNat ((UInt16.ofNat r.length).toNat % 256) ::
        UInt8.ofNat ((UInt16.ofNat r.length).toNat / 256) :: (r ++ (encAll rs ++ t)) := by
      simp [encAll_cons, encRec, le16]
    rw [e1]
    unfold openDupeLoop
    simp only [rd16_le16]
    rw [if_neg (by
        rintro (h | h)
        · have := congrArg UInt16.toNat h
          rw [hsz] at this
          have e : (0 : UInt16).toNat = 0 := rfl
          omega
        · have : (300 : UInt16).toNat < (UInt16.ofNat r.length).toNat := h
          rw [hsz] at this
          have e : (300 : UInt16).toNat = 300 := rfl
          omega),
      if_neg (by rw [hsz]; simp)]
    rw [hsz, List.take_left, List.drop_left]
    generalize hb : r.take 4 ++ b4.drop (r.take 4).length = b
    have hcrc : 4 ≤ r.length → rd32L b = rd32L r := by
      intro h4
      rw [← hb]
      have h44 : 4 ≤ (r.take 4).length := by simp; omega
      rw [rd32L_append _ _ h44]
      rw [← rd32L_append (r.take 4) (r.drop 4) h44, List.take_append_drop]
    obtain ⟨d1, a1, a2, a3, a4, a5⟩ := addDupeIndex_spec n db off (rd32L b) hr
    simp only [a1]
    have hoff : (off + (UInt16.ofNat r.length).toUInt32 + 2).toNat = off.toNat + (encRec r).length := by
      simp only [UInt32.toNat_add, UInt16.toNat_toUInt32, hsz, encRec_length]
      have e : (2 : UInt32).toNat = 2 := rfl
      rw [e]; omega
    obtain ⟨d2, es, b1, b2, b3, b4', b5, b6⟩ := ih f d1 b _ a2 (fun x hx => hok x (by simp [hx]))
      (by rw [hoff, encRec_length]; omega) (by simp at hf; omega)
    refine ⟨d2, (off, rd32L b) :: es, b1, b2, ?_, ?_, b5.trans a4, b6.trans a5⟩
    · refine .cons rfl hcrc ?_
      rw [hoff] at b3; exact b3
    · rw [b4', a3, lastN_append]; simp

end CM
