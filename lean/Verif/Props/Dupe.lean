import Verif.Lemmas.Dupe
/-! # C14–C16: the duplicate database -/
set_option linter.unusedSimpArgs false

namespace CM

/-! ## Opening -/

/-- C16. A file of acceptable records (and at most one stray byte at the end) is opened; the index then
holds its last `n` records. -/
theorem openDupe_opens (n : Nat) (hn : 0 < n) (rs : List (List UInt8)) (hok : ∀ r ∈ rs, RecOK r)
    (hs : 4 + (encAll rs).length < 2 ^ 32) :
    ∃ db, openDupe n (dupeId ++ encAll rs) = .ok (.opened db) ∧ DupeInv n db rs ∧ db.changed = false := by
  have hr : RingOK n ⟨dupeId ++ encAll rs, [], 0, false⟩ := ⟨hn, Nat.le_refl _, by simp, by simp⟩
  have hlen : rs.length ≤ (encAll rs).length := by
    clear hok hs hr
    induction rs with
    | nil => simp
    | cons r rs ih => simp [encAll_cons, encRec_length]; omega
  obtain ⟨db, es, h1, h2, h3, h4, h5, h6⟩ := openDupeLoop_spec n ((dupeId ++ encAll rs).length + 1)
    ⟨dupeId ++ encAll rs, [], 0, false⟩ dupeId 4 rs [] hr hok hs
    (by simp [dupeId]; omega) (by simp)
  refine ⟨db, ?_, ⟨h2, h5, hok, by rw [h5, List.length_append]; exact hs, es, h3, ?_⟩, h6⟩
  · rw [List.append_nil] at h1
    exact h1
  · rw [h4]; simp [dupeRing]

/-- C16. Opening is safe for every file contents: it ends, stays within the index buffer, and either
opens the database or refuses the file. -/
theorem openDupe_total (n : Nat) (hn : 0 < n) (file : List UInt8) :
    (∃ db, openDupe n file = .ok (.opened db) ∧ RingOK n db) ∨ openDupe n file = .ok .refused := by
  have loop : ∀ (f : Nat) (db : DupeDB) (b4 : List UInt8) (off : UInt32) (s : List UInt8),
      RingOK n db → s.length < f →
      (∃ db', openDupeLoop n f db b4 off s = .ok (.opened db') ∧ RingOK n db') ∨
        openDupeLoop n f db b4 off s = .ok .refused := by
    intro f
    induction f with
    | zero => intro db b4 off s _ h; omega
    | succ f ih =>
      intro db b4 off s hr hs
      unfold openDupeLoop
      match s with
      | [] => exact .inl ⟨db, rfl, hr⟩
      | [_] => exact .inl ⟨db, rfl, hr⟩
      | a :: b :: r =>
        simp only
        split
        · exact .inr rfl
        · split
          · exact .inr rfl
          · obtain ⟨d1, a1, a2, _⟩ := addDupeIndex_spec n db off (rd32L ((r.take (rd16 a b).toNat).take 4 ++
              b4.drop ((r.take (rd16 a b).toNat).take 4).length)) hr
            simp only [a1]
            refine ih _ _ _ _ a2 ?_
            simp only [List.length_cons] at hs
            simp only [List.length_drop]; omega
  unfold openDupe
  split
  · exact .inl ⟨_, rfl, hn, Nat.le_refl _, by simp, by simp⟩
  · split
    · exact loop _ _ _ _ _ ⟨hn, Nat.le_refl _, by simp, by simp⟩ (by simp; omega)
    · exact .inr rfl

/-- C16 (violated). With a configured size of zero the first record already is stored outside the
index buffer. -/
theorem dupe_size_zero (r : List UInt8) (hr : RecOK r) (rest : List UInt8) :
    openDupe 0 (dupeId ++ (encRec r ++ rest)) = .error .oobWrite := by
  have e : dupeId ++ (encRec r ++ rest) ≠ [] := by simp [dupeId]
  have e2 : (dupeId ++ (encRec r ++ rest)).take 4 = dupeId := by simp [dupeId]
  have e3 : (dupeId ++ (encRec r ++ rest)).drop 4 = encRec r ++ rest := by simp [dupeId]
  have hsz := size_toNat hr
  have h1 := hr.1
  have h2 := hr.2
  unfold openDupe
  split
  · rename_i h; exact absurd h e
  · rw [if_pos e2, e3]
    simp only [encRec, le16, List.cons_append, List.nil_append, openDupeLoop, rd16_le16]
    rw [if_neg (by
        rintro (h | h)
        · have := congrArg UInt16.toNat h
          rw [hsz] at this
          have e : (0 : UInt16).toNat = 0 := rfl
          omega
        · have : (300 : UInt16).toNat < (UInt16.ofNat r.length).toNat := h
          rw [hsz] at this
          have e : (300 : UInt16).toNat = 300 := rfl
          omega),
      if_neg (by rw [hsz]; simp)]
    simp [addDupeIndex]

/-! ## Closing -/

theorem mapM_ok {α β} (f : α → Except UB β) (g : α → β) (l : List α) (h : ∀ a ∈ l, f a = .ok (g a)) :
    l.mapM f = .ok (l.map g) := by
  induction l with
  | nil => rfl
  | cons a l ih =>
    rw [List.mapM_cons, h a (by simp), ih (fun x hx => h x (by simp [hx]))]
    rfl

theorem ring_indices {α} [Inhabited α] (l : List α) (k : Nat) (h : k ≤ l.length) :
    (List.range' k (l.length - k) ++ List.range k).map (fun i => l[i]!) = l.drop k ++ l.take k := by
  rw [List.map_append]
  congr 1
  · apply List.ext_getElem
    · simp
    · intro i h1 h2
      simp only [List.length_map, List.length_range'] at h1
      simp only [List.getElem_map, List.getElem_range', List.getElem_drop, Nat.one_mul]
      rw [getElem!_pos l (k + i) (by omega)]
  · apply List.ext_getElem
    · simp; omega
    · intro i h1 h2
      simp only [List.length_map, List.length_range] at h1
      simp only [List.getElem_map, List.getElem_range, List.getElem_take]
      rw [getElem!_pos l i (by omega)]

/-- The record an index entry points to. -/
def recAt (file : List UInt8) (e : UInt32 × UInt32) : List UInt8 :=
  match readAt file e.1.toNat with
  | none => []
  | some (size, r) => r.take size.toNat

theorem DupeInv.ring_recs {n : Nat} {db : DupeDB} {all : List (List UInt8)} (h : DupeInv n db all) :
    (dupeRing db).map (recAt db.file) = lastN n all ∧
    ∀ e ∈ dupeRing db, ∃ r rest, RecOK r ∧ readAt db.file e.1.toNat = some (UInt16.ofNat r.length, r ++ rest) := by
  obtain ⟨es, hes, hring⟩ := h.entries
  have hlen := hes.length
  have get := hes.get dupeId [] rfl
  rw [List.append_nil, ← h.file] at get
  have rec_eq : ∀ e r rest, RecOK r → db.file.drop e.1.toNat = encRec r ++ rest → recAt db.file e = r := by
    intro e r rest hr hd
    unfold recAt
    rw [readAt_rec hd]
    simp only [size_toNat hr, List.take_left]
  constructor
  · rw [hring]
    apply List.ext_getElem
    · simp [lastN, hlen]
    · intro i h1 h2
      have hi : es.length - n + i < es.length := by simp [lastN] at h1; omega
      obtain ⟨r, rest, g1, _, g3⟩ := get _ _ (List.getElem?_eq_getElem hi)
      have hr := h.ok r (List.mem_iff_getElem?.2 ⟨_, g1⟩)
      have e1 : (lastN n es)[i]'(by simpa using h1) = es[es.length - n + i] := by simp [lastN]
      have e2 : (lastN n all)[i] = r := by
        have := (List.getElem?_eq_some_iff.1 g1)
        obtain ⟨_, hh⟩ := this
        rw [← hh]; simp [lastN, hlen]
      rw [List.getElem_map, e1, e2, rec_eq _ r rest hr g3]
  · intro e he
    rw [hring] at he
    obtain ⟨i, hi⟩ := List.mem_iff_getElem?.1 he
    unfold lastN at hi
    rw [List.getElem?_drop] at hi
    obtain ⟨r, rest, g1, _, g3⟩ := get _ _ hi
    exact ⟨r, rest, h.ok r (List.mem_iff_getElem?.2 ⟨_, g1⟩), readAt_rec g3⟩

theorem closeDupe_file (n : Nat) (hn : n ≤ 65536) (db : DupeDB) (all : List (List UInt8))
    (h : DupeInv n db all) :
    closeDupe db = .ok (dupeId ++ encAll (if db.changed then lastN n all else all)) := by
  unfold closeDupe
  by_cases hc : db.changed = true
  · rw [if_pos hc, if_pos hc]
    obtain ⟨hrec, hread⟩ := h.ring_recs
    have hlen := h.ring.len
    have hnum := h.ring.num_le
    have step : ∀ c ∈ List.range' db.num (db.idx.length - db.num) ++ List.range db.num,
        copyDupe db c = .ok (encRec (recAt db.file db.idx[c]!)) := by
      intro c hcm
      have hcl : c < db.idx.length := by
        rw [List.mem_append, List.mem_range', List.mem_range] at hcm
        rcases hcm with ⟨i, hi, rfl⟩ | hcm <;> omega
      have e : db.idx[c % 65536]? = some db.idx[c]! := by
        rw [Nat.mod_eq_of_lt (by omega), getElem!_pos db.idx c hcl, List.getElem?_eq_getElem hcl]
      have hm : db.idx[c]! ∈ dupeRing db := by
        rw [mem_ring, getElem!_pos db.idx c hcl]; exact List.getElem_mem hcl
      obtain ⟨r, rest, hr, hra⟩ := hread _ hm
      unfold copyDupe
      simp only [e, hra, size_toNat hr]
      have := hr.2
      rw [if_neg (by omega), if_neg (by simp), List.take_left]
      unfold recAt encRec
      simp only [hra, size_toNat hr, List.take_left]
    rw [mapM_ok _ _ _ step]
    simp only [bind, Except.bind]
    have e := ring_indices db.idx db.num hnum
    have : (List.range' db.num (db.idx.length - db.num) ++ List.range db.num).map
        (fun c => encRec (recAt db.file db.idx[c]!)) = (lastN n all).map encRec := by
      rw [← hrec]
      unfold dupeRing
      rw [← e]
      simp only [List.map_map]; rfl
    rw [this]; rfl
  · rw [if_neg hc, if_neg hc, h.file]

theorem encAll_lastN_le (n : Nat) (all : List (List UInt8)) : (encAll (lastN n all)).length ≤ (encAll all).length := by
  have := congrArg (fun x => (encAll x).length) (List.take_append_drop (all.length - n) all)
  simp only [encAll_append, List.length_append] at this
  unfold lastN
  omega

/-- C16. Closing and opening again keeps exactly the last `n` recorded entries, in order, for window
sizes up to 65536. -/
theorem dupe_close_open (n : Nat) (hn : n ≤ 65536) (db : DupeDB) (all : List (List UInt8))
    (h : DupeInv n db all) :
    ∃ file db' all', closeDupe db = .ok file ∧ openDupe n file = .ok (.opened db') ∧ DupeInv n db' all' ∧
      lastN n all' = lastN n all ∧ db'.changed = false := by
  have hpos : 0 < n := Nat.lt_of_le_of_lt (Nat.zero_le _) h.ring.num_lt
  have hsz := h.size
  rw [h.file, List.length_append] at hsz
  have hid : dupeId.length = 4 := rfl
  rw [hid] at hsz
  have hclose := closeDupe_file n hn db all h
  by_cases hc : db.changed = true
  · rw [if_pos hc] at hclose
    obtain ⟨db', h1, h2, h3⟩ := openDupe_opens n hpos (lastN n all)
      (fun r hr => h.ok r (List.mem_of_mem_drop hr))
      (by have := encAll_lastN_le n all; omega)
    exact ⟨_, db', _, hclose, h1, h2, lastN_lastN n all, h3⟩
  · rw [if_neg hc] at hclose
    obtain ⟨db', h1, h2, h3⟩ := openDupe_opens n hpos all h.ok hsz
    exact ⟨_, db', _, hclose, h1, h2, rfl, h3⟩

/-- C16. If the program ends without closing the database, nothing recorded is lost either. -/
theorem dupe_crash_open (n : Nat) (db : DupeDB) (all : List (List UInt8)) (h : DupeInv n db all) :
    ∃ db', openDupe n db.file = .ok (.opened db') ∧ DupeInv n db' all ∧ db'.changed = false := by
  have hpos : 0 < n := Nat.lt_of_le_of_lt (Nat.zero_le _) h.ring.num_lt
  have hsz := h.size
  rw [h.file, List.length_append] at hsz
  rw [h.file]
  exact openDupe_opens n hpos all h.ok hsz

/-! ## Checking -/

/-- A MSGID as the program handles it: 7-bit, no NUL, shorter than its 80-byte field. -/
def IdOK (s : Str) : Prop := s.length < 80 ∧ ∀ c ∈ s, c ≠ 0 ∧ c < 128

/-- An area name: no NUL, shorter than its 80-byte field. -/
def AreaOK (s : Str) : Prop := s.length < 80 ∧ ∀ c ∈ s, c ≠ 0

/-- The checksum of a 7-bit string. -/
def crcOf (s : Str) : UInt32 :=
  s.foldl (fun crc c => (crc >>> 8) ^^^ crcTab[(crc.toUInt8 ^^^ c).toNat]!) 0xffffffff

theorem calcstringcrc_ok (s : Str) (h : ∀ c ∈ s, c < 128) : calcstringcrc s = .ok (crcOf s) := by
  unfold calcstringcrc crcOf
  generalize (0xffffffff : UInt32) = k
  induction s generalizing k with
  | nil => rfl
  | cons c s ih =>
    have hc := h c (by simp)
    rw [List.foldlM_cons, List.foldl_cons]
    simp only [crcStep, hc, if_true, bind, Except.bind]
    exact ih (fun x hx => h x (by simp [hx])) _

/-- C14 (violated for non-ASCII MSGIDs): the table is indexed with a negative number. -/
theorem calcstringcrc_8bit (s t : Str) (c : UInt8) (hs : ∀ c ∈ s, c < 128) (hc : 128 ≤ c) :
    calcstringcrc (s ++ c :: t) = .error .oobRead := by
  unfold calcstringcrc
  generalize (0xffffffff : UInt32) = k
  induction s generalizing k with
  | nil =>
    rw [List.nil_append, List.foldlM_cons]
    have : ¬ c < 128 := by simp only [u8_lt, u8_le] at *; omega
    simp [crcStep, this, bind, Except.bind]
  | cons x s ih =>
    have hx := hs x (by simp)
    rw [List.cons_append, List.foldlM_cons]
    simp only [crcStep, hx, if_true, bind, Except.bind]
    exact ih (fun y hy => hs y (by simp [hy])) _

/-- What the program records for a message. -/
def keyRec (k : Str × Str) : List UInt8 := dupeRecord (crcOf k.1) k.1 k.2

theorem keyRec_inj (a b : Str × Str) (ha1 : ∀ c ∈ a.1, c ≠ 0) (ha2 : ∀ c ∈ a.2, c ≠ 0)
    (hb1 : ∀ c ∈ b.1, c ≠ 0) (hb2 : ∀ c ∈ b.2, c ≠ 0) (h : keyRec a = keyRec b) : a = b := by
  have split : ∀ (x y x' y' : Str), (∀ c ∈ x, c ≠ 0) → (∀ c ∈ x', c ≠ 0) →
      x ++ (0 :: y) = x' ++ (0 :: y') → x = x' ∧ y = y' := by
    intro x
    induction x with
    | nil =>
      intro y x' y' _ hx' e
      cases x' with
      | nil => simpa using e
      | cons c t => simp at e; exact absurd e.1.symm (hx' c (by simp))
    | cons c x ih =>
      intro y x' y' hx hx' e
      cases x' with
      | nil => simp at e; exact absurd e.1 (hx c (by simp))
      | cons d t =>
        simp only [List.cons_append, List.cons.injEq] at e
        obtain ⟨h1, h2⟩ := ih y t y' (fun z hz => hx z (by simp [hz])) (fun z hz => hx' z (by simp [hz])) e.2
        exact ⟨by rw [e.1, h1], h2⟩
  unfold keyRec dupeRecord at h
  simp only [List.append_assoc, List.cons_append, List.nil_append] at h
  have h := (List.append_inj h rfl).2
  obtain ⟨h1, h2⟩ := split _ _ _ _ ha1 hb1 h
  obtain ⟨h3, _⟩ := split _ _ _ _ ha2 hb2 h2
  exact Prod.ext h1 h3

theorem keyRec_ok (k : Str × Str) (h1 : k.1.length < 80) (h2 : k.2.length < 80) :
    RecOK (keyRec k) ∧ 4 ≤ (keyRec k).length ∧ (keyRec k).length < 166 := by
  unfold RecOK keyRec dupeRecord
  simp only [List.length_append, le32_length, List.length_singleton]
  omega

/-- C14, C15. One check of a message with a MSGID: it is reported as a duplicate exactly if the same
MSGID and area are among the last `n` recorded; otherwise it is recorded as the newest. -/
theorem checkDupe_spec (n : Nat) (db : DupeDB) (all : List (List UInt8)) (h : DupeInv n db all)
    (msgid area : Str) (hid : IdOK msgid) (hne : msgid ≠ []) (har : AreaOK area)
    (hs : db.file.length + 168 < 2 ^ 32) :
    (keyRec (msgid, area) ∈ lastN n all → checkDupe n db msgid area = .ok (db, true)) ∧
    (keyRec (msgid, area) ∉ lastN n all → ∃ db', checkDupe n db msgid area = .ok (db', false) ∧
      DupeInv n db' (all ++ [keyRec (msgid, area)]) ∧ db'.file.length ≤ db.file.length + 168) := by
  obtain ⟨hr, h4, hlen⟩ := keyRec_ok (msgid, area) hid.1 har.1
  have hcrc := calcstringcrc_ok msgid (fun c hc => (hid.2 c hc).2)
  have hany := h.any_iff (keyRec (msgid, area)) hr h4
  have e : rd32L (keyRec (msgid, area)) = crcOf msgid := by
    unfold keyRec dupeRecord
    simp only [List.append_assoc]
    exact rd32L_le32 _ _
  rw [e] at hany
  have el : (encRec (keyRec (msgid, area))).length = (keyRec (msgid, area)).length + 2 := encRec_length _
  constructor
  · intro hm
    have ha := hany.2 hm
    unfold checkDupe
    rw [if_neg hne]
    simp only [hcrc, bind, Except.bind]
    change (if 300 < (keyRec (msgid, area)).length then _ else _) = _
    rw [if_neg (by omega)]
    change (if db.idx.any (dupeProbe db.file (crcOf msgid) (keyRec (msgid, area))) = true then _ else _) = _
    rw [if_pos ha]
  · intro hm
    have ha : ¬ db.idx.any (dupeProbe db.file (crcOf msgid) (keyRec (msgid, area))) = true :=
      fun hh => hm (hany.1 hh)
    obtain ⟨db', b1, b2, b3, b4⟩ := addDupeBuf_spec h (keyRec (msgid, area)) hr (by omega)
    refine ⟨db', ?_, b2, ?_⟩
    · unfold checkDupe
      rw [if_neg hne]
      simp only [hcrc, bind, Except.bind]
      change (if 300 < (keyRec (msgid, area)).length then _ else _) = _
      rw [if_neg (by omega)]
      change (if db.idx.any (dupeProbe db.file (crcOf msgid) (keyRec (msgid, area))) = true then _ else _) = _
      rw [if_neg ha]
      change (do
        let db' ← addDupeBuf n db (keyRec (msgid, area))
        (Except.ok (db', false) : Except UB (DupeDB × Bool))) = _
      rw [b1]; rfl
    · rw [b4, List.length_append]; omega

/-- C14. Messages without MSGID are never reported and never recorded. -/
theorem checkDupe_noid (n : Nat) (db : DupeDB) (area : Str) : checkDupe n db [] area = .ok (db, false) := rfl

/-! ## Histories -/

/-- What happens to the database during the life of the system. -/
inductive DupeOp
  | check (msgid area : Str)
  /-- the program ends normally and is started again -/
  | restart
  /-- the program is killed and started again -/
  | crash

/-- One step; `none` if the database could not be opened. The list holds the answer of a check. -/
def dupeStep (n : Nat) (db : DupeDB) : DupeOp → Except UB (Option (DupeDB × List Bool))
  | .check m a => match checkDupe n db m a with
    | .error e => .error e
    | .ok (db', b) => .ok (some (db', [b]))
  | .restart => match closeDupe db with
    | .error e => .error e
    | .ok file => match openDupe n file with
      | .error e => .error e
      | .ok (.opened db') => .ok (some (db', []))
      | .ok _ => .ok none
  | .crash => match openDupe n db.file with
    | .error e => .error e
    | .ok (.opened db') => .ok (some (db', []))
    | .ok _ => .ok none

/-- A history. -/
def dupeRun (n : Nat) (db : DupeDB) : List DupeOp → Except UB (Option (DupeDB × List Bool))
  | [] => .ok (some (db, []))
  | op :: ops => match dupeStep n db op with
    | .error e => .error e
    | .ok none => .ok none
    | .ok (some (db', out)) => match dupeRun n db' ops with
      | .error e => .error e
      | .ok none => .ok none
      | .ok (some (db'', outs)) => .ok (some (db'', out ++ outs))

/-- Specification: the window of the last `n` recorded messages. -/
def windowStep (n : Nat) (w : List (Str × Str)) : DupeOp → List (Str × Str) × List Bool
  | .check m a =>
    if m = [] then (w, [false])
    else if (m, a) ∈ w then (w, [true])
    else (lastN n (w ++ [(m, a)]), [false])
  | _ => (w, [])

/-- Specification: answers over a history. -/
def windowRun (n : Nat) (w : List (Str × Str)) : List DupeOp → List (Str × Str) × List Bool
  | [] => (w, [])
  | op :: ops =>
    let s := windowStep n w op
    let r := windowRun n s.1 ops
    (r.1, s.2 ++ r.2)

/-- Checks with fields the program can hold. -/
def OpOK : DupeOp → Prop
  | .check m a => IdOK m ∧ AreaOK a
  | _ => True

/-- Keys in the window have these properties too. -/
def KeysOK (w : List (Str × Str)) : Prop := ∀ k ∈ w, IdOK k.1 ∧ AreaOK k.2

theorem dupeStep_window (n : Nat) (hn : n ≤ 65536) (db : DupeDB) (all : List (List UInt8))
    (w : List (Str × Str)) (h : DupeInv n db all) (hw : KeysOK w) (hm : w.map keyRec = lastN n all)
    (op : DupeOp) (hop : OpOK op) (hs : db.file.length + 168 < 2 ^ 32) :
    ∃ db' all', dupeStep n db op = .ok (some (db', (windowStep n w op).2)) ∧ DupeInv n db' all' ∧
      KeysOK (windowStep n w op).1 ∧ (windowStep n w op).1.map keyRec = lastN n all' ∧
      db'.file.length ≤ db.file.length + 168 := by
  cases op with
  | check m a =>
    obtain ⟨hid, har⟩ := hop
    by_cases hne : m = []
    · subst hne
      exact ⟨db, all, by simp [dupeStep, checkDupe_noid, windowStep], h, by simpa [windowStep] using hw,
        by simpa [windowStep] using hm, by omega⟩
    · obtain ⟨c1, c2⟩ := checkDupe_spec n db all h m a hid hne har hs
      have hmem : keyRec (m, a) ∈ lastN n all ↔ (m, a) ∈ w := by
        rw [← hm, List.mem_map]
        constructor
        · rintro ⟨k, hk, e⟩
          have := keyRec_inj k (m, a) (fun c hc => ((hw k hk).1.2 c hc).1) ((hw k hk).2.2)
            (fun c hc => (hid.2 c hc).1) har.2 e
          rwa [← this]
        · intro hk; exact ⟨_, hk, rfl⟩
      by_cases hk : (m, a) ∈ w
      · refine ⟨db, all, ?_, h, ?_, ?_, by omega⟩
        · simp [dupeStep, c1 (hmem.2 hk), windowStep, hne, hk]
        · simpa [windowStep, hne, hk] using hw
        · simpa [windowStep, hne, hk] using hm
      · obtain ⟨db', d1, d2, d3⟩ := c2 (fun hh => hk (hmem.1 hh))
        refine ⟨db', _, ?_, d2, ?_, ?_, d3⟩
        · simp [dupeStep, d1, windowStep, hne, hk]
        · simp only [windowStep, hne, hk, if_false]
          intro k hkm
          have := List.mem_of_mem_drop hkm
          rw [List.mem_append, List.mem_singleton] at this
          rcases this with h | rfl
          · exact hw k h
          · exact ⟨hid, har⟩
        · simp only [windowStep, hne, hk, if_false]
          rw [lastN_map, List.map_append, hm, lastN_append]; rfl
  | restart =>
    obtain ⟨file, db', all', e1, e2, e3, e4, _⟩ := dupe_close_open n hn db all h
    refine ⟨db', all', by simp [dupeStep, e1, e2, windowStep], e3, hw, by rw [e4]; exact hm, ?_⟩
    have hclose := closeDupe_file n hn db all h
    rw [hclose] at e1
    simp only [Except.ok.injEq] at e1
    have hid : dupeId.length = 4 := rfl
    have hle : file.length ≤ db.file.length := by
      rw [← e1, h.file, List.length_append, List.length_append]
      split
      · have := encAll_lastN_le n all; omega
      · omega
    have hfe : db'.file = file := by
      obtain ⟨db2, f1, f2, _⟩ := openDupe_opens n (Nat.lt_of_le_of_lt (Nat.zero_le _) h.ring.num_lt)
        (if db.changed then lastN n all else all)
        (by intro r hr; split at hr
            · exact h.ok r (List.mem_of_mem_drop hr)
            · exact h.ok r hr)
        (by
          have := h.size
          rw [h.file, List.length_append, hid] at this
          split
          · have := encAll_lastN_le n all; omega
          · omega)
      rw [← e1, f1] at e2
      simp only [Except.ok.injEq, DupeOpen.opened.injEq] at e2
      rw [← e2, f2.file, e1]
    rw [hfe]; omega
  | crash =>
    obtain ⟨db', e1, e2, _⟩ := dupe_crash_open n db all h
    exact ⟨db', all, by simp [dupeStep, e1, windowStep], e2, hw, hm, by rw [e2.file, h.file]; omega⟩

theorem dupeRun_window (n : Nat) (hn : n ≤ 65536) (ops : List DupeOp) (hops : ∀ op ∈ ops, OpOK op)
    (db : DupeDB) (all : List (List UInt8)) (w : List (Str × Str)) (h : DupeInv n db all) (hw : KeysOK w)
    (hm : w.map keyRec = lastN n all) (hs : db.file.length + 168 * ops.length < 2 ^ 32) :
    ∃ db', dupeRun n db ops = .ok (some (db', (windowRun n w ops).2)) := by
  induction ops generalizing db all w with
  | nil => exact ⟨db, rfl⟩
  | cons op ops ih =>
    simp only [List.length_cons] at hs
    obtain ⟨db', all', s1, s2, s3, s4, s5⟩ := dupeStep_window n hn db all w h hw hm op (hops op (by simp)) (by omega)
    obtain ⟨db'', r1⟩ := ih (fun o ho => hops o (by simp [ho])) db' all' _ s2 s3 s4 (by omega)
    exact ⟨db'', by simp only [dupeRun, s1, r1, windowRun]⟩

/-- The empty database. -/
def freshDupe : DupeDB := ⟨dupeId, [], 0, false⟩

theorem freshDupe_inv (n : Nat) (hn : 0 < n) : DupeInv n freshDupe [] :=
  ⟨⟨hn, Nat.le_refl _, by simp [freshDupe], by simp [freshDupe]⟩, rfl, by simp, by decide,
    [], .nil _, by simp [freshDupe, dupeRing, lastN]⟩

/-- C14, C15, C16. Over every history of checks, restarts and crashes, starting without a database, the
answers are exactly those of the window of the last `n` recorded messages. -/
theorem dupe_history (n : Nat) (h0 : 0 < n) (hn : n ≤ 65536) (ops : List DupeOp)
    (hops : ∀ op ∈ ops, OpOK op) (hs : 4 + 168 * ops.length < 2 ^ 32) :
    openDupe n [] = .ok (.opened freshDupe) ∧
    ∃ db', dupeRun n freshDupe ops = .ok (some (db', (windowRun n [] ops).2)) :=
  ⟨rfl, dupeRun_window n hn ops hops freshDupe [] [] (freshDupe_inv n h0) (by intro k hk; simp at hk)
    (by simp [lastN]) hs⟩

/-! Consequences for the window. -/

theorem windowRun_append (n : Nat) (w : List (Str × Str)) (a b : List DupeOp) :
    windowRun n w (a ++ b) = ((windowRun n (windowRun n w a).1 b).1,
      (windowRun n w a).2 ++ (windowRun n (windowRun n w a).1 b).2) := by
  induction a generalizing w with
  | nil => simp [windowRun]
  | cons op a ih => simp [windowRun, ih]

/-- Every entry of the window was checked. -/
theorem window_sound (n : Nat) (ops : List DupeOp) (w : List (Str × Str)) (m a : Str)
    (h : (m, a) ∈ (windowRun n w ops).1) : (m, a) ∈ w ∨ .check m a ∈ ops := by
  induction ops generalizing w with
  | nil => exact .inl h
  | cons op ops ih =>
    simp only [windowRun] at h
    rcases ih _ h with h | h
    · cases op with
      | check m' a' =>
        simp only [windowStep] at h
        split at h
        · exact .inl h
        · split at h
          · exact .inl h
          · have := List.mem_of_mem_drop h
            rw [List.mem_append, List.mem_singleton] at this
            rcases this with h | h
            · exact .inl h
            · simp only [Prod.mk.injEq] at h
              exact .inr (by simp [h])
      | restart => exact .inl h
      | crash => exact .inl h
    · exact .inr (by simp [h])

/-- C15. A message is reported as a duplicate only if a message with the same MSGID and area was
checked before. -/
theorem dupe_no_false_positive (n : Nat) (ops : List DupeOp) (m a : Str)
    (h : (windowStep n (windowRun n [] ops).1 (.check m a)).2 = [true]) : .check m a ∈ ops := by
  simp only [windowStep] at h
  split at h
  · simp at h
  · split at h
    · rename_i hm
      rcases window_sound n ops [] m a hm with h | h
      · simp at h
      · exact h
    · simp at h

/-- The number of checks in a history. -/
def checks : List DupeOp → Nat
  | [] => 0
  | .check _ _ :: ops => checks ops + 1
  | _ :: ops => checks ops

theorem window_keeps (n : Nat) (ops : List DupeOp) (w : List (Str × Str)) (k : Str × Str) (i : Nat)
    (hi : w[i]? = some k) (hc : w.length + checks ops ≤ n + i) : k ∈ (windowRun n w ops).1 := by
  induction ops generalizing w i with
  | nil => exact List.mem_iff_getElem?.2 ⟨i, hi⟩
  | cons op ops ih =>
    have hlt := (List.getElem?_eq_some_iff.1 hi).1
    simp only [windowRun]
    cases op with
    | restart => exact ih w i hi hc
    | crash => exact ih w i hi hc
    | check m a =>
      simp only [checks] at hc
      simp only [windowStep]
      split
      · exact ih w i hi (by omega)
      · split
        · exact ih w i hi (by omega)
        · have hl : (lastN n (w ++ [(m, a)])).length = min n (w.length + 1) := by rw [lastN_length]; simp
          refine ih (lastN n (w ++ [(m, a)])) (i - (w.length + 1 - n)) ?_ ?_
          · unfold lastN
            rw [List.getElem?_drop]
            have : (w ++ [(m, a)]).length - n + (i - (w.length + 1 - n)) = i := by simp; omega
            rw [this, List.getElem?_append_left hlt, hi]
          · rw [hl]; omega

/-- C14. A message that was recorded (checked and not reported) is reported when it is checked again,
as long as fewer than `n` checks happened in between; restarts and crashes do not count. -/
theorem dupe_repeat_caught (n : Nat) (ops1 ops2 : List DupeOp) (m a : Str) (hm : m ≠ [])
    (hrec : (windowStep n (windowRun n [] ops1).1 (.check m a)).2 = [false]) (hc : checks ops2 < n) :
    (windowStep n (windowRun n [] (ops1 ++ .check m a :: ops2)).1 (.check m a)).2 = [true] := by
  have hw : (m, a) ∉ (windowRun n [] ops1).1 := by
    intro h
    simp [windowStep, hm, h] at hrec
  have e : (windowRun n [] (ops1 ++ .check m a :: ops2)).1 =
      (windowRun n (lastN n ((windowRun n [] ops1).1 ++ [(m, a)])) ops2).1 := by
    rw [windowRun_append]
    simp [windowRun, windowStep, hm, hw]
  have hk : (m, a) ∈ (windowRun n [] (ops1 ++ .check m a :: ops2)).1 := by
    rw [e]
    generalize (windowRun n [] ops1).1 = w
    have hl : (lastN n (w ++ [(m, a)])).length = min n (w.length + 1) := by rw [lastN_length]; simp
    refine window_keeps n ops2 _ _ (min n (w.length + 1) - 1) ?_ (by rw [hl]; omega)
    unfold lastN
    rw [List.getElem?_drop]
    have : (w ++ [(m, a)]).length - n + (min n (w.length + 1) - 1) = w.length := by simp; omega
    rw [this]; simp
  simp [windowStep, hm, hk]

/-- C16 (violated for windows above 65536). `copydupe` takes a 16-bit index: with 65537 entries the
newest one is replaced by a copy of the oldest when the database is closed. -/
theorem dupe_close_wraps (n : Nat) (db : DupeDB) (all : List (List UInt8)) (h : DupeInv n db all)
    (hn : 65537 < n) (hl : all.length = 65537) :
    copyDupe db 65536 = copyDupe db 0 ∧ (∃ r, all[0]? = some r ∧ copyDupe db 65536 = .ok (encRec r)) := by
  refine ⟨rfl, ?_⟩
  obtain ⟨hrec, hread⟩ := h.ring_recs
  rw [lastN_of_le (by omega)] at hrec
  have hlr : (dupeRing db).length = 65537 := by rw [← hl, ← hrec]; simp
  have hidx : db.idx.length = 65537 := by
    rw [← hlr]; simp only [dupeRing, List.length_append, List.length_drop, List.length_take]
    have := h.ring.num_le; omega
  have hnum : db.num = 65537 := by rw [h.ring.grow (by omega), hidx]
  have hring : dupeRing db = db.idx := by
    unfold dupeRing
    rw [hnum, List.drop_eq_nil_of_le (by omega), List.take_of_length_le (by omega)]; rfl
  rw [hring] at hrec hread
  obtain ⟨e, es, he⟩ : ∃ e es, db.idx = e :: es := by
    cases hh : db.idx with
    | nil => rw [hh] at hidx; simp at hidx
    | cons e es => exact ⟨e, es, rfl⟩
  obtain ⟨r, rest, hr, hra⟩ := hread e (by rw [he]; simp)
  refine ⟨r, ?_, ?_⟩
  · rw [← hrec, he]
    simp [recAt, hra, size_toNat hr]
  · unfold copyDupe
    have : db.idx[65536 % 65536]? = some e := by rw [he]; rfl
    simp only [this, hra, size_toNat hr]
    have := hr.2
    rw [if_neg (by omega), if_neg (by simp), List.take_left]
    rfl

/-! ## The checksum -/

/-- One bit of the CRC-32 with polynomial 0xedb88320. -/
def crcBit (c : UInt32) : UInt32 := if c &&& 1 = 1 then (c >>> 1) ^^^ 0xedb88320 else c >>> 1

/-- C15. The table is the one of the standard CRC-32. -/
theorem crcTab_standard (i : UInt8) :
    crcTab[i.toNat]! = crcBit (crcBit (crcBit (crcBit (crcBit (crcBit (crcBit (crcBit i.toUInt32))))))) := by
  revert i; decide +kernel

example : (windowRun 2 [] [.check b!"2:5020/1 1" b!"A", .check b!"2:5020/1 2" b!"A", .restart,
    .check b!"2:5020/1 1" b!"A", .check b!"2:5020/1 3" b!"A", .crash, .check b!"2:5020/1 1" b!"A"]).2 =
    [false, false, true, false, false] := by decide

example : IdOK b!"2:5020/1042 5f3a" ∧ AreaOK b!"RU.LINUX" ∧ OpOK (.check b!"2:5020/1042 5f3a" b!"RU.LINUX") := by
  unfold OpOK IdOK AreaOK; decide

example : DupeInv 10000 freshDupe [] := freshDupe_inv _ (by decide)

end CM
