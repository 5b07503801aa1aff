import Verif.Lemmas.Scan
import Verif.Props.JamKeep
/-! # C79: scanning exports every waiting message of every area that is to be scanned -/

set_option linter.unusedSimpArgs false

namespace CM

theorem skolem_mem {α : Type} [Nonempty α] {L : List Nat} {P : Nat → α → Prop} (h : ∀ j ∈ L, ∃ a, P j a) : ∃ f : Nat → α, ∀ j ∈ L, P j (f j) := by
  classical
  exact ⟨fun j => if hj : j ∈ L then Classical.choose (h j hj) else Classical.choice inferInstance, fun j hj => by
    simp only [hj, dif_pos]; exact Classical.choose_spec (h j hj)⟩

theorem JamScanned.cut {kill : Bool} {load : UInt32 → JamMsg → MemMsg → Prop} {hw start : UInt32} {p : Nat} {ms new ms' : List (Option JamMsg)} {s : List (UInt32 × MemMsg)}
    (h : JamScanned kill load hw start p (ms ++ new) s ms') (hp : p ≤ ms.length) : JamScanned kill load hw start p ms s ms' := by
  have e : ∀ k, k < ms.length → (ms ++ new)[k]? = ms[k]? := fun k hk => List.getElem?_append_left hk
  have ew : ∀ k, k < ms.length → JamWaits hw start (ms ++ new) k = JamWaits hw start ms k := fun k hk => waits_congr (e k hk)
  refine ⟨?_, fun x hx => ?_, fun k m hk hw hm => ?_, fun k hk hc => ?_, ?_⟩
  · rw [h.nums, List.filter_congr (q := JamWaits hw start ms) fun k hk => ew k (by have := List.mem_range.1 hk; omega)]
  · obtain ⟨k, m, h1, h2, h3⟩ := h.what x hx
    exact ⟨k, m, h1, by rw [← e k (by omega)]; exact h2, h3⟩
  · exact h.marked k m hk (by rw [ew k (by omega)]; exact hw) (by rw [e k (by omega)]; exact hm)
  · rw [h.others k (by rw [List.length_append]; omega) (by rw [ew k hk]; exact hc), e k hk]
  · have := h.grown
    rw [List.length_append] at this
    omega

theorem JamScanned.more {kill : Bool} {load : UInt32 → JamMsg → MemMsg → Prop} {hw start : UInt32} {p : Nat} {ms ms' : List (Option JamMsg)} {s : List (UInt32 × MemMsg)}
    (h : JamScanned kill load hw start p ms s ms') (new : List (Option JamMsg)) : JamScanned kill load hw start p ms s (ms' ++ new) := by
  refine ⟨h.nums, h.what, fun k m hk hw hm => ?_, fun k hk hc => ?_, ?_⟩
  · obtain ⟨m', h1, h2⟩ := h.marked k m hk hw hm
    exact ⟨m', by rw [List.getElem?_append_left (List.getElem?_eq_some_iff.1 h1).1]; exact h1, h2⟩
  · rw [List.getElem?_append_left (by have := h.grown; omega)]
    exact h.others k hk hc
  · have := h.grown
    rw [List.length_append]; omega

theorem JamScanned.nothing (kill : Bool) (load : UInt32 → JamMsg → MemMsg → Prop) (hw start : UInt32) (ms new : List (Option JamMsg)) :
    JamScanned kill load hw start 0 ms [] (ms ++ new) :=
  ⟨rfl, fun x hx => (by cases hx), fun k m hk => (by omega), fun k hk _ => List.getElem?_append_left hk, by simp⟩

theorem JamFine.mono {c k k' : Nat} {start : UInt32} {x : JamRec} {ms : List (Option JamMsg)} {i : Nat} {w : JamW} (h : JamFine c k' start x ms i w) (hk : k ≤ k') : JamFine c k start x ms i w := by
  obtain ⟨b, h1, h2, h3, h4⟩ := h
  exact ⟨b, h1, h2, h3.mono hk, h4⟩

theorem JamAt.fine {i : Nat} {start : UInt32} {x : JamRec} {c k : Nat} {ms : List (Option JamMsg)} {w : JamW} (h : JamAt i start x c k ms w) : JamFine c k start x ms i w := by
  obtain ⟨b, y, h1, h2, h3, h4, h5⟩ := h
  exact ⟨b, h1, h2, h3, .inr ⟨y, h4, h5⟩⟩

theorem JamFine.at {i : Nat} {start : UInt32} {x : JamRec} {c k : Nat} {ms : List (Option JamMsg)} {w : JamW} (h : JamFine c k start x ms i w) (hr : w.recs i ≠ none) : JamAt i start x c k ms w := by
  obtain ⟨b, h1, h2, h3, h4 | ⟨y, h4, h5⟩⟩ := h
  · exact absurd h4.1 hr
  · exact ⟨b, y, h1, h2, h3, h4, h5⟩

theorem JamFine.other {i : Nat} {start : UInt32} {x : JamRec} {c k : Nat} {ms : List (Option JamMsg)} {w w' : JamW} (h : JamFine c k start x ms i w) (h1 : w'.base i = w.base i) (h2 : w'.recs i = w.recs i) :
    JamFine c k start x ms i w' := by
  unfold JamFine at *
  rw [h1, h2]; exact h

/-- The messages of area `i` among those that were exported. -/
def sentOf (tr : List (Nat × UInt32 × MemMsg)) (i : Nat) : List (UInt32 × MemMsg) := (tr.filter (·.1 == i)).map (·.2)

theorem sentOf_same (tr : List (Nat × UInt32 × MemMsg)) (i : Nat) (s : List (UInt32 × MemMsg)) : sentOf (tr ++ s.map fun z => (i, z)) i = sentOf tr i ++ s := by
  unfold sentOf
  rw [List.filter_append, List.map_append]
  congr 1
  rw [List.filter_eq_self.2 (by intro z hz; obtain ⟨y, _, rfl⟩ := List.mem_map.1 hz; simp)]
  rw [List.map_map]
  exact List.map_id _

theorem sentOf_other (tr : List (Nat × UInt32 × MemMsg)) {i j : Nat} (s : List (UInt32 × MemMsg)) (h : j ≠ i) : sentOf (tr ++ s.map fun z => (i, z)) j = sentOf tr j := by
  unfold sentOf
  rw [List.filter_append, (List.filter_eq_nil_iff (l := s.map fun z => (i, z))).2 (by
    intro z hz
    obtain ⟨y, _, rfl⟩ := List.mem_map.1 hz
    simpa using fun e => h e.symm), List.append_nil]

/-- What was exported, area by area in the order of `L`. -/
def Traced (L : List Nat) (tr : List (Nat × UInt32 × MemMsg)) : Prop := tr = L.flatMap fun j => (sentOf tr j).map fun q => (j, q)

theorem traced_step {L D R : List Nat} {i : Nat} {tr : List (Nat × UInt32 × MemMsg)} (hL : L = D ++ i :: R) (hnd : L.Nodup) (h : Traced L tr) (hi : sentOf tr i = []) (hR : ∀ j ∈ R, sentOf tr j = [])
    (s : List (UInt32 × MemMsg)) : Traced L (tr ++ s.map fun q => (i, q)) := by
  subst hL
  have hR0 : ∀ t : List (Nat × UInt32 × MemMsg), (∀ j ∈ R, sentOf t j = []) → (R.flatMap fun j => (sentOf t j).map fun q => (j, q)) = [] := by
    intro t ht
    rw [List.flatMap_eq_nil_iff]
    intro j hj
    rw [ht j hj]; rfl
  obtain ⟨_, hnd2, hdis⟩ := List.nodup_append.1 hnd
  have hiR := (List.nodup_cons.1 hnd2).1
  unfold Traced at *
  rw [List.flatMap_append, List.flatMap_cons, hR0 tr hR, hi, List.map_nil, List.append_nil, List.append_nil] at h
  rw [List.flatMap_append, List.flatMap_cons, sentOf_same, hi, List.nil_append, hR0 _ fun j hj => by
    have hji : j ≠ i := fun e => hiR (e ▸ hj)
    rw [sentOf_other tr s hji]; exact hR j hj, List.append_nil]
  congr 1
  rw [h]
  conv => lhs; rw [← h]
  have : ∀ E : List Nat, (∀ j ∈ E, j ≠ i) → (E.flatMap fun j => (sentOf tr j).map fun q => (j, q)) = E.flatMap fun j => (sentOf (tr ++ s.map fun q => (i, q)) j).map fun q => (j, q) := by
    intro E hE
    induction E with
    | nil => rfl
    | cons x E ih =>
      rw [List.flatMap_cons, List.flatMap_cons, sentOf_other _ _ (hE x (by simp)), ih fun j hj => hE j (by simp [hj])]
  have h2 := this D fun j hj => hdis j hj i (by simp)
  rw [← h] at h2
  rw [← h]
  exact h2

theorem Traced.mem {L : List Nat} {tr : List (Nat × UInt32 × MemMsg)} (h : Traced L tr) : ∀ z ∈ tr, z.1 ∈ L := by
  intro z hz
  rw [h] at hz
  obtain ⟨j, hj, hz⟩ := List.mem_flatMap.1 hz
  obtain ⟨q, _, rfl⟩ := List.mem_map.1 hz
  exact hj

/-- An area that is scanned: its contents before, what can be loaded, and its high water mark. -/
structure ScanAreaIn where
  start : UInt32
  ms : List (Option JamMsg)
  hw : UInt32
  area : Area

/-- The area has been looked at up to position `p`. -/
def AreaScanned (o : JamOpt) (r : JamRun) (aka : Area → Node4D) (A : ScanAreaIn) (i p : Nat) (s : JamW × List (Nat × UInt32 × MemMsg)) : Prop :=
  ∃ b' ms', s.1.base i = some b' ∧ JamHolds b' A.start ms' ∧
    JamScanned (o.killSent && A.area.type = .netmail) (loadsAs o r A.area (aka A.area)) A.hw A.start p A.ms (sentOf s.2 i) ms'

/-- The area can be scanned. -/
structure Scannable (o : JamOpt) (r : JamRun) (aka : Area → Node4D) (Fit : MemMsg → Prop) (cfg : Config) (A : ScanAreaIn) (i : Nat) (w : JamW) : Prop where
  area : cfg.areas[i]? = some A.area
  first : A.start ≠ 0
  small : A.start.toNat + A.ms.length < 2 ^ 32
  mark : MarkIs o (w.hwFile i) 0 A.hw
  markSmall : A.hw.toNat + 1 < 2 ^ 32
  loads : ∀ k m, A.ms[k]? = some (some m) → JamWaits A.hw A.start A.ms k = true → ∃ mm, loadsAs o r A.area (aka A.area) (A.start + UInt32.ofNat k) m mm ∧ Fit mm

section
variable {o : JamOpt} {r : JamRun} {handle : JamHandler} {aka : Area → Node4D} {Fit : MemMsg → Prop} {cfg : Config} {L : List Nat} {A : Nat → ScanAreaIn} {c e : Nat} {w0 : JamW}

/-- The record of an area that has just been opened. -/
def freshRec (A : ScanAreaIn) : JamRec := { baseNum := A.start, oldNum := UInt32.ofNat A.ms.length }

/-- Area `j` while the areas `R` are still to be scanned. -/
def Midway (o : JamOpt) (r : JamRun) (aka : Area → Node4D) (A : ScanAreaIn) (c k : Nat) (w0 : JamW) (R : List Nat) (j : Nat) (s : JamW × List (Nat × UInt32 × MemMsg)) : Prop :=
  ∃ (y : JamRec × List (Option JamMsg)), JamFine c k A.start y.1 y.2 j s.1 ∧
    ((j ∈ R ∧ y.1 = freshRec A ∧ (∃ new, y.2 = A.ms ++ new) ∧ sentOf s.2 j = [] ∧ s.1.hwFile j = w0.hwFile j) ∨
      (j ∉ R ∧ JamScanned (o.killSent && A.area.type = .netmail) (loadsAs o r A.area (aka A.area)) A.hw A.start A.ms.length A.ms (sentOf s.2 j) y.2))

/-- The messages that are still to be looked at. -/
def sizes (A : Nat → ScanAreaIn) (R : List Nat) : Nat := (R.map fun j => (A j).ms.length).sum

def Going (o : JamOpt) (r : JamRun) (aka : Area → Node4D) (A : Nat → ScanAreaIn) (c e : Nat) (w0 : JamW) (L R : List Nat) (s : JamW × List (Nat × UInt32 × MemMsg)) : Prop :=
  L.Nodup ∧ (∃ D, L = D ++ R) ∧ Traced L s.2 ∧ ∀ j ∈ L, Midway o r aka (A j) c (sizes A R + e) w0 R j s

/-- After a failure. -/
def Part (o : JamOpt) (r : JamRun) (aka : Area → Node4D) (A : Nat → ScanAreaIn) (L : List Nat) (s : JamW × List (Nat × UInt32 × MemMsg)) : Prop :=
  Traced L s.2 ∧ ∀ j ∈ L, ∃ p, p ≤ (A j).ms.length ∧ AreaScanned o r aka (A j) j p s

theorem Going.part {R : List Nat} {s : JamW × List (Nat × UInt32 × MemMsg)} (h : Going o r aka A c e w0 L R s) : Part o r aka A L s := by
  refine ⟨h.2.2.1, fun j hj => ?_⟩
  obtain ⟨y, ⟨b, h1, h2, _⟩, ⟨_, _, ⟨new, h4⟩, h5, _⟩ | ⟨_, h4⟩⟩ := h.2.2.2 j hj
  · refine ⟨0, Nat.zero_le _, b, y.2, h1, h2, ?_⟩
    rw [h5, h4]
    exact .nothing _ _ _ _ _ _
  · exact ⟨_, Nat.le_refl _, b, y.2, h1, h2, h4⟩

/-- One area. -/
theorem going_exp (hl : ∀ t, r.lock t = true) (hk : JamKeepsAll Fit L c handle) (hA : ∀ i ∈ L, Scannable o r aka Fit cfg (A i) i w0) {i : Nat} {R : List Nat} {a : Area}
    {s : JamW × List (Nat × UInt32 × MemMsg)} (ha : cfg.areas[i]? = some a) (h : Going o r aka A c e w0 L (i :: R) s) :
    ∃ ok s', (jamScanOps o r handle aka).exp i a s = .ok (ok, s') ∧ (ok = true → Going o r aka A c e w0 L R s') ∧ (ok = false → Part o r aka A L s') := by
  obtain ⟨hnd, ⟨D, hD⟩, htr, hmid⟩ := h
  have hi : i ∈ L := by rw [hD]; simp
  have hiR : i ∉ R := by rw [hD] at hnd; exact (List.nodup_cons.1 (List.nodup_append.1 hnd).2.1).1
  have hAi := hA i hi
  have ea : a = (A i).area := by have := hAi.area; rw [ha] at this; injection this
  subst ea
  obtain ⟨w, tr⟩ := s
  have hsz : sizes A (i :: R) + e = (A i).ms.length + (sizes A R + e) := by
    show ((A i).ms.length + sizes A R) + e = _
    omega
  have : Nonempty (JamRec × List (Option JamMsg)) := ⟨(freshRec (A i), [])⟩
  obtain ⟨Y, hY⟩ := skolem_mem hmid
  -- the area itself
  obtain ⟨hfi, hsti⟩ := hY i hi
  rcases hsti with ⟨_, hx, ⟨newi, hmsi⟩, hsent, hhw⟩ | ⟨hno, _⟩
  case inr => exact absurd (by simp) hno
  obtain ⟨b, hb, hh, hsp, hrec⟩ := id hfi
  have hlen : (A i).ms.length ≤ (Y i).2.length := by rw [hmsi, List.length_append]; omega
  have hfew : (Y i).2.length < 2 ^ 32 := by obtain ⟨off, h⟩ := hh; exact h.few
  have hsm : (A i).ms.length < 2 ^ 32 := by omega
  have hknown : jamKnown w i (Y i).2 = (A i).ms.length := by
    unfold jamKnown
    rcases hrec with ⟨h1, _, h3, _⟩ | ⟨y, h1, _, h3, _⟩
    · rw [h1]
      show (Y i).2.length = _
      rw [hx] at h3
      have := congrArg UInt32.toNat h3
      rw [ofNat_few hfew] at this
      exact (this.symm.trans (ofNat_few hsm))
    · rw [h1]
      show y.oldNum.toNat = _
      rw [h3, hx]
      exact ofNat_few hsm
  have hrec' : ∀ y, w.recs i = some y → y.baseNum = (A i).start := by
    intro y hy
    rcases hrec with ⟨h1, _⟩ | ⟨y', h1, h2, _⟩
    · rw [hy] at h1; cases h1
    · rw [hy] at h1; cases h1; rw [h2, hx]; rfl
  have hhw0 : (w.recOf i).hw = 0 := by
    rcases hrec with ⟨h1, _⟩ | ⟨y', h1, _, _, h3, _⟩
    · rw [JamW.recOf, h1]; rfl
    · rw [JamW.recOf, h1]
      show y'.hw = 0
      rw [h3, hx]; rfl
  -- the others
  let Inv : Nat → JamW → Prop := fun k w' => ∀ j ∈ L, j ≠ i → (∃ new, JamFine c k (A j).start (Y j).1 ((Y j).2 ++ new) j w') ∧ w'.hwFile j = w.hwFile j
  have hElse : JamElse Inv i := by
    refine ⟨fun k w1 w2 h1 h2 h3 j hj hji => ?_, fun k w1 h1 j hj hji => ?_⟩
    · obtain ⟨⟨new, q1⟩, q2⟩ := h1 j hj hji
      exact ⟨⟨new, q1.other (h2 j hji).1 (h2 j hji).2⟩, (h3 j hji).trans q2⟩
    · obtain ⟨⟨new, q1⟩, q2⟩ := h1 j hj hji
      exact ⟨⟨new, q1.mono (Nat.le_succ k)⟩, q2⟩
  have hKeeps : JamKeeps Inv Fit i (A i).start c handle := by
    intro m w1 x mss k hm hInv hat
    have hex : ∀ j ∈ L, ∃ new, j ≠ i → JamFine c (k + 1) (A j).start (Y j).1 ((Y j).2 ++ new) j w1 := by
      intro j hj
      by_cases hji : j = i
      · exact ⟨[], fun h => absurd hji h⟩
      · obtain ⟨⟨new, q⟩, _⟩ := hInv j hj hji
        exact ⟨new, fun _ => q⟩
    obtain ⟨N, hN⟩ := skolem_mem hex
    obtain ⟨ok, w2, k1, k2⟩ := hk m w1 k (fun j => (A j).start) (fun j => if j = i then x else (Y j).1) (fun j => if j = i then mss else (Y j).2 ++ N j) hm (fun j hj => by
      by_cases hji : j = i
      · subst hji
        simp only [if_pos]
        exact hat.fine
      · simp only [if_neg hji]
        exact hN j hj hji)
    obtain ⟨⟨new, q1⟩, q2, q3⟩ := k2 i hi
    simp only [if_pos] at q1
    obtain ⟨b1, y1, r1, r2, r3, r4, _⟩ := id hat
    refine ⟨ok, w2, new, k1, fun j hj hji => ?_, q1.at (q2 (by rw [r4]; exact fun h => by cases h)), q3⟩
    obtain ⟨⟨new', p1⟩, _, p3⟩ := k2 j hj
    simp only [if_neg hji, List.append_assoc] at p1
    exact ⟨⟨_, p1⟩, p3.trans (hInv j hj hji).2⟩
  have hInv0 : Inv (jamKnown w i (Y i).2 + (sizes A R + e)) w := by
    rw [hknown, ← hsz]
    intro j hj _
    exact ⟨⟨[], by rw [List.append_nil]; exact (hY j hj).1⟩, rfl⟩
  obtain ⟨y, p, b', ms', e1, e2, e3, e4, e5, e6, e7, e8, e9, ⟨z, e10, e11, e12⟩, -, -⟩ := jam_scan o r hl hKeeps hElse (A i).area (aka (A i).area) (w := w) (b := b) (ms := (Y i).2) (hw := (A i).hw)
    (e := sizes A R + e) hInv0 hb hh hAi.first (by rw [hknown]; exact hAi.small) (by rw [hknown]; exact hlen) hrec' (by rw [hknown, ← hsz]; exact hsp)
    (by rw [hhw0, show w.hwFile i = w0.hwFile i from hhw]; exact hAi.mark) hAi.markSmall (fun k m hkn hm hw => by
      rw [hknown] at hkn
      have e : (Y i).2[k]? = (A i).ms[k]? := by rw [hmsi]; exact List.getElem?_append_left hkn
      exact hAi.loads k m (by rw [← e]; exact hm) (by rw [← waits_congr e]; exact hw))
  rw [hknown] at e2 e3 e12
  have hscan : JamScanned (o.killSent && (A i).area.type = .netmail) (loadsAs o r (A i).area (aka (A i).area)) (A i).hw (A i).start p (A i).ms y.sent ms' := by
    rw [hmsi] at e6
    exact e6.cut e2
  have htr' : Traced L (tr ++ y.sent.map (fun q => (i, q))) := by
    refine traced_step hD hnd htr hsent (fun j hj => ?_) _
    rcases (hY j (by rw [hD]; simp [hj])).2 with ⟨_, _, _, q, _⟩ | ⟨q, _⟩
    · exact q
    · exact absurd (by simp [hj]) q
  have hsi : sentOf (tr ++ y.sent.map (fun q => (i, q))) i = y.sent := by
    rw [sentOf_same, show sentOf tr i = [] from hsent]; rfl
  refine ⟨y.ok, (y.w, tr ++ y.sent.map fun q => (i, q)), ?_, fun hok => ?_, fun _ => ⟨htr', fun j hj => ?_⟩⟩
  · show (jamExport o r handle i (A i).area (aka (A i).area) w >>= _ : Except JErr _) = _
    rw [e1]; rfl
  · refine ⟨hnd, ⟨D ++ [i], by rw [hD]; simp⟩, htr', fun j hj => ?_⟩
    by_cases hji : j = i
    · subst hji
      refine ⟨(z, ms'), ⟨b', e4, e5, e7, .inr ⟨z, e10, rfl, rfl, rfl, rfl⟩⟩, .inr ⟨hiR, ?_⟩⟩
      rw [e3 hok] at hscan
      show JamScanned _ _ _ _ _ _ (sentOf (tr ++ y.sent.map fun q => (j, q)) j) _
      rw [hsi]
      exact hscan
    · obtain ⟨⟨new, q1⟩, q2⟩ := e8 j hj hji
      refine ⟨((Y j).1, (Y j).2 ++ new), q1, ?_⟩
      show _ ∨ (_ ∧ JamScanned _ _ _ _ _ _ (sentOf (tr ++ y.sent.map fun q => (i, q)) j) _)
      rcases (hY j hj).2 with ⟨h1, h2, ⟨n1, h3⟩, h4, h5⟩ | ⟨h1, h2⟩
      · refine .inl ⟨by simpa [hji] using h1, h2, ⟨n1 ++ new, ?_⟩, ?_, q2.trans h5⟩
        · show (Y j).2 ++ new = _
          rw [h3, List.append_assoc]
        · show sentOf (tr ++ y.sent.map fun q => (i, q)) j = []
          rw [sentOf_other _ _ hji]; exact h4
      · refine .inr ⟨fun h => h1 (by simp [h]), ?_⟩
        rw [sentOf_other _ _ hji]
        exact h2.more new
  · by_cases hji : j = i
    · subst hji
      refine ⟨p, e2, b', ms', e4, e5, ?_⟩
      show JamScanned _ _ _ _ _ _ (sentOf (tr ++ y.sent.map fun q => (j, q)) j) _
      rw [hsi]
      exact hscan
    · obtain ⟨⟨new, ⟨b1, q1, q2, _⟩⟩, _⟩ := e8 j hj hji
      rcases (hY j hj).2 with ⟨h1, h2, ⟨n1, h3⟩, h4, h5⟩ | ⟨h1, h2⟩
      · refine ⟨0, Nat.zero_le _, b1, (Y j).2 ++ new, q1, q2, ?_⟩
        show JamScanned _ _ _ _ _ _ (sentOf (tr ++ y.sent.map fun q => (i, q)) j) _
        rw [sentOf_other _ _ hji, show sentOf tr j = [] from h4, h3, List.append_assoc]
        exact .nothing _ _ _ _ _ _
      · refine ⟨_, Nat.le_refl _, b1, (Y j).2 ++ new, q1, q2, ?_⟩
        show JamScanned _ _ _ _ _ _ (sentOf (tr ++ y.sent.map fun q => (i, q)) j) _
        rw [sentOf_other _ _ hji]
        exact h2.more new

/-- Before a run, area `i` is in the state `A`. -/
def AreaFresh (A : ScanAreaIn) (c k i : Nat) (w : JamW) : Prop :=
  w.recs i = none ∧ ∃ b, w.base i = some b ∧ JamHolds b A.start A.ms ∧ JamSpace c k b A.ms

theorem going_start {k : Nat} (hL : L.Nodup) (hk : sizes A L ≤ k) (hw : ∀ i ∈ L, AreaFresh (A i) c k i w0) : Going o r aka A c 0 w0 L L (w0, []) := by
  refine ⟨hL, ⟨[], rfl⟩, ?_, fun j hj => ?_⟩
  · show [] = L.flatMap fun _ => []
    simp
  obtain ⟨h1, b, h2, h3, h4⟩ := hw j hj
  exact ⟨(freshRec (A j), (A j).ms), ⟨b, h2, h3, h4.mono (by omega), .inl ⟨h1, rfl, rfl, rfl, rfl⟩⟩, .inl ⟨hj, rfl, ⟨[], by simp⟩, rfl, rfl⟩⟩

/-- How a run over the areas `L` ends: if it succeeds, all waiting messages of all areas have been exported; otherwise in each of them
the messages before some position. No other area is exported. -/
def AllScanned (o : JamOpt) (r : JamRun) (aka : Area → Node4D) (A : Nat → ScanAreaIn) (L : List Nat) (x : Bool × JamW × List (Nat × UInt32 × MemMsg)) : Prop :=
  Traced L x.2.2 ∧ (x.1 = true → ∀ i ∈ L, AreaScanned o r aka (A i) i (A i).ms.length x.2) ∧
    ∀ i ∈ L, ∃ p, p ≤ (A i).ms.length ∧ AreaScanned o r aka (A i) i p x.2

theorem scanEnds_all {x : Bool × JamW × List (Nat × UInt32 × MemMsg)} (h : ScanEnds (Going o r aka A c e w0 L) (Part o r aka A L) x) : AllScanned o r aka A L x := by
  rcases h with ⟨h1, h2⟩ | ⟨h1, h2⟩
  · refine ⟨h2.2.2.1, fun _ i hi => ?_, h2.part.2⟩
    obtain ⟨y, ⟨b, q1, q2, _⟩, ⟨q3, _⟩ | ⟨_, q3⟩⟩ := h2.2.2.2 i hi
    · cases q3
    · exact ⟨b, y.2, q1, q2, q3⟩
  · have : Part o r aka A L x.2 := by
      rcases h2 with h2 | ⟨R, h2⟩
      · exact h2
      · exact h2.part
    exact ⟨this.1, fun h => (by rw [h1] at h; cases h), this.2⟩

theorem jam_rule (hl : ∀ t, r.lock t = true) (hc : ∀ t, r.ctrlc t = true → r.ctrlc (t + 1) = true) (hk : JamKeepsAll Fit L c handle) (hA : ∀ i ∈ L, Scannable o r aka Fit cfg (A i) i w0) :
    ScanRule cfg (jamScanOps o r handle aka) (Going o r aka A c e w0 L) (Part o r aka A L) where
  look := fun h => h
  exp := fun ha h => going_exp hl hk hA ha h
  sticky := fun s h => hc s.1.tick h

end

/-- **C79.** `SCAN`: all echomail areas and, unless NOEXPORTNETMAIL is set, all netmail areas, in the order of the configuration. Whatever is in the areas, whatever
handling a message adds to them, and even if handling a message fails or Ctrl-C is pressed, nothing goes wrong; in each of these areas the waiting messages
up to some position, if the run succeeds all of them, have been handed over in the order of their numbers, each once, and are marked as sent; nothing else in
the areas is changed. No message of any other area is exported. -/
theorem scan_all (o : JamOpt) {r : JamRun} {handle : JamHandler} (aka : Area → Node4D) {Fit : MemMsg → Prop} {cfg : Config} {L : List Nat} {A : Nat → ScanAreaIn} {c : Nat} {w : JamW}
    (hl : ∀ t, r.lock t = true) (hc : ∀ t, r.ctrlc t = true → r.ctrlc (t + 1) = true)
    (hL : L.Pairwise (· < ·)) (hm : ∀ i, i ∈ L ↔ ToExport cfg i) (hk : JamKeepsAll Fit L c handle) (hA : ∀ i ∈ L, Scannable o r aka Fit cfg (A i) i w)
    (hw : ∀ i ∈ L, AreaFresh (A i) c (sizes A L) i w) : ∃ x, scanAll cfg (jamScanOps o r handle aka) (w, []) = .ok x ∧ AllScanned o r aka A L x := by
  have hnd : L.Nodup := hL.imp fun h => Nat.ne_of_lt h
  obtain ⟨x, h1, h2⟩ := scanAll_rule (jam_rule (e := 0) hl hc hk hA) hL hm (going_start hnd (Nat.le_refl _) hw)
  exact ⟨x, h1, scanEnds_all h2⟩

/-- The areas that are named in a list, in the order of the list, as far as they can be exported; `p l a` says that line `l` names area `a`, and the first
area counts. -/
structure ListAreas (cfg : Config) (p : Str → Area → Prop) (of : Str → Option Nat) (ls : List Str) (L : List Nat) : Prop where
  names : ∀ l i, of l = some i ↔ FirstArea cfg (p l) i
  order : L.Sublist (ls.filterMap of).eraseDups
  mem : ∀ i, i ∈ L ↔ (∃ l ∈ ls, FirstArea cfg (p l) i) ∧ ToExport cfg i

theorem firstArea_iff {cfg : Config} {q : Area → Bool} {i : Nat} : cfg.areas.findIdx? q = some i ↔ FirstArea cfg (fun a => q a = true) i := by
  rw [List.findIdx?_eq_some_iff_getElem]
  constructor
  · rintro ⟨h, h1, h2⟩
    refine ⟨⟨_, List.getElem?_eq_getElem h, h1⟩, fun j hj a ha => ?_⟩
    obtain ⟨hl, rfl⟩ := List.getElem?_eq_some_iff.1 ha
    exact fun e => h2 j hj e
  · rintro ⟨⟨a, ha, h1⟩, h2⟩
    obtain ⟨hl, rfl⟩ := List.getElem?_eq_some_iff.1 ha
    exact ⟨hl, h1, fun j hj => h2 j hj _ (List.getElem?_eq_getElem _)⟩

theorem eraseDups_nodup : ∀ (n : Nat) (T : List Nat), T.length ≤ n → T.eraseDups.Nodup
  | _, [], _ => by simp
  | 0, _ :: _, h => by simp at h
  | n + 1, i :: T, h => by
    rw [eraseDups_filter_cons, List.nodup_cons]
    refine ⟨not_mem_filter_eraseDups i T, eraseDups_nodup n _ ?_⟩
    have := List.length_filter_le (· != i) T
    simp only [List.length_cons] at h
    omega

theorem list_scanned {σ : Type} {cfg : Config} {ops : ScanOps σ} {G : List Nat → σ → Prop} {F : σ → Prop} (hr : ScanRule cfg ops G F) {q : Str → Area → Bool} {of : Str → Option Nat} {ls : List Str} {L : List Nat}
    {name : Str → Except UB (Option Nat)} (hn : ∀ l ∈ ls, name (l ++ [10]) = .ok (cfg.areas.findIdx? (q l))) (hls : ∀ l ∈ ls, ListLine l) (hL : ListAreas cfg (fun l a => q l a = true) of ls L) {s : σ} (hG : G L s) :
    ∃ x, (do return scanEnd ops (← listLoop cfg ops name (fileLines 100 (scanFile ls).length (scanFile ls)) [] s) : Except JErr (Bool × σ)) = .ok x ∧ ScanEnds G F x := by
  have hof : ∀ l, of l = cfg.areas.findIdx? (q l) := fun l => by
    apply Option.ext
    intro i
    rw [hL.names l i, firstArea_iff]
  have hmap : (ls.map (· ++ [10])).filterMap (fun l => of l.dropLast) = ls.filterMap of := by
    rw [List.filterMap_map]
    congr 1
    funext l
    simp [Function.comp]
  rw [scanLines ls hls]
  obtain ⟨x, h1, h2⟩ := listLoop_rule hr (name := name) (of := fun l => of l.dropLast) (ls.map (· ++ [10])) [] L s (fun l hl => by
      obtain ⟨l, hl', rfl⟩ := List.mem_map.1 hl
      rw [hn l hl', List.dropLast_concat, hof])
    (fun l hl i hi => by
      obtain ⟨l, hl, rfl⟩ := List.mem_map.1 hl
      rw [List.dropLast_concat] at hi
      obtain ⟨⟨a, ha, _⟩, _⟩ := (hL.names l i).1 hi
      exact (List.getElem?_eq_some_iff.1 ha).1)
    (by rw [hmap, List.filter_eq_self.2 (by simp)]; exact hL.order)
    (fun i hi _ => by
      rw [hmap] at hi
      obtain ⟨l, hl, h⟩ := List.mem_filterMap.1 hi
      rw [hL.mem i]
      exact ⟨fun h => h.2, fun h' => ⟨⟨l, hl, (hL.names l i).1 h⟩, h'⟩⟩) hG
  exact ⟨_, by rw [h1]; rfl, h2.fin hr⟩

/-- `SCANLIST`: the areas that are named in a file, each once. -/
theorem scan_list (o : JamOpt) {r : JamRun} {handle : JamHandler} (aka : Area → Node4D) {Fit : MemMsg → Prop} {cfg : Config} {L : List Nat} {A : Nat → ScanAreaIn} {c : Nat} {w : JamW} {ls : List Str} {of : Str → Option Nat}
    (hl : ∀ t, r.lock t = true) (hc : ∀ t, r.ctrlc t = true → r.ctrlc (t + 1) = true) (hls : ∀ l ∈ ls, ListLine l)
    (hL : ListAreas cfg (fun l a => eqi a.tag l = true) of ls L) (hk : JamKeepsAll Fit L c handle) (hA : ∀ i ∈ L, Scannable o r aka Fit cfg (A i) i w)
    (hw : ∀ i ∈ L, AreaFresh (A i) c (sizes A L) i w) : ∃ x, scanList cfg (jamScanOps o r handle aka) (scanFile ls) (w, []) = .ok x ∧ AllScanned o r aka A L x := by
  obtain ⟨x, h1, h2⟩ := list_scanned (jam_rule (e := 0) hl hc hk hA) (q := fun l a => eqi a.tag l) (name := scanTag cfg) (fun l h => scanTag_line cfg (hls l h)) hls hL
    (going_start (hL.order.nodup (eraseDups_nodup _ _ (Nat.le_refl _))) (Nat.le_refl _) hw)
  exact ⟨x, h1, scanEnds_all h2⟩

/-- `SCANDOTJAM`: as `SCANLIST`, with the paths of areas, up to the first blank, instead of their tags. -/
theorem scan_dotjam (o : JamOpt) {r : JamRun} {handle : JamHandler} (aka : Area → Node4D) {Fit : MemMsg → Prop} {cfg : Config} {L : List Nat} {A : Nat → ScanAreaIn} {c : Nat} {w : JamW} {ls : List Str} {of : Str → Option Nat}
    (hl : ∀ t, r.lock t = true) (hc : ∀ t, r.ctrlc t = true → r.ctrlc (t + 1) = true) (hls : ∀ l ∈ ls, ListLine l)
    (hL : ListAreas cfg (fun l a => eqi a.path (l.takeWhile (· != 32)) = true) of ls L) (hk : JamKeepsAll Fit L c handle) (hA : ∀ i ∈ L, Scannable o r aka Fit cfg (A i) i w)
    (hw : ∀ i ∈ L, AreaFresh (A i) c (sizes A L) i w) : ∃ x, scanDotJam cfg (jamScanOps o r handle aka) (scanFile ls) (w, []) = .ok x ∧ AllScanned o r aka A L x := by
  obtain ⟨x, h1, h2⟩ := list_scanned (jam_rule (e := 0) hl hc hk hA) (q := fun l a => eqi a.path (l.takeWhile (· != 32))) (name := scanPath cfg) (fun l h => scanPath_line cfg (hls l h)) hls hL
    (going_start (hL.order.nodup (eraseDups_nodup _ _ (Nat.le_refl _))) (Nat.le_refl _) hw)
  exact ⟨x, h1, scanEnds_all h2⟩

/-- `SCANAREA`: one area. -/
theorem scan_area (o : JamOpt) {r : JamRun} {handle : JamHandler} (aka : Area → Node4D) {Fit : MemMsg → Prop} {cfg : Config} {A : Nat → ScanAreaIn} {c i : Nat} {w : JamW} {tag : Str}
    (hl : ∀ t, r.lock t = true) (hc : ∀ t, r.ctrlc t = true → r.ctrlc (t + 1) = true) (hi : FirstArea cfg (fun a => eqi a.tag tag = true) i) (hb : (A i).area.base ≠ none)
    (ht : (A i).area.type = .echomail ∨ (A i).area.type = .netmail) (hk : JamKeepsAll Fit [i] c handle) (hA : Scannable o r aka Fit cfg (A i) i w)
    (hw : AreaFresh (A i) c (A i).ms.length i w) : ∃ x, scanArea cfg (jamScanOps o r handle aka) tag (w, []) = .ok (some x) ∧ AllScanned o r aka A [i] x := by
  have hA' : ∀ j ∈ [i], Scannable o r aka Fit cfg (A j) j w := fun j hj => by rw [List.mem_singleton.1 hj]; exact hA
  have hG : Going o r aka A c 0 w [i] [i] (w, []) := going_start (by simp) (Nat.le_refl _) fun j hj => by
    rw [List.mem_singleton.1 hj]
    show AreaFresh (A i) c (sizes A [i]) i w
    simpa [sizes] using hw
  obtain ⟨ok, s', h1, h2, h3⟩ := (jam_rule (e := 0) hl hc hk hA').exp hA.area hG
  refine ⟨(ok, s'), ?_, scanEnds_all (c := c) (e := 0) (w0 := w) ?_⟩
  · unfold scanArea
    rw [firstArea_iff.2 hi]
    dsimp only
    rw [hA.area]
    dsimp only
    rw [if_pos (by
      have : (A i).area.base.isSome = true := by
        cases h : (A i).area.base with
        | none => exact absurd h hb
        | some _ => rfl
      rcases ht with ht | ht <;> simp [this, ht]), h1]
    rfl
  · cases ok with
    | true => exact .inl ⟨rfl, h2 rfl⟩
    | false => exact .inr ⟨rfl, .inl (h3 rfl)⟩

/-- An area that does not exist, that has no message base or that is of another kind is not scanned. -/
theorem scan_area_not {σ : Type} (cfg : Config) (ops : ScanOps σ) (tag : Str) (s : σ)
    (h : ∀ i a, FirstArea cfg (fun a => eqi a.tag tag = true) i → cfg.areas[i]? = some a → a.base = none ∨ (a.type ≠ .echomail ∧ a.type ≠ .netmail)) : scanArea cfg ops tag s = .ok none := by
  unfold scanArea
  match hf : cfg.areas.findIdx? fun a => eqi a.tag tag with
  | none => rw [hf]
  | some i =>
    have hi := firstArea_iff.1 hf
    obtain ⟨⟨a, ha, _⟩, _⟩ := id hi
    rw [hf]
    dsimp only
    rw [ha]
    dsimp only
    rw [if_neg]
    rcases h i a hi ha with h | ⟨h1, h2⟩
    · simp [h]
    · simp [h1, h2]

/-! ## Handling messages by putting them into an area -/

theorem import_fine (o : JamOpt) {r : JamRun} {i : Nat} {m : MemMsg} {w : JamW} {start : UInt32} {x : JamRec} {c k : Nat} {ms : List (Option JamMsg)} (hl : ∀ t, r.lock t = true) (h : JamFine c (k + 1) start x ms i w)
    (hm : ∀ tick, ∃ hd subs text, jamStored o r tick m = .ok (hd, subs, text) ∧ CanIndex r.e subs ∧ 76 + subBytes subs ≤ c ∧ text.length ≤ c) (hc : c < 2 ^ 31) :
    ∃ w' jm, jamImport o r i m w = .ok (true, w') ∧ JamFine c k start x (ms ++ [some jm]) i w' ∧ w'.recs i ≠ none ∧ Beside i w w' := by
  have hopen : ∃ w1, jamGetArea r w i = (true, w1) ∧ JamAt i start x c (k + 1) ms w1 ∧ Beside i w w1 := by
    by_cases hr : w.recs i = none
    case neg => exact ⟨w, jamGetArea_at (h.at hr), h.at hr, .refl i w⟩
    obtain ⟨b, h1, h2, h3, ⟨_, q2, q3, q4, q5⟩ | ⟨y, q, _⟩⟩ := h
    case inr => rw [hr] at q; cases q
    obtain ⟨w1, g1, g2, g3, g4, g5, g6, g7, g8⟩ := jamGetArea_there (r := r) h1 h2 (fun y hy => by rw [hr] at hy; cases hy)
    obtain ⟨z, g8⟩ := Option.isSome_iff_exists.1 g8
    obtain ⟨_, _, _, _, hsz⟩ := jam_count h2
    have hfew : ms.length < 2 ^ 32 := by obtain ⟨off, h⟩ := h2; exact h.few
    have e := (g6 hr).1
    rw [JamW.recOf, g8] at e
    have e : z = { baseNum := start, oldNum := jamSize b } := e
    subst e
    refine ⟨w1, g1, ⟨b, _, by rw [g2]; exact h1, h2, h3, g8, q2.symm, ?_, q4.symm, q5.symm⟩, ⟨fun j _ => by rw [g2], g7, g3⟩⟩
    rw [q3]
    apply UInt32.toNat_inj.1
    rw [ofNat_few hfew]
    exact hsz
  obtain ⟨w1, g1, hat, hbes⟩ := hopen
  obtain ⟨hd, subs, text, e1, e2, e3, e4⟩ := hm w1.tick
  obtain ⟨w', jm, f1, _, f3, _, f5⟩ := jam_import o hl hat e1 e2 e3 e4 hc
  have hg := jamGetArea_at (r := r) hat
  obtain ⟨b', y', t1, t2, t3, t4, t5⟩ := id f3
  refine ⟨w', jm, ?_, f3.fine, (by rw [t4]; exact fun h => by cases h), hbes.trans f5⟩
  rw [← f1]
  unfold jamImport
  rw [g1, hg]

/-- Putting the messages into one of the areas, that may have been scanned before or will be scanned later, is a way of handling them that the theorems allow. -/
theorem import_keeps_all (o : JamOpt) {r : JamRun} (t : Nat) (L : List Nat) (c : Nat) (ht : t ∈ L) (hl : ∀ t, r.lock t = true) (hc : c < 2 ^ 31) :
    JamKeepsAll (fun m => ∀ tick, ∃ hd subs text, jamStored o r tick m = .ok (hd, subs, text) ∧ CanIndex r.e subs ∧ 76 + subBytes subs ≤ c ∧ text.length ≤ c) L c (jamImport o r t) := by
  intro m w k start x ms hm h
  obtain ⟨w', jm, h1, h2, h3, h4⟩ := import_fine o hl (h t ht) hm hc
  refine ⟨true, w', h1, fun i hi => ?_⟩
  by_cases hit : i = t
  · subst hit
    exact ⟨⟨_, h2⟩, fun _ => h3, by rw [h4.hw]⟩
  · refine ⟨⟨[], ?_⟩, by rw [h4.recs i hit]; exact id, by rw [h4.hw]⟩
    rw [List.append_nil]
    exact ((h i hi).mono (Nat.le_succ k)).other (h4.base i hit) (h4.recs i hit)

namespace Ex

/-- Five areas; those at 3 and 5 are to be exported. -/
def scCfg : Config := { cfg [] with areas := [{ tag := b!"BAD", type := .bad, base := some 0 }, { tag := b!"PASS" }, { tag := b!"MINE", type := .local, base := some 0 }, jsArea, { tag := b!"OTHER" }, jsMore] }

def scW (b : JamBase) : JamW := { base := fun i => if i = 3 ∨ i = 5 then some b else none, hwFile := fun _ => none }

def scAka : Area → Node4D := fun _ => ⟨1, 2, 3, 0⟩

theorem scHandler_keeps (L : List Nat) (c : Nat) : JamKeepsAll (fun _ => True) L c jsHandler :=
  fun _ w k _ _ _ _ h => ⟨true, w, rfl, fun i hi => ⟨⟨[], by rw [List.append_nil]; exact (h i hi).mono (Nat.le_succ k)⟩, id, rfl⟩⟩

theorem scToExport (i : Nat) : i ∈ [3, 5] ↔ ToExport scCfg i := by
  constructor
  · intro h
    simp only [List.mem_cons, List.not_mem_nil, or_false] at h
    rcases h with rfl | rfl
    · exact ⟨_, rfl, by decide, .inl rfl⟩
    · exact ⟨_, rfl, by decide, .inl rfl⟩
  · rintro ⟨a, h1, h2, h3⟩
    match i, h1 with
    | 0, h1 => cases h1; rcases h3 with h3 | ⟨h3, _⟩ <;> cases h3
    | 1, h1 => cases h1; exact absurd rfl h2
    | 2, h1 => cases h1; rcases h3 with h3 | ⟨h3, _⟩ <;> cases h3
    | 3, _ => decide
    | 4, h1 => cases h1; exact absurd rfl h2
    | 5, _ => decide
    | i + 6, h1 => exact absurd (List.getElem?_eq_some_iff.1 h1).1 (by show ¬ i + 6 < 6; omega)

/-- The conditions of `scan_all` are met, and in both areas messages are waiting. -/
theorem scan_case : ∃ b A, jsBase = some b ∧ ([3, 5] : List Nat).Pairwise (· < ·) ∧ (∀ i, i ∈ [3, 5] ↔ ToExport scCfg i) ∧ JamKeepsAll (fun _ => True) [3, 5] 1000 jsHandler ∧
    (∀ i ∈ [3, 5], Scannable {} jlRun scAka (fun _ => True) scCfg (A i) i (scW b)) ∧ (∀ i ∈ [3, 5], AreaFresh (A i) 1000 (sizes A [3, 5]) i (scW b)) ∧
    ∀ i ∈ [3, 5], (List.range 6).filter (JamWaits (A i).hw (A i).start (A i).ms) = [0, 5] := by
  obtain ⟨b, ms, h1, h2, h3, h4, h5, h6, h7, h8, h9, h10, _⟩ := jam_scan_case
  have hsz : (jsBase.map fun b => (b.hdr.length, b.txt.length)) = some (1426, 23) := by decide +kernel
  rw [h1] at hsz
  simp only [Option.map_some, Option.some.injEq, Prod.mk.injEq] at hsz
  refine ⟨b, fun i => ⟨1, ms, 0, if i = 3 then jsArea else jsMore⟩, h1, by decide, scToExport, scHandler_keeps _ _, fun i hi => ?_, fun i hi => ?_, fun i _ => h9⟩
  · have hfl : ∀ k m, ms[k]? = some (some m) → JamWaits 0 1 ms k = true → ∃ mm, loadsAs {} jlRun (if i = 3 then jsArea else jsMore) ⟨1, 2, 3, 0⟩ (1 + UInt32.ofNat k) m mm ∧ True :=
      h10 _ (by split; exact .inl rfl; exact .inr rfl)
    simp only [List.mem_cons, List.not_mem_nil, or_false] at hi
    rcases hi with rfl | rfl
    · exact ⟨rfl, by show (1 : UInt32) ≠ 0; decide, by show 1 + ms.length < _; rw [h4]; decide, ⟨fun _ => rfl, fun h => (by cases h)⟩, by show (0 : UInt32).toNat + 1 < _; decide, hfl⟩
    · exact ⟨rfl, by show (1 : UInt32) ≠ 0; decide, by show 1 + ms.length < _; rw [h4]; decide, ⟨fun _ => rfl, fun h => (by cases h)⟩, by show (0 : UInt32).toNat + 1 < _; decide, hfl⟩
  · have hb : (scW b).base i = some b := by
      simp only [List.mem_cons, List.not_mem_nil, or_false] at hi
      show (if i = 3 ∨ i = 5 then some b else none) = _
      rw [if_pos hi]
    refine ⟨rfl, b, hb, h2, ?_⟩
    show JamSpace 1000 (ms.length + (ms.length + 0)) b ms
    rw [h4]
    exact ⟨by rw [hsz.1]; decide, by rw [hsz.2]; decide, by rw [h4]; decide⟩

def scView (x : Except JErr (Bool × JamW × List (Nat × UInt32 × MemMsg))) : Option (Bool × List (Nat × UInt32 × Str)) :=
  x.toOption.map fun x => (x.1, x.2.2.map fun z => (z.1, z.2.1, z.2.2.area))

set_option synthInstance.maxSize 1000 in
set_option synthInstance.maxHeartbeats 200000 in
/-- All areas; a list, in which an area is named twice, one does not exist and one is not exported. -/
theorem scan_example : (jsBase.map fun b => (scView (scanAll scCfg (jamScanOps {} jlRun jsHandler scAka) (scW b, [])),
      scView (scanList scCfg (jamScanOps {} jlRun jsHandler scAka) b!"more\nTEST\nMINE\nNONE\nMore  \n" (scW b, [])))) =
    some (some (true, [(3, 1, b!"TEST"), (3, 6, b!"TEST"), (5, 1, b!"MORE"), (5, 6, b!"MORE")]), some (true, [(5, 1, b!"MORE"), (5, 6, b!"MORE"), (3, 1, b!"TEST"), (3, 6, b!"TEST")])) := by decide +kernel

/-- An empty line in a list makes the program read before its buffer. -/
theorem scan_list_blank : scanTag scCfg b!"\n" = .error .oobRead := by decide +kernel

/-- A line with more than 98 characters is read as two lines, and the rest may name an area too. -/
theorem scan_list_split : fileLines 100 200 (List.replicate 99 65 ++ b!"TEST\n") = [List.replicate 99 65, b!"TEST\n"] := by decide +kernel

/-- NOEXPORTNETMAIL does not apply if a single area is scanned. -/
def scNet : Config := { cfg [] with flags := 134217728, areas := [{ jsArea with type := .netmail }] }

set_option synthInstance.maxSize 1000 in
set_option synthInstance.maxHeartbeats 200000 in
theorem scan_area_netmail : ¬ ToExport scNet 0 ∧ (jsBase.map fun b => (scView (scanAll scNet (jamScanOps {} jlRun jsHandler scAka) ({ base := fun _ => some b, hwFile := fun _ => none }, [])),
      (scanArea scNet (jamScanOps {} jlRun jsHandler scAka) b!"TEST" ({ base := fun _ => some b, hwFile := fun _ => none }, [])).toOption.map fun x => x.map fun x => (x.1, x.2.2.length))) =
    some (some (true, []), some (some (true, 2))) := by
  refine ⟨?_, by decide +kernel⟩
  rintro ⟨a, h1, _, h3⟩
  cases h1
  rcases h3 with h3 | ⟨_, h3⟩
  · cases h3
  · exact absurd h3 (by decide)

end Ex

end CM
