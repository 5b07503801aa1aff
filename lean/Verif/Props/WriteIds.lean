import Verif.Model.WriteIds
import Verif.Spec.WriteIds
import Verif.Props.CrashWrite
import Verif.Props.Dupe

/-! # Messages written with CrashWrite have different MSGIDs (C123) -/

set_option linter.unusedSimpArgs false

namespace CM

/-- What the search for a name finds. -/
theorem cwFile_spec {dir : Str} {there : Str → Bool} {time : Nat → UInt32} : ∀ {fuel n : Nat} {x : UInt32 × Str}, cwFile dir there time fuel n = some x →
    there x.2 = false ∧ x.2 = makeFullPath dir (hexW 8 x.1.toNat ++ b!".pkt") 200 ∧ ∃ r, n ≤ r ∧ r < n + fuel ∧ x.1 = (time r <<< 8) + UInt32.ofNat r
  | 0, n, x, h => by cases h
  | fuel + 1, n, x, h => by
    unfold cwFile at h
    dsimp only at h
    by_cases he : there (makeFullPath dir (hexW 8 ((time n <<< 8) + UInt32.ofNat n).toNat ++ b!".pkt") 200) = true
    · rw [if_pos he] at h
      obtain ⟨h1, h2, r, h3, h4, h5⟩ := cwFile_spec h
      exact ⟨h1, h2, r, by omega, by omega, h5⟩
    · rw [if_neg he] at h
      injection h with h
      subst h
      exact ⟨by simpa using he, rfl, n, Nat.le_refl _, by omega, rfl⟩

theorem event_none {dir there time fuel} (h : cwFile dir there time fuel 0 = none) : writeEvent there (.write dir time fuel) = (none, there) := by
  simp only [writeEvent, h]

theorem event_some {dir there time fuel x} (h : cwFile dir there time fuel 0 = some x) : writeEvent there (.write dir time fuel) = (some x, fun f => f == x.2 || there f) := by
  simp only [writeEvent, h]

/-- A packet stays until it is taken away. -/
theorem packet_stays : ∀ (es : List WriteEvent) (there : Str → Bool) (f : Str) (j : Nat) (n : UInt32), there f = true → (writeEvents es there)[j]? = some (some (n, f)) →
    ∃ k, k < j ∧ es[k]? = some (.take f)
  | [], there, f, j, n, _, h => by simp [writeEvents] at h
  | e :: es, there, f, j, n, ht, h => by
    simp only [writeEvents] at h
    cases j with
    | zero =>
      rw [List.getElem?_cons_zero] at h
      injection h with h
      cases e with
      | take g => cases h
      | write dir time fuel =>
        cases hc : cwFile dir there time fuel 0 with
        | none => rw [event_none hc] at h; cases h
        | some x =>
          rw [event_some hc] at h
          injection h with h
          have := (cwFile_spec hc).1
          rw [h] at this
          dsimp only at this
          rw [ht] at this
          cases this
    | succ j =>
      rw [List.getElem?_cons_succ] at h
      by_cases htk : e = .take f
      · exact ⟨0, by omega, by rw [htk]; rfl⟩
      · have hs : (writeEvent there e).2 f = true := by
          cases e with
          | take g =>
            have : f ≠ g := fun e => htk (by rw [e])
            simp [writeEvent, ht, this]
          | write dir time fuel =>
            cases hc : cwFile dir there time fuel 0 with
            | none => rw [event_none hc]; exact ht
            | some x => rw [event_some hc]; simp [ht]
        obtain ⟨k, h1, h2⟩ := packet_stays es _ f j n hs h
        exact ⟨k + 1, by omega, h2⟩

theorem same_packet : ∀ (es : List WriteEvent) (there : Str → Bool) (i j : Nat) (f : Str) (n m : UInt32), i < j →
    (writeEvents es there)[i]? = some (some (n, f)) → (writeEvents es there)[j]? = some (some (m, f)) → TakenBetween es i j f
  | [], there, i, j, f, n, m, _, h, _ => by simp [writeEvents] at h
  | e :: es, there, i, 0, f, n, m, hij, _, _ => by omega
  | e :: es, there, i + 1, j + 1, f, n, m, hij, h1, h2 => by
    simp only [writeEvents, List.getElem?_cons_succ] at h1 h2
    obtain ⟨k, a1, a2, a3⟩ := same_packet es _ i j f n m (by omega) h1 h2
    exact ⟨k + 1, by omega, by omega, a3⟩
  | e :: es, there, 0, j + 1, f, n, m, hij, h1, h2 => by
    simp only [writeEvents, List.getElem?_cons_succ, List.getElem?_cons_zero] at h1 h2
    injection h1 with h1
    have ht : (writeEvent there e).2 f = true := by
      cases e with
      | take g => cases h1
      | write dir time fuel =>
        cases hc : cwFile dir there time fuel 0 with
        | none => rw [event_none hc] at h1; cases h1
        | some x =>
          rw [event_some hc] at h1
          rw [event_some hc]
          injection h1 with h1
          simp [h1]
    obtain ⟨k, a1, a2⟩ := packet_stays es _ f j m ht h2
    exact ⟨k + 1, by omega, by omega, a2⟩

/-- A packet that is made, by which run. -/
theorem made_by : ∀ (es : List WriteEvent) (there : Str → Bool) (i : Nat) (n : UInt32) (f : Str), (writeEvents es there)[i]? = some (some (n, f)) →
    ∃ dir time fuel r, es[i]? = some (.write dir time fuel) ∧ f = makeFullPath dir (hexW 8 n.toNat ++ b!".pkt") 200 ∧ r < fuel ∧ n = (time r <<< 8) + UInt32.ofNat r
  | [], there, i, n, f, h => by simp [writeEvents] at h
  | e :: es, there, i + 1, n, f, h => by
    simp only [writeEvents, List.getElem?_cons_succ] at h
    obtain ⟨dir, time, fuel, r, h1, h2, h3, h4⟩ := made_by es _ i n f h
    exact ⟨dir, time, fuel, r, h1, h2, h3, h4⟩
  | e :: es, there, 0, n, f, h => by
    simp only [writeEvents, List.getElem?_cons_zero] at h
    injection h with h
    cases e with
    | take g => cases h
    | write dir time fuel =>
      cases hc : cwFile dir there time fuel 0 with
      | none => rw [event_none hc] at h; cases h
      | some x =>
        rw [event_some hc] at h
        injection h with h
        obtain ⟨_, h2, r, _, h4, h5⟩ := cwFile_spec hc
        subst h
        exact ⟨dir, time, fuel, r, rfl, h2, by omega, h5⟩

/-- MSGIDs are the same only if the addresses are printed the same way and the numbers are the same. -/
theorem writtenId_num {o o' : Node4D} {n m : UInt32} (h : writtenId o n = writtenId o' m) : writeNode4D o = writeNode4D o' ∧ n = m := by
  unfold writtenId at h
  have hl : (hexW 8 n.toNat).length = (hexW 8 m.toNat).length := by rw [hexW_length, hexW_length]
  obtain ⟨h1, h2⟩ := List.append_inj' h hl
  refine ⟨(List.append_inj' h1 rfl).1, ?_⟩
  have := hexW_inj (w := 8) (UInt32.toNat_lt n) (UInt32.toNat_lt m) h2
  exact UInt32.toNat_inj.1 this

theorem number_second (s : UInt32) (r : Nat) (h : r < 256) : ((s <<< 8) + UInt32.ofNat r).toNat / 256 = s.toNat % 2 ^ 24 := by
  have h1 : (s <<< 8).toNat = s.toNat * 256 % 2 ^ 32 := by
    rw [UInt32.toNat_shiftLeft]
    rw [show (8 : UInt32).toNat % 32 = 8 from rfl, Nat.shiftLeft_eq]
  have h2 : (UInt32.ofNat r).toNat = r := by
    rw [UInt32.toNat_ofNat']
    exact Nat.mod_eq_of_lt (by omega)
  rw [UInt32.toNat_add, h1, h2]
  omega

/-- **C123 (partial).** Whatever happened in between: two messages that were written by runs of CrashWrite into one directory have different MSGIDs, unless the first packet was taken
away before the second was written. And if no more than 256 packets are tried in a run, which reads one time only, messages of different seconds have different MSGIDs, whatever the
directories (up to a period of 2^24 seconds, 194 days). -/
theorem ids_differ_partial (es : List WriteEvent) (there : Str → Bool) (i j : Nat) (hij : i < j) (n m : UInt32) (f g : Str) (o o' : Node4D)
    (hi : (writeEvents es there)[i]? = some (some (n, f))) (hj : (writeEvents es there)[j]? = some (some (m, g))) (hid : writtenId o n = writtenId o' m) :
    writeNode4D o = writeNode4D o' ∧
    (∀ dir t1 t2 u1 u2, es[i]? = some (.write dir t1 u1) → es[j]? = some (.write dir t2 u2) → TakenBetween es i j f) ∧
    ∀ e1 e2 s1 s2, es[i]? = some e1 → es[j]? = some e2 → InOneSecond e1 s1 → InOneSecond e2 s2 → s1.toNat % 2 ^ 24 = s2.toNat % 2 ^ 24 := by
  obtain ⟨ho, hnm⟩ := writtenId_num hid
  subst hnm
  obtain ⟨d1, t1, u1, r1, a1, a2, a3, a4⟩ := made_by es there i n f hi
  obtain ⟨d2, t2, u2, r2, b1, b2, b3, b4⟩ := made_by es there j n g hj
  refine ⟨ho, fun dir t1' t2' u1' u2' e1 e2 => ?_, fun e1 e2 s1 s2 c1 c2 k1 k2 => ?_⟩
  · rw [e1] at a1
    rw [e2] at b1
    cases a1
    cases b1
    have : g = f := b2.trans a2.symm
    subst this
    exact same_packet es there i j g n n hij hi hj
  · obtain ⟨dir1, fuel1, l1, w1⟩ := k1
    obtain ⟨dir2, fuel2, l2, w2⟩ := k2
    rw [a1] at c1
    rw [b1] at c2
    injection c1 with c1
    injection c2 with c2
    rw [w1] at c1
    rw [w2] at c2
    cases c1
    cases c2
    rw [← number_second s1 r1 (by omega), ← number_second s2 r2 (by omega), ← a4, ← b4]

/-- **C123, violated.** Two messages written in one second into an empty directory, the first of which is tossed before the second is written, have the same MSGID; so have two messages
written in one second into different directories. Whatever the database of duplicates contains, the second is then a duplicate of the first. -/
theorem second_dropped (dir dir' : Str) (s : UInt32) (orig : Node4D) (area : Str) (hid : IdOK (writtenId orig (s <<< 8))) (har : AreaOK area) (u : Nat) (hu : 0 < u) :
    (writeEvents [.write dir (fun _ => s) u, .take (makeFullPath dir (hexW 8 (s <<< 8).toNat ++ b!".pkt") 200), .write dir (fun _ => s) u] (fun _ => false)).map (·.map (·.1)) =
      [some (s <<< 8), none, some (s <<< 8)] ∧
    (makeFullPath dir' (hexW 8 (s <<< 8).toNat ++ b!".pkt") 200 ≠ makeFullPath dir (hexW 8 (s <<< 8).toNat ++ b!".pkt") 200 →
      (writeEvents [.write dir (fun _ => s) u, .write dir' (fun _ => s) u] (fun _ => false)).map (·.map (·.1)) = [some (s <<< 8), some (s <<< 8)]) ∧
    ∀ (n : Nat) (db : DupeDB) (all : List (List UInt8)), 0 < n → DupeInv n db all → db.file.length + 400 < 2 ^ 32 →
      ∃ db' b, checkDupe n db (writtenId orig (s <<< 8)) area = .ok (db', b) ∧ checkDupe n db' (writtenId orig (s <<< 8)) area = .ok (db', true) := by
  obtain ⟨u, rfl⟩ : ∃ v, u = v + 1 := ⟨u - 1, by omega⟩
  have e0 : (s <<< 8) + UInt32.ofNat 0 = s <<< 8 := by
    apply UInt32.toNat_inj.1
    rw [UInt32.toNat_add]
    show ((s <<< 8).toNat + 0) % 2 ^ 32 = _
    rw [Nat.add_zero]
    exact Nat.mod_eq_of_lt (UInt32.toNat_lt _)
  have hf : ∀ (d : Str) (there : Str → Bool), there (makeFullPath d (hexW 8 (s <<< 8).toNat ++ b!".pkt") 200) = false →
      cwFile d there (fun _ => s) (u + 1) 0 = some (s <<< 8, makeFullPath d (hexW 8 (s <<< 8).toNat ++ b!".pkt") 200) := by
    intro d there h
    unfold cwFile
    dsimp only
    rw [e0, h]
    rfl
  have hne : writtenId orig (s <<< 8) ≠ [] := by
    unfold writtenId
    simp
  refine ⟨?_, fun hd => ?_, fun n db all hn hinv hlen => ?_⟩
  · simp only [writeEvents, writeEvent]
    rw [hf dir (fun _ => false) rfl]
    dsimp only
    rw [hf dir _ (by simp)]
    rfl
  · simp only [writeEvents, writeEvent]
    rw [hf dir (fun _ => false) rfl]
    dsimp only
    rw [hf dir' _ (by simpa using hd)]
    rfl
  · obtain ⟨h1, h2⟩ := checkDupe_spec n db all hinv _ area hid hne har (by omega)
    by_cases hk : keyRec (writtenId orig (s <<< 8), area) ∈ lastN n all
    · exact ⟨db, true, h1 hk, h1 hk⟩
    · obtain ⟨db', k1, k2, k3⟩ := h2 hk
      obtain ⟨i1, _⟩ := checkDupe_spec n db' _ k2 _ area hid hne har (by omega)
      refine ⟨db', false, k1, i1 ?_⟩
      obtain ⟨n, rfl⟩ : ∃ v, n = v + 1 := ⟨n - 1, by omega⟩
      unfold lastN
      rw [List.mem_iff_getElem?]
      refine ⟨all.length - (all.length + 1 - (n + 1)), ?_⟩
      rw [List.getElem?_drop, List.length_append, List.length_singleton]
      have : all.length + 1 - (n + 1) + (all.length - (all.length + 1 - (n + 1))) = all.length := by omega
      rw [this]
      simp

namespace Ex

/-- Runs in several seconds, with a packet taken away. -/
def idEvents : List WriteEvent := [.write b!"/in" (fun _ => 5) 9, .write b!"/in" (fun _ => 5) 9, .take b!"/in/00000500.pkt", .write b!"/in" (fun _ => 6) 9, .write b!"/in" (fun _ => 5) 9]

/-- Two runs in one second get different numbers; a number is used again once its packet is gone. -/
theorem id_case : writeEvents idEvents (fun _ => false) =
    [some (0x500, b!"/in/00000500.pkt"), some (0x501, b!"/in/00000501.pkt"), none, some (0x600, b!"/in/00000600.pkt"), some (0x500, b!"/in/00000500.pkt")] := by decide +kernel

/-- The conditions of `second_dropped` are met. -/
theorem id_conditions : IdOK (writtenId ⟨2, 201, 1, 0⟩ ((0x5f000001 : UInt32) <<< 8)) ∧ AreaOK b!"TEST" ∧ writtenId ⟨2, 201, 1, 0⟩ ((0x5f000001 : UInt32) <<< 8) = b!"2:201/1.0 00000100" := by
  unfold IdOK AreaOK
  decide +kernel

end Ex

end CM
