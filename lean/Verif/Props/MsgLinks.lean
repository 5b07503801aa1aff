import Verif.Props.MsgMaint

/-! # Links between messages of a *.msg area after maintenance (C118) -/

set_option linter.unusedSimpArgs false

namespace CM

/-- A field of the header of a message: `ReplyTo` is at 184 and `NextReply` at 188 (`storedmsg.h` 1-21). -/
def linkAt (off : Nat) (f : Data) : Nat := (f.getD off 0).toNat + 256 * (f.getD (off + 1) 0).toNat

/-- The number of a message after maintenance that leaves the messages `ns`. -/
def newNr (pack : Bool) (ns : List Nat) (n : Nat) : Nat := if pack then 2 + ns.idxOf n else n

/-- What becomes of links: the field of a message that is left says what it said, and this is right exactly if messages are not renumbered
or all numbers up to that of the message it refers to are in use and left. -/
def LinksAfter (dir : Str) (pack : Bool) (fs fs' : FS) (ns : List Nat) : Prop :=
  ∀ off n f, n ∈ ns → fs (msgFile dir n) = some f → linkAt off f ∈ ns →
    ∃ f', fs' (msgFile dir (newNr pack ns n)) = some f' ∧ linkAt off f' = linkAt off f ∧
      (linkAt off f' = newNr pack ns (linkAt off f) ↔ pack = false ∨ ∀ k, 2 ≤ k → k ≤ linkAt off f → k ∈ ns)

/-- In a list of different numbers in order, starting at 2, a number is in its place exactly if none is missing before it. -/
theorem in_place (ns : List Nat) (hs : ns.Pairwise (· < ·)) (h2 : ∀ n ∈ ns, 2 ≤ n) {a : Nat} (ha : a ∈ ns) : a = 2 + ns.idxOf a ↔ ∀ k, 2 ≤ k → k ≤ a → k ∈ ns := by
  have hj := List.idxOf_lt_length_of_mem ha
  have ej := List.getElem_idxOf hj
  rw [List.pairwise_iff_getElem] at hs
  have up : ∀ i (hi : i < ns.length), 2 + i ≤ ns[i] := by
    intro i
    induction i with
    | zero => intro hi; exact h2 _ (List.getElem_mem hi)
    | succ i ih =>
      intro hi
      have := ih (by omega)
      have := hs i (i + 1) (by omega) hi (by omega)
      omega
  constructor
  · intro e k hk hka
    have gap : ∀ d (hd : d ≤ ns.idxOf a), ns[ns.idxOf a - d] = a - d := by
      intro d
      induction d with
      | zero => intro _; simpa using ej
      | succ d ih =>
        intro hd
        have e1 := ih (by omega)
        have e2 := hs (ns.idxOf a - (d + 1)) (ns.idxOf a - d) (by omega) (by omega) (by omega)
        have e3 := up (ns.idxOf a - (d + 1)) (by omega)
        omega
    have := gap (a - k) (by omega)
    rw [show a - (a - k) = k by omega] at this
    rw [← this]
    exact List.getElem_mem _
  · intro hall
    apply Nat.le_antisymm _ (by have := up _ hj; omega)
    -- the numbers 2, …, a are in the first places
    have : ∀ d, 2 + d ≤ a → d ≤ ns.idxOf (2 + d) := by
      intro d
      induction d with
      | zero => intro _; omega
      | succ d ih =>
        intro hd
        have h1 := ih (by omega)
        have m1 := hall (2 + d) (by omega) (by omega)
        have m2 := hall (2 + (d + 1)) (by omega) hd
        have i1 := List.idxOf_lt_length_of_mem m1
        have i2 := List.idxOf_lt_length_of_mem m2
        have g1 := List.getElem_idxOf i1
        have g2 := List.getElem_idxOf i2
        rcases Nat.lt_trichotomy (ns.idxOf (2 + d)) (ns.idxOf (2 + (d + 1))) with h | h | h
        · omega
        · have : ns[ns.idxOf (2 + d)] = ns[ns.idxOf (2 + (d + 1))] := by simp only [h]
          omega
        · have := hs _ _ i2 i1 h
          omega
    have h2a := h2 a ha
    have := this (a - 2) (by omega)
    rw [show 2 + (a - 2) = a by omega] at this
    omega

theorem links_after {w : World} {dir : Str} {pack : Bool} {fs fs' : FS} {all ns : List Nat} (h : MaintDone w dir pack fs fs' all ns) (hs : ns.Pairwise (· < ·)) (h2 : ∀ n ∈ ns, 2 ≤ n) :
    LinksAfter dir pack fs fs' ns := by
  intro off n f hn hf ha
  have hj := List.idxOf_lt_length_of_mem hn
  have ej : ns[ns.idxOf n]? = some n := by rw [List.getElem?_eq_getElem hj, List.getElem_idxOf hj]
  refine ⟨f, ?_, rfl, ?_⟩
  · unfold newNr
    cases pack with
    | false => rw [if_neg (by decide), h.left.old _ n (Nat.zero_le _) ej]; exact hf
    | true => rw [if_pos rfl, h.left.new _ n (by simpa using hj) ej]; exact hf
  · unfold newNr
    cases pack with
    | false => simp
    | true =>
      rw [if_pos rfl, in_place ns hs h2 ha]
      simp

theorem surviving_sublist (o : JamMaintOpt) (old : Nat → Bool) (ms : List (Nat × Nat)) : (surviving o old ms).Sublist ms := by
  unfold surviving newest
  dsimp only
  split
  · split
    · exact List.filter_sublist.trans (List.drop_sublist ..)
    · exact List.filter_sublist
  · split
    · exact List.drop_sublist ..
    · exact List.Sublist.refl _

/-- C118. After maintenance of a *.msg area, whatever else happened, the links of the messages are the numbers they were; they are right exactly for
the messages that have kept their number. -/
theorem msg_links_partial (w : World) (hr : ¬ w.renameFails) (o : JamMaintOpt) (today : UInt32) {date : Str} (hdate : date.length < 20) {dir : Str} (hd : DirName dir) {fs : FS}
    (hp : ProperNames fs dir) :
    Through w (fun _ => True) (fun r fs' => r = true → ∃ es ms, DirList fs dir isMsgName es ∧ Messages es ms ∧
        LinksAfter dir o.pack fs fs' ((surviving o (tooOld today o.keepDays) ms).map (·.1)))
      (msgMaint o today date dir) fs := by
  refine (msg_maint_partial w hr o today hdate hd hp).mono (fun _ _ => trivial) (fun r f _ h e => ?_)
  obtain ⟨es, ms, hl, hm, hdone⟩ := h e
  refine ⟨es, ms, hl, hm, links_after hdone ?_ ?_⟩
  · rw [List.pairwise_map]
    exact hm.sorted.sublist (surviving_sublist ..)
  · intro n hn
    obtain ⟨⟨n', d⟩, hx, rfl⟩ := List.mem_map.1 hn
    obtain ⟨e, -, -, h2, -⟩ := (hm.all _ _).1 ((surviving_sublist ..).mem hx)
    exact h2

namespace Ex

/-- A message with these numbers in its header. -/
def linked (reply next : UInt8) : Data := List.replicate 184 0 ++ [reply, 0, 1, 0, next, 0, 0]

/-- Message 6 is a reply to message 4; there are no messages 2, 3 and 5. -/
def thread : List (FileEntry × Data) := [({ name := b!"4.msg", size := 191 }, linked 0 6), ({ name := b!"6.msg", size := 191 }, linked 4 0),
  ({ name := b!"7.msg", size := 191 }, linked 0 0)]

theorem thread_list : DirList (dirDisk thread) b!"/m" isMsgName (thread.map (·.1)) := dirDisk_list (by decide +kernel) (by decide +kernel) (by decide +kernel) (by decide +kernel)

theorem thread_names : ProperNames (dirDisk thread) b!"/m" := fun f h1 _ h _ => by
  obtain ⟨x, hx, rfl⟩ := dirDisk_some (by decide +kernel) h
  simp only [thread, List.mem_cons, List.not_mem_nil, or_false] at hx
  rcases hx with rfl | rfl | rfl
  · exact ⟨4, by decide, by decide⟩
  · exact ⟨6, by decide, by decide⟩
  · exact ⟨7, by decide, by decide⟩

example := msg_links_partial calm calm_reliable.renames packOnly 100 (date := date) (by decide) msgDir thread_names

/-- C118 (violated). After renumbering, message 3 (which was 6) is a reply to message 4 (which was 7 and has nothing to do with it). -/
theorem reply_to_other : ∃ fs', Reach calm (msgMaint packOnly 100 date b!"/m") (dirDisk thread) (.ret true) fs' ∧
    fs' (msgFile b!"/m" 2) = some (linked 0 6) ∧ fs' (msgFile b!"/m" 3) = some (linked 4 0) ∧ fs' (msgFile b!"/m" 4) = some (linked 0 0) := by
  obtain ⟨fs', h1, h2⟩ := maintRun_reach (w := calm) (bad := fun _ => false) (.inr fun _ => rfl) thread_list (o := packOnly) (today := 100)
    (P := fun f => f (msgFile b!"/m" 2) == some (linked 0 6) && (f (msgFile b!"/m" 3) == some (linked 4 0) && f (msgFile b!"/m" 4) == some (linked 0 0))) (by decide +kernel)
  simp only [Bool.and_eq_true, beq_iff_eq] at h2
  exact ⟨fs', h1, h2⟩

end Ex

end CM
