import Verif.Spec.MsgRescan
import Verif.Spec.ListOut
import Verif.Model.Toss
import Verif.Lemmas.MsgRescan
import Verif.Props.Toss
import Verif.Props.Attach
import Verif.Props.MsgExport

/-! # What a run removes from the inbound (C113) -/

set_option linter.unusedSimpArgs false

namespace CM

/-- Deleting files: at every moment only these files have changed, and in the end they are gone. -/
theorem safeDelete_sure (w : World) (l : List Str) : ∀ gs : FS,
    Sure w (fun gs' => ∀ f, gs' f = gs f ∨ (f ∈ l ∧ gs' f = none)) (fun _ gs' => ¬ w.deleteFails → ∀ f ∈ l, gs' f = none) (processSafeDelete l) gs := by
  induction l with
  | nil => intro gs; exact .ret (fun _ => .inl rfl) (fun _ f hf => by cases hf)
  | cons a r ih =>
    intro gs
    show Sure w _ _ (.delete a fun _ => processSafeDelete r) gs
    have key : ∀ gs1 : FS, (∀ f, gs1 f = gs f ∨ (f = a ∧ gs1 f = none)) → (¬ w.deleteFails → gs1 a = none) →
        Sure w (fun gs' => ∀ f, gs' f = gs f ∨ (f ∈ a :: r ∧ gs' f = none)) (fun _ gs' => ¬ w.deleteFails → ∀ f ∈ a :: r, gs' f = none) (processSafeDelete r) gs1 := by
      intro gs1 h1 h2
      have hkeep : ∀ gs' : FS, (∀ f, gs' f = gs1 f ∨ (f ∈ r ∧ gs' f = none)) → ∀ f, gs' f = gs f ∨ (f ∈ a :: r ∧ gs' f = none) := by
        intro gs' h f
        rcases h f with e | ⟨e, e'⟩
        · rcases h1 f with e1 | ⟨e1, e2⟩
          · exact .inl (e.trans e1)
          · exact .inr ⟨by simp [e1], e.trans e2⟩
        · exact .inr ⟨List.mem_cons_of_mem _ e, e'⟩
      refine (ih gs1).mono hkeep ?_
      intro _ gs' hI hQ hw f hf
      rcases List.mem_cons.1 hf with rfl | hf
      · rcases hI f with e | ⟨-, e⟩
        · exact e.trans (h2 hw)
        · exact e
      · exact hQ hw f hf
    refine .intro (fun _ => .inl rfl) (fun _ e => nomatch e) (fun u e => nomatch e) (fun e => nomatch e) fun p' fs' s => ?_
    cases s with
    | deleteOk =>
      apply key
      · intro f
        unfold FS.put
        by_cases h : f = a
        · exact .inr ⟨h, by rw [if_pos h]⟩
        · exact .inl (by rw [if_neg h])
      · intro _
        unfold FS.put
        rw [if_pos rfl]
    | deleteFail _ _ _ hf =>
      exact key gs (fun _ => .inl rfl) (fun hw => hf.resolve_right hw)

theorem safeName_short {f : Str} (h : f.length < 100) : safeDeleteName f = f := by
  unfold safeDeleteName mystrncpy
  exact List.take_of_length_le (by omega)

/-- A packet or bundle that was in the directory. -/
def WasInbound (fs : FS) (dir f : Str) : Prop := ∃ n, (47 : UInt8) ∉ n ∧ n ≠ [] ∧ (isPkt n = true ∨ isArc n = true) ∧ f = pathIn dir n ∧ fs f ≠ none

theorem pathIn_length (dir n : Str) : (pathIn dir n).length ≤ dir.length + 1 + n.length := by
  unfold pathIn
  split
  · omega
  · split <;> simp only [List.length_append, List.length_cons] <;> omega

/-- C113. After tossing a directory, exactly the packets and bundles that were found in it are removed; at
no moment any other file is touched. If something went wrong, nothing is removed. -/
theorem inbound_cleared {σ : Type} (t : Tosser σ) (sort : List FileEntry → List FileEntry) (hs : SortsFE sort) (fs : FS) (dir : Str)
    (hd : dir.length ≤ 86) (pkts arcs : List FileEntry) (hp : DirList fs dir isPkt pkts) (ha : DirList fs dir isArc arcs) (s : σ) (w : World) (gs : FS) :
    let r := tossDir t sort dir pkts arcs s
    Sure w (fun gs' => ∀ f, gs' f = gs f ∨ (r.2.1 = true ∧ WasInbound fs dir f ∧ gs' f = none))
      (fun _ gs' => r.2.1 = true → ¬ w.deleteFails → ∀ f, WasInbound fs dir f → gs' f = none) (clearInbound r.2.1 r.2.2) gs := by
  intro r
  obtain ⟨P, A, -, -, hP, hA, -, -, -, hok, -⟩ := toss_order t sort hs fs dir (by omega) pkts arcs hp ha s
  unfold clearInbound
  cases hr : r.2.1 with
  | false => exact .ret (fun _ => .inl rfl) (fun h => by cases h)
  | true =>
    obtain ⟨h1, h2, h3⟩ := hok hr
    rw [if_pos rfl]
    have hname : ∀ e ∈ P ++ A, ∃ n d, e.name = n ∧ n.length = 12 ∧ (47 : UInt8) ∉ n ∧ n ≠ [] ∧ (isPkt n = true ∨ isArc n = true) ∧ fs (makeFullPath dir n 200) = some d := by
      intro e he
      rcases List.mem_append.1 he with he | he
      · obtain ⟨n, d, e1, e2, e3, e4, e5, -⟩ := hp.1 e (hP e he)
        have hl := isPkt_length e4
        rw [List.take_of_length_le (by omega)] at e1
        exact ⟨n, d, e1, hl, e2, e3, .inl e4, e5⟩
      · obtain ⟨n, d, e1, e2, e3, e4, e5, -⟩ := ha.1 e (hA e he)
        have hl := isArc_length e4
        rw [List.take_of_length_le (by omega)] at e1
        exact ⟨n, d, e1, hl, e2, e3, .inr e4, e5⟩
    have hpath : ∀ n : Str, n.length = 12 → makeFullPath dir n 200 = pathIn dir n := fun n hn => path200 (by omega) (by omega)
    have hsafe : r.2.2.map safeDeleteName = r.2.2 := by
      have : ∀ q ∈ r.2.2, safeDeleteName q = q := by
        intro q hq
        rw [h1] at hq
        obtain ⟨e, he, rfl⟩ := List.mem_map.1 hq
        obtain ⟨n, d, e1, e2, -⟩ := hname e he
        rw [e1, hpath n e2]
        have := pathIn_length dir n
        exact safeName_short (by omega)
      exact (List.map_congr_left this).trans (List.map_id' _)
    rw [hsafe]
    have hmem : ∀ f, f ∈ r.2.2 ↔ WasInbound fs dir f := by
      intro f
      constructor
      · intro hf
        rw [h1] at hf
        obtain ⟨e, he, rfl⟩ := List.mem_map.1 hf
        obtain ⟨n, d, e1, e2, e3, e4, e5, e6⟩ := hname e he
        exact ⟨n, e3, e4, e5, by rw [e1, hpath n e2], by rw [e1, e6]; exact fun h => by cases h⟩
      · rintro ⟨n, e1, e2, e3, rfl, e5⟩
        have hl : n.length = 12 := e3.elim isPkt_length isArc_length
        rw [h1]
        rw [← hpath n hl] at e5 ⊢
        rcases e3 with e3 | e3
        · obtain ⟨e, he, rfl⟩ := h2 n e1 e2 e3 e5
          exact List.mem_map.2 ⟨e, List.mem_append_left _ he, rfl⟩
        · obtain ⟨e, he, rfl⟩ := h3 n e1 e2 e3 e5
          exact List.mem_map.2 ⟨e, List.mem_append_right _ he, rfl⟩
    refine (safeDelete_sure w r.2.2 gs).mono ?_ ?_
    · intro gs' h f
      rcases h f with h | ⟨h, h'⟩
      · exact .inl h
      · exact .inr ⟨rfl, (hmem f).1 h, h'⟩
    · intro _ gs' _ h _ hw f hf
      exact h hw f ((hmem f).2 hf)

/-- C113. TOSSFILE removes the file exactly if it was tossed, and no other file. -/
theorem file_cleared {σ : Type} (t : Tosser σ) (file name : Str) (hl : file.length ≤ 99) (s : σ) (w : World) (gs : FS) :
    let r := tossFile t file name s
    Sure w (fun gs' => ∀ f, gs' f = gs f ∨ (r.2.1 = true ∧ f = file ∧ gs' f = none))
      (fun _ gs' => r.2.1 = true → ¬ w.deleteFails → gs' file = none) (clearInbound r.2.1 r.2.2) gs ∧
    r.2.1 = (if isPkt name = true then t.readPkt s file else t.tossBundle s file).2 := by
  intro r
  refine ⟨?_, rfl⟩
  unfold clearInbound
  cases hr : r.2.1 with
  | false => exact .ret (fun _ => .inl rfl) (fun h => by cases h)
  | true =>
    have hd : r.2.2 = [file] := by
      show (if r.2.1 then [file] else []) = _
      rw [hr]; rfl
    rw [if_pos rfl, hd, List.map_cons, List.map_nil, safeName_short (by omega)]
    refine (safeDelete_sure w [file] gs).mono ?_ ?_
    · intro gs' h f
      rcases h f with h | ⟨h, h'⟩
      · exact .inl h
      · exact .inr ⟨rfl, List.mem_singleton.1 h, h'⟩
    · intro _ gs' _ h _ hw
      exact h hw file (List.mem_singleton.2 rfl)

/-- For longer names this is false: the packet stays, to be tossed again by the next run, and a file with
the first 99 characters of the name is removed. -/
theorem long_name_cleared {σ : Type} (t : Tosser σ) (file name : Str) (hl : 99 < file.length) (s : σ) (w : World) (gs : FS)
    (h : (tossFile t file name s).2.1 = true) :
    Sure w (fun gs' => gs' file = gs file) (fun _ gs' => ¬ w.deleteFails → gs' (file.take 99) = none)
      (clearInbound (tossFile t file name s).2.1 (tossFile t file name s).2.2) gs := by
  unfold clearInbound
  have hd : (tossFile t file name s).2.2 = [file] := by
    show (if (tossFile t file name s).2.1 then [file] else []) = _
    rw [h]; rfl
  rw [h, if_pos rfl, hd, List.map_cons, List.map_nil]
  have hc : safeDeleteName file = file.take 99 := rfl
  rw [hc]
  refine (safeDelete_sure w [file.take 99] gs).mono ?_ ?_
  · intro gs' h
    rcases h file with h | ⟨h, -⟩
    · exact h
    · have h := congrArg List.length (List.mem_singleton.1 h)
      rw [List.length_take] at h
      omega
  · intro _ gs' _ h hw
    exact h hw _ (List.mem_singleton.2 rfl)

namespace Ex

def inDisk : FS := fun f => if f = b!"/in/0000002a.pkt" then some [1] else if f = b!"/in/note.txt" then some [2] else none

/-- A directory with a packet and another file meets the hypotheses. -/
theorem inbound_hyps : DirList inDisk b!"/in" isPkt [⟨b!"0000002a.pkt", 1, 5⟩] ∧ DirList inDisk b!"/in" isArc [] ∧
    WasInbound inDisk b!"/in" b!"/in/0000002a.pkt" ∧ ¬ WasInbound inDisk b!"/in" b!"/in/note.txt" := by
  have hone : ∀ n : Str, n.length = 12 → inDisk (makeFullPath b!"/in" n 200) ≠ none → n = b!"0000002a.pkt" := by
    intro n hn h
    rw [path200 (by decide) (by omega)] at h
    unfold inDisk at h
    by_cases e : pathIn b!"/in" n = b!"/in/0000002a.pkt"
    · have e' : b!"/in/" ++ n = b!"/in/" ++ b!"0000002a.pkt" := e
      exact List.append_cancel_left e'
    · rw [if_neg e] at h
      by_cases e2 : pathIn b!"/in" n = b!"/in/note.txt"
      · have e' : b!"/in/" ++ n = b!"/in/" ++ b!"note.txt" := e2
        have := List.append_cancel_left e'
        rw [this] at hn
        exact absurd hn (by decide)
      · rw [if_neg e2] at h
        exact absurd rfl h
  refine ⟨⟨?_, ?_, by simp⟩, ⟨by simp, ?_, by simp⟩, ⟨b!"0000002a.pkt", by decide, by decide, by decide, by decide, by decide⟩, ?_⟩
  · intro e he
    rw [List.mem_singleton] at he
    subst he
    exact ⟨b!"0000002a.pkt", [1], rfl, by decide, by decide, by decide, by decide, by decide⟩
  · intro n h1 h2 h3 h4
    have := hone n (isPkt_length h3) h4
    subst this
    exact ⟨_, List.mem_singleton.2 rfl, by decide⟩
  · intro n h1 h2 h3 h4
    have := hone n (isArc_length h3) h4
    subst this
    exact absurd h3 (by decide)
  · rintro ⟨n, h1, h2, h3, h4, -⟩
    have hl : n.length = 12 := h3.elim isPkt_length isArc_length
    have := congrArg List.length h4
    have e' : b!"/in/note.txt" = b!"/in/" ++ n := h4
    have := List.append_cancel_left (show b!"/in/" ++ b!"note.txt" = b!"/in/" ++ n from e')
    rw [← this] at hl
    exact absurd hl (by decide)

end Ex

end CM
