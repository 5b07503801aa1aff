import Verif.Lemmas.GetNode
import Verif.Props.Node4D
/-! # C95: CrashGetNode shows what the nodelist says -/

set_option linter.unusedSimpArgs false

namespace CM

theorem entry_text (t : TextList) (k : Nat) (e : NlEntry) (he : EntryAt t.zone t.lines k e) (l : Str)
    (hl : t.lines[k]? = some l) : ∃ w r, l = w ++ 44 :: r ∧ w.length ≤ 6 ∧ (0 : UInt8) ∉ w ∧ (10 : UInt8) ∉ w := by
  obtain ⟨⟨l', k', v, hl', w, w', r, hw, hlow, ht, _⟩, _⟩ := he
  rw [hl] at hl'
  injection hl' with hl'
  subst hl'
  refine ⟨w', r, ht, ?_, ?_, ?_⟩
  · have : w'.length = w.length := by rw [← hlow, List.length_map]
    rw [this]
    simp only [entryWords, List.mem_cons, Prod.mk.injEq, List.not_mem_nil, or_false] at hw
    rcases hw with h | h | h | h | h | h | h | h <;> (rw [h.1]; decide)
  all_goals
    intro hm
    have := List.mem_map_of_mem (f := lower) hm
    rw [hlow] at this
    simp only [entryWords, List.mem_cons, Prod.mk.injEq, List.not_mem_nil, or_false] at hw
    rcases hw with h | h | h | h | h | h | h | h <;> (rw [h.1] at this; revert this; decide)

/-- **C95 (partial).** CrashGetNode, run on the index CrashList has made of any nodelists, reports about a
node: its address, region and hub, the keyword it is listed with (`Node` for none) and each of the fields
of the first line that lists it, under the name of the field. If no list has the node, it says so.
Missing, because the code violates it: lines with an empty field, where the fields after it are shown
under the wrong name (`Ex.getnode_empty_field`), and lines of more than 198 bytes, whose end is lost
(`Ex.getnode_long_line`). -/
theorem getnode_shows_partial (fs : List TextList) (hf : ∀ f ∈ fs, f.Ok) (node : Node4D) (hn : node ≠ ⟨0, 0, 0, 0⟩)
    (lists : Str → Option (List UInt8)) (hlists : ∀ f ∈ fs, lists f.name = some f.file.content) :
    (∀ j f k e l flds, FirstEntry TextList.zone TextList.lines fs node j f k e → f.lines[k]? = some l →
      LineOf l flds → l.length ≤ 198 → (∀ x ∈ (flds.take 7).drop 1, x ≠ []) →
      getNode lists (some (crashList (fs.map TextList.file))) (print4D node) =
        .ok (.shown ((nodeReport e flds).flatMap fun x => x ++ [10]))) ∧
    ((¬ ∃ f k e, f ∈ fs ∧ EntryAt f.zone f.lines k e ∧ e.addr = node) →
      getNode lists (some (crashList (fs.map TextList.file))) (print4D node) = .ok .failed) := by
  obtain ⟨hopen, hs⟩ := nodelist_lookup_partial fs hf node hn
  constructor
  · intro j f k e l flds hfirst hl hline hlen hne
    rcases searchSays_first fs node _ hs with ⟨j', f', k', e', h', hr⟩ | ⟨hno, _⟩
    · obtain ⟨rfl, rfl, rfl⟩ := firstEntry_unique fs node hfirst h'
      obtain ⟨h1, h2, h3, _⟩ := hfirst
      have hm : f ∈ fs := List.mem_of_getElem? h1
      have hok := hf f hm
      obtain ⟨l', r, hl', hd, hr'⟩ := entry_drop f hok k e h2
      rw [hl] at hl'
      injection hl' with hl'
      subst hl'
      have ht := hok.lines l (List.mem_of_getElem? hl)
      unfold getNode
      rw [parse4D_print4D]
      dsimp only
      rw [hopen, hr]
      dsimp only [Bool.not_true, Bool.false_eq_true, if_false]
      rw [if_neg (by decide), label_name f hok, hlists f hm]
      dsimp only
      rw [hd]
      obtain ⟨ws, htext, hws⟩ := hline.text
      obtain ⟨c, hc, hc1, hc2⟩ := hline.ends
      have key : ∃ s, osFGets 200 (l ++ r) = some s ∧ LineOf s.1 flds := by
        rcases hr' with rfl | ⟨r', rfl⟩
        · rw [List.append_nil, osFGets_last l 200 ht (by
            obtain ⟨w, y, hw, _⟩ := entry_text f k e h2 l hl
            rw [hw]; simp) (by omega)]
          exact ⟨_, rfl, hline⟩
        · rw [osFGets_line l r' 200 ht (by omega)]
          refine ⟨_, rfl, hline.two, hline.noComma, ?_, hline.ends⟩
          dsimp only
          split
          · next h13 =>
            obtain ⟨ws', rfl⟩ : ∃ ws', ws = ws' ++ [13] := by
              rw [htext] at h13
              by_cases hz : ws = []
              · subst hz
                rw [List.append_nil, hc] at h13
                injection h13 with h13
                subst h13
                exact absurd hc1 (by decide)
              · rw [List.getLast?_append, List.getLast?_eq_some_getLast hz] at h13
                simp only [Option.some_or, Option.some.injEq] at h13
                exact ⟨ws.dropLast, by rw [← h13, List.dropLast_concat_getLast]⟩
            refine ⟨ws' ++ [10], ?_, ?_⟩
            · rw [htext, ← List.append_assoc, List.dropLast_concat, List.append_assoc]
            · intro x hx
              rcases List.mem_append.1 hx with hx | hx
              · exact hws x (List.mem_append_left _ hx)
              · simp only [List.mem_cons, List.not_mem_nil, or_false] at hx
                subst hx; decide
          · refine ⟨ws ++ [10], by rw [htext, List.append_assoc], ?_⟩
            intro x hx
            rcases List.mem_append.1 hx with hx | hx
            · exact hws x hx
            · simp only [List.mem_cons, List.not_mem_nil, or_false] at hx
              subst hx; decide
      obtain ⟨s, hs1, hs2⟩ := key
      rw [hs1]
      dsimp only
      rw [gnLine_fields s.1 flds hs2 hne]
      dsimp only [bind, Except.bind]
      subst h3
      congr 2
      unfold nodeReport NlEntry.idx
      generalize List.zipWith (fun n f => n ++ b!": " ++ f) fieldNames (flds.drop 2) = zs
      generalize (if commaJoin (flds.drop 7) = [] then [] else [b!"Flags: " ++ commaJoin (flds.drop 7)]) = fl
      simp only [lfLines, List.flatMap_append, List.flatMap_cons, List.flatMap_nil, List.append_nil, List.append_assoc,
        List.cons_append, List.nil_append]
    · exact absurd ⟨f, k, e, List.mem_of_getElem? hfirst.1, hfirst.2.1, hfirst.2.2.1⟩ hno
  · intro hno
    rcases searchSays_first fs node _ hs with ⟨j', f', k', e', h', hr⟩ | ⟨_, hr⟩
    · exact absurd ⟨f', k', e', List.mem_of_getElem? h'.1, h'.2.1, h'.2.2.1⟩ hno
    · unfold getNode
      rw [parse4D_print4D]
      dsimp only
      rw [hopen, hr]
      rfl

/-- **C95**: whatever the lines look like, CrashGetNode stays within its buffers as long as the nodelists
are those the index was made of. -/
theorem getnode_safe (fs : List TextList) (hf : ∀ f ∈ fs, f.Ok) (node : Node4D) (hn : node ≠ ⟨0, 0, 0, 0⟩)
    (lists : Str → Option (List UInt8)) (hlists : ∀ f ∈ fs, lists f.name = some f.file.content) (arg : Str)
    (harg : parse4D arg = some node) :
    ∃ r, getNode lists (some (crashList (fs.map TextList.file))) arg = .ok r := by
  obtain ⟨hopen, hs⟩ := nodelist_lookup_partial fs hf node hn
  unfold getNode
  rw [harg]
  dsimp only
  rw [hopen]
  rcases searchSays_first fs node _ hs with ⟨j, f, k, e, ⟨h1, h2, h3, _⟩, hr⟩ | ⟨_, hr⟩
  · rw [hr]
    have hm : f ∈ fs := List.mem_of_getElem? h1
    have hok := hf f hm
    obtain ⟨l, r, hl, hd, hr'⟩ := entry_drop f hok k e h2
    dsimp only
    rw [if_neg (by decide), label_name f hok, hlists f hm]
    dsimp only
    rw [hd]
    obtain ⟨w, y, hw, hlen, h0, h10⟩ := entry_text f k e h2 l hl
    have e1 : l ++ r = w ++ 44 :: (y ++ r) := by rw [hw]; simp
    have e2 : ∃ s, osFGets 200 (l ++ r) = some s ∧ (44 : UInt8) ∈ s.1 := by
      unfold osFGets
      rw [if_neg (by rw [e1]; simp), e1]
      obtain ⟨x, hx⟩ := fgetsRaw_mem w (y ++ r) 44 h10 199 (by omega)
      refine ⟨_, rfl, ?_⟩
      dsimp only
      rw [hx]
      apply fixCrLf_mem _ _ _ (by decide) (by decide)
      unfold cstr
      rw [List.takeWhile_append_of_pos (by
        intro c hc
        simp only [bne_iff_ne, ne_eq]
        rintro rfl
        exact h0 hc), List.takeWhile_cons_of_pos (by decide)]
      simp
    obtain ⟨s, hs1, hs2⟩ := e2
    rw [hs1]
    obtain ⟨t, ht⟩ := gnStrip_ok s.1 hs2
    dsimp only
    unfold gnLine
    rw [ht]
    exact ⟨_, rfl⟩
  · rw [hr]
    exact ⟨_, rfl⟩

namespace Ex

/-- A nodelist with full lines, one with an empty field and one that is too long. -/
def fullList : TextList :=
  { name := b!"NODELIST.123"
    stale := List.replicate 100 7
    zone := 0
    lines := [b!";A Nodelist\r", b!"Zone,2,Europe,Paris,Jo Doe,33-1-1,9600,CM,XA\r", b!"Region,20,Sweden,Stockholm,Kim Li,46-8-1,9600\r",
      b!"Host,201,Net,Lund,Sam Po,46-46-1,9600,CM\r", b!",1,Board,,Sam Po,46-46-2,9600,CM\r",
      b!",2,Board,Lund,Sam Po,46-46-2,9600," ++ List.replicate 170 65 ++ b!",CM\r"]
    lastLf := true }

theorem fullList_ok : fullList.Ok where
  name := by decide
  stale := by decide +kernel
  lines := by
    intro l hl
    have : ∀ l ∈ fullList.lines, NoNul l ∧ (10 : UInt8) ∉ l ∧ l.length ≤ 498 := by decide +kernel
    exact ⟨(this l hl).1, (this l hl).2.1, (this l hl).2.2⟩
  size := by decide +kernel

/-- The directory. -/
def fullDir (n : Str) : Option (List UInt8) := if n = b!"NODELIST.123" then some fullList.file.content else none

/-- The hypotheses about the line are met. -/
example : LineOf b!"Zone,2,Europe,Paris,Jo Doe,33-1-1,9600,CM,XA\r"
    [b!"Zone", b!"2", b!"Europe", b!"Paris", b!"Jo Doe", b!"33-1-1", b!"9600", b!"CM", b!"XA"] ∧
    (∀ x ∈ ([b!"Zone", b!"2", b!"Europe", b!"Paris", b!"Jo Doe", b!"33-1-1", b!"9600", b!"CM", b!"XA"].take 7).drop 1, x ≠ []) :=
  ⟨⟨by decide, by decide, ⟨b!"\r", by decide, by decide⟩, ⟨65, by decide⟩⟩, by decide⟩

/-- What is shown. -/
theorem getnode_full : getNode fullDir (some (crashList [fullList.file])) b!"2:2/0" =
    .ok (.shown b!"Node 2:2/0.0\nRegion 0, Hub 0\nNode is listed as a Zone\nName: Europe\nLocation: Paris\nSysop: Jo Doe\nPhone: 33-1-1\nBaud: 9600\nFlags: CM,XA\n") := by
  decide +kernel

/-- An empty field: the sysop is shown as location, the phone number as sysop and so on. -/
theorem getnode_empty_field : getNode fullDir (some (crashList [fullList.file])) b!"2:201/1" =
    .ok (.shown b!"Node 2:201/1.0\nRegion 20, Hub 0\nNode is listed as a Node\nName: Board\nLocation: Sam Po\nSysop: 46-46-2\nPhone: 9600\nBaud: CM\n") := by
  decide +kernel

/-- A long line: the last flag is missing. -/
theorem getnode_long_line : getNode fullDir (some (crashList [fullList.file])) b!"2:201/2" =
    .ok (.shown (b!"Node 2:201/2.0\nRegion 20, Hub 0\nNode is listed as a Node\nName: Board\nLocation: Lund\nSysop: Sam Po\nPhone: 46-46-2\nBaud: 9600\nFlags: " ++
      List.replicate 165 65 ++ b!"\n")) := by
  decide +kernel

/-- Not listed. -/
example : getNode fullDir (some (crashList [fullList.file])) b!"2:201/7" = .ok .failed := by decide +kernel

end Ex

end CM
