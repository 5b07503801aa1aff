import Verif.Lemmas.CrashList
/-! # C98: CrashList indexes the nodelists its configuration names, of each the newest issue -/

set_option linter.unusedSimpArgs false

namespace CM

/-- What CrashList works with: the directory, `cmnodelist.prefs` with the lines `ls`, each with what it asks
for, and a buffer of 500 bytes. -/
structure ListRun (d : ClDisk) (dir : Str) (names : List Str) (stale : Nat → List UInt8) (crlf : Bool)
    (ls : List (Str × Option (Str × UInt16))) : Prop where
  place : ListDir d dir names
  prefs : d.content (pathIn dir b!"cmnodelist.prefs") = some (prefsText crlf (ls.map (·.1)))
  lines : ∀ x ∈ ls, PrefLine x.1 x.2 ∧ x.1.length ≤ 197
  buffer : ∀ k, 99 ≤ (stale k).length
  asked : ∀ n z, (n, z) ∈ ls.filterMap (·.2) → ListName n

/-- **C98 (partial).** CrashList writes an index of the nodelists which `cmnodelist.prefs` asks for, in
that order and with the zones given there: for each name the file with this name, else the newest of the
issues; it says which one it takes, or that there is none or that it cannot be read. Missing: it also takes
nodelists whose name is only the beginning of the name asked for (`Ex.other_list_taken`). -/
theorem crashlist_newest_partial {d : ClDisk} {dir : Str} {names : List Str} {stale : Nat → List UInt8} {crlf : Bool}
    {ls : List (Str × Option (Str × UInt16))} (h : ListRun d dir names stale crlf ls)
    (hs : ∀ n z, (n, z) ∈ ls.filterMap (·.2) → NoShorterList names n) :
    ∃ gs ts, crashListMain d dir stale true = (some (crashList gs), ts.flatten, true) ∧
      ListsFor dir d.error names (fun f => d.date (pathIn dir f)) (fun f => d.content (pathIn dir f)) (ls.filterMap (·.2))
        (gs.map NlFile.key) ts ∧
      ∀ g ∈ gs, (∃ j, g.stale = stale j) ∧ g.name.length ≤ 94 := by
  have hp : makeFullPath dir b!"cmnodelist.prefs" 200 = pathIn dir b!"cmnodelist.prefs" :=
    fullPath_pathIn dir _ h.place.short (by decide)
  unfold crashListMain
  rw [hp, h.prefs]
  dsimp only
  have hl := prefsText_length crlf (ls.map (·.1))
  rw [List.length_map] at hl
  obtain ⟨gs, ts, h1, h2, h3⟩ := clLoop_eq h.place stale crlf ls ((prefsText crlf (ls.map (·.1))).length + 1) 0 h.lines
    (fun n z hm => ⟨h.asked n z hm, hs n z hm⟩) (by omega)
  refine ⟨gs, ts, ?_, h2, h3⟩
  rw [h1]
  rfl

/-- If the configuration cannot be read or the index not be written there is no index and the program
fails. -/
theorem crashlist_fails (d : ClDisk) (dir : Str) (stale : Nat → List UInt8) (canWrite : Bool)
    (h : canWrite = false ∨ d.content (makeFullPath dir b!"cmnodelist.prefs" 200) = none) :
    (crashListMain d dir stale canWrite).1 = none ∧ (crashListMain d dir stale canWrite).2.2 = false := by
  unfold crashListMain
  cases hc : d.content (makeFullPath dir b!"cmnodelist.prefs" 200) with
  | none => exact ⟨rfl, rfl⟩
  | some f =>
    rcases h with rfl | h
    · exact ⟨rfl, rfl⟩
    · rw [hc] at h; cases h

/-- `fs` are the nodelists for what is asked for, given by their lines. -/
def TextLists (dir err : Str) (names : List Str) (date : Str → Option Int) (content : Str → Option (List UInt8))
    (asked : List (Str × UInt16)) (fs : List TextList) : Prop :=
  ∃ ts, ListsFor dir err names date content asked (fs.map fun t => (t.name, t.zone, joinLines t.lastLf t.lines)) ts

theorem listsFor_names {dir err : Str} {names : List Str} {date : Str → Option Int} {content : Str → Option (List UInt8)}
    {asked : List (Str × UInt16)} {fs : List (Str × UInt16 × List UInt8)} {ts : List Str}
    (h : ListsFor dir err names date content asked fs ts) :
    ∀ x ∈ fs, content x.1 = some x.2.2 ∧ (x.1 ∈ names ∨ ∃ z, (x.1, z) ∈ asked) := by
  induction h with
  | nil => simp
  | absent _ _ ih =>
    intro x hx
    rcases ih x hx with ⟨h1, h2 | ⟨z, h2⟩⟩
    · exact ⟨h1, .inl h2⟩
    · exact ⟨h1, .inr ⟨z, List.mem_cons_of_mem _ h2⟩⟩
  | unread _ _ _ ih =>
    intro x hx
    rcases ih x hx with ⟨h1, h2 | ⟨z, h2⟩⟩
    · exact ⟨h1, .inl h2⟩
    · exact ⟨h1, .inr ⟨z, List.mem_cons_of_mem _ h2⟩⟩
  | take hc hf _ ih =>
    intro x hx
    rcases List.mem_cons.1 hx with rfl | hx
    · refine ⟨hf, ?_⟩
      cases hc with
      | file => exact .inr ⟨_, List.mem_cons_self ..⟩
      | issue _ _ _ hm => exact .inl hm
    · rcases ih x hx with ⟨h1, h2 | ⟨z, h2⟩⟩
      · exact ⟨h1, .inl h2⟩
      · exact ⟨h1, .inr ⟨z, List.mem_cons_of_mem _ h2⟩⟩

/-- **C98**, together with C49: after a run of CrashList, a node is in the index exactly if one of the
nodelists so chosen has an entry for it. `texts` gives the lines of the nodelists in the directory. -/
theorem crashlist_then_lookup {d : ClDisk} {dir : Str} {names : List Str} {stale : Nat → List UInt8} {crlf : Bool}
    {ls : List (Str × Option (Str × UInt16))} (h : ListRun d dir names stale crlf ls)
    (hs : ∀ n z, (n, z) ∈ ls.filterMap (·.2) → NoShorterList names n)
    (hn : ∀ f ∈ names, NoNul f)
    (texts : ∀ f c, (f ∈ names ∨ ∃ z, (f, z) ∈ ls.filterMap (·.2)) → d.content (pathIn dir f) = some c →
      ∃ b lines, c = joinLines b lines ∧ (∀ l ∈ lines, NlText l) ∧ c.length < 4294967295)
    (node : Node4D) (hne : node ≠ ⟨0, 0, 0, 0⟩) :
    ∃ index fs, (crashListMain d dir stale true).1 = some index ∧ (∀ t ∈ fs, TextList.Ok t) ∧
      TextLists dir d.error names (fun f => d.date (pathIn dir f)) (fun f => d.content (pathIn dir f)) (ls.filterMap (·.2)) fs ∧
      (nlCheckNode index node = true ↔ ∃ t k e, t ∈ fs ∧ EntryAt t.zone t.lines k e ∧ e.addr = node) := by
  obtain ⟨gs, ts, h1, h2, h3⟩ := crashlist_newest_partial h hs
  have hall := listsFor_names h2
  have key : ∀ gs : List NlFile, (∀ g ∈ gs, (∃ j, g.stale = stale j) ∧ g.name.length ≤ 94) →
      (∀ x ∈ gs.map NlFile.key, d.content (pathIn dir x.1) = some x.2.2 ∧ (x.1 ∈ names ∨ ∃ z, (x.1, z) ∈ ls.filterMap (·.2))) →
      ∃ fs : List TextList, gs = fs.map TextList.file ∧ ∀ t ∈ fs, t.Ok := by
    intro gs
    induction gs with
    | nil => intro _ _; exact ⟨[], rfl, by simp⟩
    | cons g r ih =>
      intro a b
      obtain ⟨fs, hf1, hf2⟩ := ih (fun x hx => a x (List.mem_cons_of_mem _ hx)) (fun x hx => b x (by
        rw [List.map_cons]; exact List.mem_cons_of_mem _ hx))
      obtain ⟨⟨j, hj⟩, hlen⟩ := a g (List.mem_cons_self ..)
      obtain ⟨hc, hm⟩ := b g.key (by rw [List.map_cons]; exact List.mem_cons_self ..)
      have hc : d.content (pathIn dir g.name) = some g.content := hc
      have hm : g.name ∈ names ∨ ∃ z, (g.name, z) ∈ ls.filterMap (·.2) := hm
      obtain ⟨bl, lines, e1, e2, e3⟩ := texts g.name g.content hm hc
      refine ⟨⟨g.name, g.stale, g.zone, lines, bl⟩ :: fs, ?_, ?_⟩
      · rw [List.map_cons, ← hf1]
        congr 1
        obtain ⟨gn, gst, gz, gc⟩ := g
        simp only at e1
        simp only [TextList.file, e1]
      · intro t ht
        rcases List.mem_cons.1 ht with rfl | ht
        · refine ⟨⟨?_, by dsimp only; omega⟩, ?_, e2, ?_⟩
          · rcases hm with hm | ⟨z, hm⟩
            · exact hn _ hm
            · exact fun hh => ((h.asked _ z hm).plain _ hh).2.2.2.2.2.2.1 rfl
          · have := h.buffer j
            dsimp only
            rw [hj]
            omega
          · dsimp only; rw [← e1]; exact e3
        · exact hf2 t ht
  obtain ⟨fs, rfl, hok⟩ := key gs h3 hall
  refine ⟨_, fs, by rw [h1], hok, ⟨ts, ?_⟩, (nodelist_queries fs hok node hne).1⟩
  rw [List.map_map] at h2
  exact h2

namespace Ex

instance (s : Str) : Decidable (Blanks s) := by unfold Blanks; infer_instance

/-- A directory with three issues of two nodelists and the configuration. -/
def listNames : List Str := [b!".", b!"..", b!"cmnodelist.prefs", b!"NODELIST.303", b!"nodelist.310", b!"POINTS.310"]

def listPrefs : List (Str × Option (Str × UInt16)) :=
  [(b!"; Nodelists", none), (b!"NODELIST", some (b!"NODELIST", 0)), (b!"", none), (b!"\tPOINTS  2 R20", some (b!"POINTS", 2)),
   (b!"OTHER 7", some (b!"OTHER", 7))]

def listDates (extra : List (Str × Int)) : List (Str × Int) :=
  [(b!"nl/cmnodelist.prefs", 50), (b!"nl/NODELIST.303", 100), (b!"nl/nodelist.310", 200), (b!"nl/POINTS.310", 150)] ++ extra

def listDisk (names : List Str) (extra : List (Str × Int)) : ClDisk where
  scan p := if p = b!"nl" then some names else none
  date p := (listDates extra).lookup p
  content p :=
    if p = b!"nl/cmnodelist.prefs" then some (prefsText false (listPrefs.map (·.1)))
    else if p = b!"nl/nodelist.310" then some b!"Zone,2,Z\nHost,201,H\n,332,N\n"
    else if p = b!"nl/POINTS.310" then some b!"Host,201,H\n,332,N\nPoint,1,P\n"
    else if p = b!"nl/NODELIST.303" then some b!"Zone,2,Old\n"
    else if p = b!"nl/NODE.999" then some b!"Zone,9,Other\n"
    else none
  error := b!"No such file or directory"

def listStale : Nat → List UInt8 := fun _ => List.replicate 400 7

theorem list_run : ListRun (listDisk listNames []) b!"nl" listNames listStale false listPrefs where
  place := ⟨by decide, by decide +kernel, by decide +kernel⟩
  prefs := by decide +kernel
  lines := by
    intro x hx
    simp only [listPrefs, List.mem_cons, List.not_mem_nil, or_false] at hx
    have n1 : ListName b!"NODELIST" := ⟨by decide, by decide, by decide, by decide⟩
    have n2 : ListName b!"POINTS" := ⟨by decide, by decide, by decide, by decide⟩
    have n3 : ListName b!"OTHER" := ⟨by decide, by decide, by decide, by decide⟩
    have b0 : Blanks [] := by intro c hc; cases hc
    rcases hx with rfl | rfl | rfl | rfl | rfl
    · exact ⟨.comment _ (by decide) (by decide) (by decide), by decide⟩
    · exact ⟨.name [] b!"NODELIST" [] b0 n1 b0, by decide⟩
    · exact ⟨.blank [] b0, by decide⟩
    · exact ⟨.zone b!"\t" b!"POINTS" b!"  " b!"2" b!" R20" (by decide) n2 (by decide) (by decide) (by decide) (by decide) (by decide)
        (by decide) (.inr ⟨32, b!"R20", by decide, .inl rfl⟩) (by decide) (by decide) (by decide), by decide⟩
    · exact ⟨.zone [] b!"OTHER" b!" " b!"7" [] b0 n3 (by decide) (by decide) (by decide) (by decide) (by decide)
        (by decide) (.inl rfl) (by decide) (by decide) (by decide), by decide⟩
  buffer := by intro k; simp only [listStale, List.length_replicate]; decide
  asked := by
    intro n z h
    have : (n, z) = (b!"NODELIST", 0) ∨ (n, z) = (b!"POINTS", 2) ∨ (n, z) = (b!"OTHER", 7) := by
      simpa [listPrefs] using h
    rcases this with h | h | h <;> (injection h with h _; subst h; exact ⟨by decide, by decide, by decide, by decide⟩)

theorem noShorter_check (names : List Str) (n : Str)
    (h : ∀ g ∈ names, nlEnding g = true → ((g.take (g.length - 4)).map lower).isPrefixOf (n.map lower) = true → g.length = n.length + 4) :
    NoShorterList names n := by
  intro g hg p hi hp
  obtain ⟨h1, h2, h3⟩ := isIssue_take hi
  have := h g hg ((nlEnding_iff g).2 h1) (by rw [h2]; exact List.isPrefixOf_iff_prefix.2 hp)
  omega

theorem list_no_shorter : ∀ n z, (n, z) ∈ listPrefs.filterMap (·.2) → NoShorterList listNames n := by
  intro n z h
  have : (n, z) = (b!"NODELIST", 0) ∨ (n, z) = (b!"POINTS", 2) ∨ (n, z) = (b!"OTHER", 7) := by
    simpa [listPrefs] using h
  rcases this with h | h | h <;> (injection h with h _; subst h; exact noShorter_check _ _ (by decide +kernel))

example := crashlist_newest_partial list_run list_no_shorter

/-- The newest issue of each list is taken. -/
theorem newest_taken : (crashListMain (listDisk listNames []) b!"nl" listStale true).2.1 =
    b!"Processing nodelist nodelist.310...\nProcessing nodelist POINTS.310...\nFound no nodelist matching OTHER in nl\n" := by
  decide +kernel

theorem listed_nodes : (crashListMain (listDisk listNames []) b!"nl" listStale true).1.map (fun i =>
    (nlCheckNode i ⟨2, 201, 332, 0⟩, nlCheckNode i ⟨2, 201, 332, 1⟩, nlCheckNode i ⟨2, 201, 333, 0⟩)) = some (true, true, false) := by
  decide +kernel

/-- A list with another name is taken for `NODELIST` if its name is the beginning of that one and it is
newer: the nodes of `NODELIST` are not in the index then. -/
theorem other_list_taken :
    (crashListMain (listDisk (listNames ++ [b!"NODE.999"]) [(b!"nl/NODE.999", 300)]) b!"nl" listStale true).2.1 =
      b!"Processing nodelist NODE.999...\nProcessing nodelist POINTS.310...\nFound no nodelist matching OTHER in nl\n" ∧
    (crashListMain (listDisk (listNames ++ [b!"NODE.999"]) [(b!"nl/NODE.999", 300)]) b!"nl" listStale true).1.map
      (fun i => nlCheckNode i ⟨2, 2, 0, 0⟩) = some false ∧
    (crashListMain (listDisk listNames []) b!"nl" listStale true).1.map (fun i => nlCheckNode i ⟨2, 2, 0, 0⟩) = some true ∧
    ¬ IsIssue b!"NODELIST" b!"NODE.999" := by
  refine ⟨by decide +kernel, by decide +kernel, by decide +kernel, ?_⟩
  rintro ⟨q, x, y, z, h1, h2, _⟩
  have := congrArg List.length h1
  have h3 := congrArg List.length h2
  simp at this h3
  omega

end Ex

end CM
