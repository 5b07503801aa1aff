import Verif.Lemmas.Only
import Verif.Props.PackEcho
/-! # C41: received files are removed last -/

set_option linter.unusedSimpArgs false

namespace CM

/-- Makes the first operation of a program visible. -/
macro "first_op" : tactic => `(tactic| try simp only [Prog.bind_eq, Prog.pure_eq, osExists, osRename, osDelete, readFile, writeFile,
  osExecute, osReadDir, osTime, osSleep, Prog.bind, Bool.false_eq_true, if_false, if_true, Bool.not_true, Bool.not_false])

/-- A file in a directory. -/
def InDir (dir f : Str) : Prop := ∃ x, (47 : UInt8) ∉ x ∧ f = dirPart dir ++ x

/-- The files of the outbound: those in the directories for bundles and for new packets, and the flow
files, packets and locks of nodes. -/
def OutFile (o : OutCfg) (f : Str) : Prop :=
  InDir o.cfg.packetDir f ∨ InDir o.packetCreate f ∨
    ∃ n base c, makeBaseName o.cfg o.outbound n = .ok base ∧
      (f = base ++ [46, c, 108, 111] ∨ f = base ++ [46, c, 117, 116] ∨ f = base ++ b!".bsy")

theorem fullPath_in {dir name : Str} (hd : dir.length ≤ 99) (hs : (47 : UInt8) ∉ name) :
    InDir dir (makeFullPath dir name 200) ∧ ∃ k, 98 ≤ k ∧ makeFullPath dir name 200 = dirPart dir ++ name.take k := by
  have hl := dirPart_length dir hd
  have key : makeFullPath dir name 200 = dirPart dir ++ name.take (200 - (dirPart dir).length - 1 - 1) := by
    have e : mystrncpy dir 200 = dir := List.take_of_length_le (by omega)
    unfold makeFullPath
    rw [e]
    have e2 : (if dir ≠ [] ∧ dir.getLast? ≠ some 47 ∧ dir.length + 1 < 200 then dir ++ [47] else dir) = dirPart dir := by
      unfold dirPart
      by_cases h1 : dir = []
      · simp [h1]
      · by_cases h2 : dir.getLast? = some 47
        · simp [h1, h2]
        · simp [h1, h2]; omega
    simp only [e2]
    rw [if_pos (by omega)]
    rfl
  refine ⟨⟨_, fun h => hs (List.mem_of_mem_take h), key⟩, _, ?_, key⟩
  omega

theorem InDir.take {dir f : Str} (hd : dir.length ≤ 99) (h : InDir dir f) (k : Nat) (hk : 100 ≤ k) : InDir dir (f.take k) := by
  obtain ⟨x, hx, rfl⟩ := h
  have hl := dirPart_length dir hd
  refine ⟨x.take (k - (dirPart dir).length), fun h => hx (List.mem_of_mem_take h), ?_⟩
  rw [List.take_append, List.take_of_length_le (by omega)]

theorem InDir.append {dir f : Str} (h : InDir dir f) {y : Str} (hy : (47 : UInt8) ∉ y) : InDir dir (f ++ y) := by
  obtain ⟨x, hx, rfl⟩ := h
  exact ⟨x ++ y, by simp [hx, hy], by simp⟩

theorem InDir.short {dir f pkt : Str} (h : InDir dir f) (hp : shortPktName f = .ok pkt) : InDir dir pkt := by
  obtain ⟨x, hx, rfl⟩ := h
  unfold shortPktName at hp
  rw [dirPart_file dir x hx] at hp
  simp only [List.length_append, Nat.add_sub_cancel, List.take_left'] at hp
  split at hp
  · cases hp
  · cases hp
    refine ⟨x.take 8 ++ b!".pkt", ?_, by simp⟩
    simp
    exact fun h => hx (List.mem_of_mem_take h)

theorem getFilePart_noslash (f : Str) : (47 : UInt8) ∉ getFilePart f := by
  exact ((getFilePart_iff f (getFilePart f)).1 rfl).1

theorem bundleName_noslash {b k : UInt32} {name : Str} (h : bundleName b k = .ok name) : (47 : UInt8) ∉ name := by
  unfold bundleName at h
  split at h
  · cases h
  · rename_i d hd
    cases h
    have h1 := hexW_slash 8 b.toNat
    have h2 : (47 : UInt8) ∉ d := by
      exact (by decide : ∀ d ∈ dayNames, (47 : UInt8) ∉ d) d (List.mem_of_getElem? hd)
    have h3 : (47 : UInt8) ≠ digit (k.toNat % 10) := by
      have hk : k.toNat % 10 < 10 := Nat.mod_lt _ (by decide)
      revert hk
      generalize k.toNat % 10 = m
      intro hk
      have : ∀ m : Fin 10, (47 : UInt8) ≠ digit m.1 := by decide
      exact this ⟨m, hk⟩
    simp [h1, h2, h3]

theorem makeArcName_noslash {wd : Bool} {max : Nat} {now day : UInt32} {arcs : List FileEntry} {last : List Str} {cur name : Str}
    (h : makeArcName wd max now day arcs last cur = .ok (some name)) : (47 : UInt8) ∉ name := by
  have key : ∀ {b k : UInt32} {e : Except UB (Option Str)}, (do return some (← bundleName b k)) = e → e = .ok (some name) → (47 : UInt8) ∉ name := by
    rintro b k e rfl h
    cases hb : bundleName b k with
    | error u => rw [hb] at h; cases h
    | ok n => rw [hb] at h; cases h; exact bundleName_noslash hb
  unfold makeArcName at h
  split at h
  · split at h
    · cases h
    · exact key rfl h
  · cases hs : lastSuffix cur with
    | error u => rw [hs] at h; cases h
    | ok s =>
      rw [hs] at h
      simp only [bind, Except.bind] at h
      split at h
      · exact key rfl h
      · split at h
        · exact key rfl h
        · split at h
          · cases h
          · exact key rfl h

section
variable {o : OutCfg} {fs0 : FS}

theorem only_lock {base : Str} (h : OutFile o (lockName base)) : Only (OutFile o) fs0 (fun _ => True) (lockBasename base) := by
  unfold lockBasename
  first_op
  split
  · trivial
  · intro r
    cases r
    · exact ⟨h, fun r => by cases r <;> trivial⟩
    · trivial

theorem only_unlock {base : Str} (h : OutFile o (lockName base)) : Only (OutFile o) fs0 (fun _ => True) (unlockBasename base) :=
  ⟨h, fun _ => trivial⟩

theorem outFile_flow {n : Node4D} {base : Str} (h : makeBaseName o.cfg o.outbound n = .ok base) (t : UInt8) : OutFile o (flowFile base t) :=
  .inr (.inr ⟨n, base, _, h, .inl rfl⟩)

theorem outFile_out {n : Node4D} {base : Str} (h : makeBaseName o.cfg o.outbound n = .ok base) (t : UInt8) : OutFile o (outFile base t) :=
  .inr (.inr ⟨n, base, _, h, .inr (.inl rfl)⟩)

theorem outFile_lock {n : Node4D} {base : Str} (h : makeBaseName o.cfg o.outbound n = .ok base) : OutFile o (lockName base) :=
  .inr (.inr ⟨n, base, 0, h, .inr (.inr rfl)⟩)

theorem only_flow {n : Node4D} {base file : Str} (h : makeBaseName o.cfg o.outbound n = .ok base) (t : UInt8) (m : FlowMode) :
    Only (OutFile o) fs0 (fun _ => True) (doAddFlow o file base t m) := by
  have hf := outFile_flow h t
  unfold doAddFlow
  first_op
  split
  · trivial
  · intro r
    cases r
    · exact ⟨hf, fun r => by cases r <;> trivial⟩
    · intro r
      cases r with
      | none => trivial
      | some c =>
        refine Only.bind (Q := fun _ => True) (.liftUB fun _ _ => trivial) fun b _ => ?_
        cases b
        · exact ⟨hf, fun r => by cases r <;> trivial⟩
        · trivial

theorem only_orphan {file : Str} (h : OutFile o (file ++ b!".orphan")) (n : Node4D) (t : UInt8) (m : FlowMode) :
    Only (OutFile o) fs0 (fun _ => True) (makeOrphan file n t m) := by
  unfold makeOrphan
  first_op
  split
  · trivial
  · split
    · trivial
    · exact ⟨h, fun _ => trivial⟩

theorem only_flowOrOrphan {n : Node4D} {base file : Str} (h : makeBaseName o.cfg o.outbound n = .ok base) (t : UInt8)
    (hf : OutFile o (file ++ b!".orphan")) : Only (OutFile o) fs0 (fun _ => True) (flowOrOrphan o file base n t) := by
  unfold flowOrOrphan
  first_op
  refine Only.bind (only_flow h t _) fun b _ => ?_
  cases b
  · first_op
    exact only_orphan hf n t _
  · trivial

theorem only_handleOrphan {name : Str} (h : OutFile o name) : Only (OutFile o) fs0 (fun _ => True) (handleOrphan o name) := by
  unfold handleOrphan
  first_op
  intro r
  cases r with
  | none => trivial
  | some c =>
    simp only [Prog.bind]
    split
    · trivial
    · split
      · trivial
      · refine Only.bind (Q := fun b => ∃ n, makeBaseName o.cfg o.outbound n = .ok b) (.liftUB fun b hb => ⟨_, hb⟩) ?_
        rintro base ⟨n, hb⟩
        refine Only.bind (only_lock (outFile_lock hb)) fun b _ => ?_
        cases b
        · trivial
        · refine Only.bind (only_flow hb _ _) fun b _ => ?_
          cases b
          · exact only_unlock (outFile_lock hb)
          · exact ⟨h, fun r => only_unlock (outFile_lock hb)⟩

theorem only_index (hd : o.cfg.packetDir.length ≤ 99) : OutFile o (indexName o) :=
  .inl (fullPath_in hd (by decide)).1

theorem only_newArcName (hd : o.cfg.packetDir.length ≤ 99) (st : PackSt) (i : Nat) :
    Only (OutFile o) fs0 (fun r => (47 : UInt8) ∉ r.1) (newArcName o st i) := by
  unfold newArcName
  first_op
  intro t
  refine Only.bind (Q := fun b => ∀ name, b = some name → (47 : UInt8) ∉ name) (.liftUB fun b hb => ?_) ?_
  · rintro name rfl
    exact makeArcName_noslash hb
  · intro b hb
    cases b with
    | none => trivial
    | some name =>
      dsimp only
      split
      · exact hb _ rfl
      · exact ⟨only_index hd, fun _ => hb _ rfl⟩

theorem only_updateFile (st : PackSt) (name : Str) : Only (OutFile o) fs0 (fun _ => True) (updateFile st name) := by
  unfold updateFile
  first_op
  intro r
  cases r with
  | none => trivial
  | some d =>
    simp only [Prog.bind]
    split <;> trivial

/-- A packet for the archiver. -/
def Waits (o : OutCfg) (f : Str) : Prop := InDir o.cfg.packetDir f ∨ InDir o.packetCreate f

theorem Waits.out {f : Str} (h : Waits o f) : OutFile o f := h.elim .inl fun h => .inr (.inl h)

theorem only_packEcho (hd : o.cfg.packetDir.length ≤ 99) (hc : o.packetCreate.length ≤ 99) (st : PackSt) {file base : Str} (hf : Waits o file)
    {n : Node4D} (hb : makeBaseName o.cfg o.outbound n = .ok base) (i : Nat) (cnode : ConfigNode) (cmd : Str) :
    Only (OutFile o) fs0 (fun _ => True) (packEcho o st file base n i cnode cmd) := by
  unfold packEcho
  first_op
  refine Only.bind (only_newArcName hd st i) ?_
  rintro ⟨name, st⟩ hname
  dsimp only at hname ⊢
  have harc := (fullPath_in hd hname).1
  generalize makeFullPath o.cfg.packetDir name 200 = arc at *
  refine Only.bind (Q := OutFile o) (.liftUB fun p hp => ?_) ?_
  · rcases hf with hf | hf
    · exact .inl ((hf.take hd 199 (by omega)).short hp)
    · exact .inr (.inl ((hf.take hc 199 (by omega)).short hp))
  intro pkt hp
  refine ⟨hf.out, hp, fun r => ?_⟩
  refine Only.bind (Q := fun _ => True) ?_ fun b _ => ?_
  · split
    · exact Only.bind (Q := fun _ => True) (.liftUB fun _ _ => trivial) fun _ _ _ => trivial
    · trivial
  · split
    · exact ⟨hp, hf.out, fun _ => trivial⟩
    · refine Only.bind (Q := fun _ => True) (.liftUB fun _ _ => trivial) fun c _ res => ?_
      simp only [Prog.bind]
      split
      · exact ⟨hp, hf.out, fun _ => trivial⟩
      · refine Only.bind (only_updateFile _ _) fun st _ => ⟨hp, fun _ => ?_⟩
        exact Only.bind (only_flowOrOrphan hb _ (.inl (harc.append (by decide)))) fun _ _ => trivial

theorem only_movefile {f g : Str} (hf : OutFile o f) (hg : OutFile o g) (io : Bool) : Only (OutFile o) fs0 (fun _ => True) (movefile io f g) := by
  unfold movefile
  first_op
  refine ⟨hf, hg, fun r => ?_⟩
  cases r
  · refine Only.bind (Q := fun _ => True) ?_ ?_
    · unfold copyfile
      first_op
      intro r
      cases r with
      | none => trivial
      | some d =>
        refine ⟨hg, fun r => ?_⟩
        cases r with
        | none => trivial
        | some ok =>
          simp only [Prog.bind]
          split
          · exact ⟨hg, fun _ => trivial⟩
          · trivial
    · rintro ⟨ok, io⟩ -
      cases ok
      · trivial
      · exact ⟨hf, fun _ => trivial⟩
  · trivial

theorem only_moveEcho (hd : o.cfg.packetDir.length ≤ 99) (st : PackSt) {file base : Str} (hf : Waits o file)
    {n : Node4D} (hb : makeBaseName o.cfg o.outbound n = .ok base) (cnode : Option ConfigNode) :
    Only (OutFile o) fs0 (fun _ => True) (moveEcho o st file base n cnode) := by
  unfold moveEcho
  first_op
  refine Only.bind (Q := InDir o.cfg.packetDir) (.liftUB fun p hp => (fullPath_in hd (getFilePart_noslash _)).1.short hp) fun pkt hp => ?_
  cases cnode with
  | none => trivial
  | some c =>
    refine Only.bind (only_movefile hf.out (.inl hp) _) ?_
    rintro ⟨ok, io⟩ -
    cases ok
    · trivial
    · exact Only.bind (only_flowOrOrphan hb _ (.inl (hp.append (by decide)))) fun _ _ => trivial

theorem only_packNetmail (st : PackSt) {file base : Str} (hf : Waits o file) {n : Node4D} (hb : makeBaseName o.cfg o.outbound n = .ok base) (t : UInt8) :
    Only (OutFile o) fs0 (fun _ => True) (packNetmail st file base t) := by
  unfold packNetmail
  first_op
  split
  · trivial
  · intro r
    cases r with
    | none => trivial
    | some d =>
      intro b
      refine Only.bind (Q := fun _ => True) ?_ fun r _ => ?_
      · cases b
        · exact ⟨outFile_out hb t, fun _ => trivial⟩
        · exact ⟨outFile_out hb t, fun _ => trivial⟩
      · cases r with
        | none => trivial
        | some ok => exact ⟨hf.out, fun _ => trivial⟩

theorem only_packFile (hd : o.cfg.packetDir.length ≤ 99) (hc : o.packetCreate.length ≤ 99) (st : PackSt) {file : Str} (hf : Waits o file) :
    Only (OutFile o) fs0 (fun _ => True) (packFile o st file) := by
  unfold packFile
  first_op
  split
  · trivial
  · rename_i type n _
    refine Only.bind (Q := fun b => makeBaseName o.cfg o.outbound n = .ok b) (.liftUB fun b hb => hb) ?_
    intro base hb
    refine Only.bind (only_lock (outFile_lock hb)) fun b _ => ?_
    cases b
    · trivial
    · refine Only.bind (Q := fun _ => True) ?_ ?_
      · split
        · split
          · exact only_moveEcho hd st hf hb _
          · split
            · exact only_moveEcho hd st hf hb _
            · split
              · exact only_moveEcho hd st hf hb _
              · exact only_packEcho hd hc st hf hb _ _ _
        · exact only_packNetmail st hf hb _
      · rintro ⟨ok, st⟩ -
        exact Only.bind (only_unlock (outFile_lock hb)) fun _ _ => trivial

theorem only_makePktTmp (hd : o.cfg.packetDir.length ≤ 99) (st : PackSt) {name : Str} (hf : Waits o name) (hl : 6 ≤ (getFilePart name).length) :
    Only (OutFile o) fs0 (fun _ => True) (makePktTmp o st name) := by
  unfold makePktTmp
  first_op
  split
  · trivial
  · refine Only.bind (only_movefile hf.out (.inl ?_) _) ?_
    · obtain ⟨-, k, hk, e⟩ := fullPath_in hd (getFilePart_noslash name)
      have hs := getFilePart_noslash name
      rw [e]
      refine ⟨((getFilePart name).take k).take (((getFilePart name).take k).length - 6) ++ b!"pkttmp", ?_, ?_⟩
      · simp only [List.mem_append, not_or]
        refine ⟨?_, by decide⟩
        exact fun h => hs (List.mem_of_mem_take (List.mem_of_mem_take h))
      · rw [← List.append_assoc]
        congr 1
        rw [List.take_append, List.take_of_length_le (by simp; omega)]
        congr 2
        simp; omega
    · rintro ⟨ok, io⟩ -
      trivial

theorem only_deleteZero (dir : Str) (hdir : dir = o.cfg.packetDir) (hd : o.cfg.packetDir.length ≤ 99) (es : List FileEntry) (he : ∀ e ∈ es, (47 : UInt8) ∉ e.name) :
    Only (OutFile o) fs0 (fun _ => True) (deleteZero dir es) := by
  induction es with
  | nil => trivial
  | cons fe r ih =>
    have ih := ih fun e h => he e (by simp [h])
    unfold deleteZero
    first_op
    split
    · refine ⟨?_, fun _ => ih⟩
      rw [hdir]
      exact .inl (fullPath_in hd (he fe (by simp))).1
    · exact Only.bind ih fun _ _ => trivial

theorem only_orphanLoop (hd : o.cfg.packetDir.length ≤ 99) (es : List FileEntry) (he : ∀ e ∈ es, (47 : UInt8) ∉ e.name) :
    Only (OutFile o) fs0 (fun _ => True) (orphanLoop o es) := by
  induction es with
  | nil => trivial
  | cons fe r ih =>
    have ih := ih fun e h => he e (by simp [h])
    unfold orphanLoop
    first_op
    intro b
    cases b
    · exact Only.bind (only_handleOrphan (.inl (fullPath_in hd (he fe (by simp))).1)) fun _ _ => ih
    · trivial

theorem only_oldLoop (hd : o.cfg.packetDir.length ≤ 99) (hc : o.packetCreate.length ≤ 99) (es : List FileEntry)
    (he : ∀ e ∈ es, (47 : UInt8) ∉ e.name) (st : PackSt) : Only (OutFile o) fs0 (fun _ => True) (oldLoop o st es) := by
  induction es generalizing st with
  | nil => trivial
  | cons fe r ih =>
    unfold oldLoop
    first_op
    have hp := only_packFile (fs0 := fs0) hd hc st (.inl (fullPath_in hd (he fe (by simp))).1)
    generalize packFile o st _ = p at hp ⊢
    refine hp.bind ?_
    rintro ⟨ok, st⟩ -
    exact ih (fun e h => he e (by simp [h])) st

theorem only_newLoop (hd : o.cfg.packetDir.length ≤ 99) (hc : o.packetCreate.length ≤ 99) (es : List FileEntry)
    (he : ∀ e ∈ es, (47 : UInt8) ∉ e.name ∧ 6 ≤ e.name.length) (st : PackSt) : Only (OutFile o) fs0 (fun _ => True) (newLoop o st es) := by
  induction es generalizing st with
  | nil => unfold newLoop; exact True.intro
  | cons fe r ih =>
    have h1 := (he fe (by simp)).1
    have h2 := (he fe (by simp)).2
    have hw : Waits o (makeFullPath o.packetCreate fe.name 200) := .inr (fullPath_in hc h1).1
    unfold newLoop
    first_op
    have hp := only_packFile (fs0 := fs0) hd hc st hw
    generalize packFile o st _ = p at hp ⊢
    refine hp.bind ?_
    rintro ⟨ok, st⟩ -
    cases ok
    · refine Only.bind (only_makePktTmp hd st hw ?_) ?_
      · obtain ⟨-, k, hk, e⟩ := fullPath_in hc h1
        rw [e, dirPart_file _ _ fun h => h1 (List.mem_of_mem_take h)]
        simp; omega
      · rintro ⟨ok, st⟩ -
        cases ok
        · trivial
        · exact ih (fun e h => he e (by simp [h])) st
    · exact ih (fun e h => he e (by simp [h])) st

theorem only_readIndex (hd : o.cfg.packetDir.length ≤ 99) (last : List (Node4D × Str)) :
    Only (OutFile o) fs0 (fun _ => True) (readIndexFile o last) := by
  unfold readIndexFile
  first_op
  intro r
  cases r with
  | none => trivial
  | some c =>
    refine Only.bind (Q := fun _ => True) (.liftUB fun _ _ => trivial) fun l _ => ?_
    split
    · trivial
    · exact ⟨only_index hd, fun _ => trivial⟩

/-- `ArchiveOutbound` changes only files of the outbound. -/
theorem only_archive (hd : o.cfg.packetDir.length ≤ 99) (hc : o.packetCreate.length ≤ 99) (hs : ∀ l, (o.sort l).Perm l) (st : PackSt) :
    Only (OutFile o) fs0 (fun _ => True) (archiveOutbound o st) := by
  have sl : ∀ {acc : Str → Bool} {es : List FileEntry}, (∀ e ∈ es, ∃ n, e.name = n.take 99 ∧ (47 : UInt8) ∉ n ∧ acc n = true) →
      ∀ e ∈ es, (47 : UInt8) ∉ e.name := by
    intro acc es h e he
    obtain ⟨n, e1, e2, -⟩ := h e he
    rw [e1]
    exact fun hm => e2 (List.mem_of_mem_take hm)
  unfold archiveOutbound
  first_op
  refine ⟨trivial, fun es1 h1 => ?_⟩
  refine Only.bind (only_orphanLoop hd _ fun e he => sl h1 e ((hs _).mem_iff.1 he)) fun _ _ => ?_
  refine ⟨trivial, fun es2 h2 => ?_⟩
  refine Only.bind (only_deleteZero _ rfl hd _ (sl h2)) fun arcs _ => ?_
  refine Only.bind (only_readIndex hd _) fun last _ => ?_
  refine ⟨trivial, fun es3 h3 => ?_⟩
  refine Only.bind (only_oldLoop hd hc _ (fun e he => sl h3 e ((hs _).mem_iff.1 he)) _) fun st _ => ?_
  refine ⟨trivial, fun es4 h4 => ?_⟩
  refine only_newLoop hd hc _ (fun e he => ?_) _
  have he := (hs _).mem_iff.1 he
  refine ⟨sl h4 e he, ?_⟩
  obtain ⟨n, e1, e2, e3⟩ := h4 e he
  have : 6 ≤ n.length := by
    unfold isNewPkt at e3
    simp only [Bool.and_eq_true, Bool.not_eq_true', decide_eq_false_iff_not] at e3
    omega
  rw [e1]; simp; omega

/-- Closing the packets changes only files of the outbound. -/
theorem only_finish (hc : o.packetCreate.length ≤ 99) (l : List (UInt32 × UInt8 × Node4D)) (st : PackSt) :
    Only (OutFile o) fs0 (fun _ => True) (finishPackets o st l) := by
  induction l generalizing st with
  | nil => trivial
  | cons p r ih =>
    obtain ⟨num, type, dest⟩ := p
    unfold finishPackets
    first_op
    refine Only.bind (Q := fun _ => True) ?_ fun st _ => ih st
    have ht : OutFile o (makeFullPath o.packetCreate (pktTempName num) 200) := .inr (.inl (fullPath_in hc (by
      unfold pktTempName
      first_op
      have := hexW_slash 8 num.toNat
      simp [this])).1)
    unfold finishPacket
    first_op
    refine ⟨ht, fun r => ?_⟩
    simp only [Prog.bind]
    split
    · trivial
    · refine Only.bind (Q := fun n => (47 : UInt8) ∉ n) (.liftUB fun n hn => (pktDoneName_ok hn).1) fun n hn => ?_
      exact ⟨ht, .inr (.inl (fullPath_in hc hn).1), fun _ => trivial⟩
end

theorem safeDelete_reach {w : World} (l : List Str) {p : Prog Unit} {fs fs' : FS}
    (h : Reach w (processSafeDelete l) fs p fs') : ∀ g, fs' g = fs g ∨ (g ∈ l ∧ fs' g = none) := by
  induction l generalizing fs with
  | nil =>
    cases h with
    | here => exact fun g => .inl rfl
    | step h _ => cases h
  | cons f r ih =>
    unfold processSafeDelete at h
    simp only [Prog.bind_eq, osDelete, Prog.bind] at h
    cases h with
    | here => exact fun g => .inl rfl
    | step h1 h2 =>
      cases h1 with
      | deleteOk _ _ _ d hd =>
        intro g
        rcases ih h2 g with e | ⟨e1, e2⟩
        · by_cases hg : g = f
          · subst hg
            rw [FS.put_self] at e
            exact .inr ⟨by simp, e⟩
          · rw [FS.put_ne _ hg] at e
            exact .inl e
        · exact .inr ⟨by simp [e1], e2⟩
      | deleteFail =>
        intro g
        rcases ih h2 g with e | ⟨e1, e2⟩
        · exact .inl e
        · exact .inr ⟨by simp [e1], e2⟩

/-- **C41.** The end of a run, stopped at any moment, whatever fails: no file outside of the outbound has
been changed, or everything was received, all packets have been closed, the archiver has finished, and
then nothing has happened but that files which were tossed have been deleted.

Missing: that the archiver has not only finished but succeeded. Its result is ignored
(`Ex.inbound_lost`). -/
theorem inbound_kept_partial (w : World) (o : OutCfg) (st : PackSt) (success : Bool) (pkts : List (UInt32 × UInt8 × Node4D)) (dels : List Str)
    (hd : o.cfg.packetDir.length ≤ 99) (hc : o.packetCreate.length ≤ 99) (hs : ∀ l, (o.sort l).Perm l)
    (hw : ExecOnly w (OutFile o)) (fs fs' : FS) (p : Prog Unit) (h : Reach w (afterScanToss o st success pkts dels) fs p fs') :
    (∀ g, ¬ OutFile o g → fs' g = fs g) ∨
    (success = true ∧ ∃ st1 fs1 r fs2, Reach w (finishPackets o st pkts) fs (.ret st1) fs1 ∧
      Reach w (archiveOutbound o st1) fs1 (.ret r) fs2 ∧ (∀ g, ¬ OutFile o g → fs2 g = fs g) ∧
      ∀ g, fs' g = fs2 g ∨ (g ∈ dels ∧ fs' g = none)) := by
  unfold afterScanToss at h
  simp only [Prog.bind_eq, Prog.pure_eq] at h
  rcases h.bind_inv with ⟨p', h1, -, -⟩ | ⟨st1, fs1, h1, h2⟩
  · exact .inl (only_reach hw h1 (only_finish (fs0 := fs) hc pkts st) fun _ _ => rfl).2
  · have e1 := (only_reach hw h1 (only_finish (fs0 := fs) hc pkts st) fun _ _ => rfl).2
    cases success with
    | false =>
      simp only [Bool.false_eq_true, if_false] at h2
      cases h2 with
      | here => exact .inl e1
      | step h _ => cases h
    | true =>
      simp only [if_true] at h2
      rcases h2.bind_inv with ⟨p', h3, -, -⟩ | ⟨r, fs2, h3, h4⟩
      · exact .inl (only_reach hw h3 (only_archive (fs0 := fs) hd hc hs st1) e1).2
      · refine .inr ⟨rfl, st1, fs1, r, fs2, h1, h3, (only_reach hw h3 (only_archive (fs0 := fs) hd hc hs st1) e1).2, ?_⟩
        exact safeDelete_reach dels h4

namespace Ex

/-- The disk: a received packet and an outgoing packet made from it. -/
def tossDisk : FS := fun f => if f = b!"/in/1.pkt" then some b!"mail" else
  if f = b!"/create/1234abcd_Echomail_1_2_3_0.newpkt" then some b!"echo" else none

/-- The assumptions of `inbound_kept_partial` can be met. -/
example : ExecOnly {} (OutFile outCfg) ∧ outCfg.cfg.packetDir.length ≤ 99 ∧ outCfg.packetCreate.length ≤ 99 ∧
    (∀ l, (outCfg.sort l).Perm l) ∧ ¬ OutFile outCfg b!"/in/1.pkt" := by
  refine ⟨?_, by decide, by decide, fun l => .refl l, ?_⟩
  · rintro c fs fs' (rfl | ⟨n, rfl⟩) g _ <;> rfl
  · rintro (⟨x, hx, h⟩ | ⟨x, hx, h⟩ | ⟨n, base, c, h, h1 | h1 | h1⟩)
    · have e : dirPart outCfg.cfg.packetDir = b!"/out/" := by decide
      rw [e] at h
      cases h
    · have e : dirPart outCfg.packetCreate = b!"/create/" := by decide
      rw [e] at h
      cases h
    all_goals
      have := congrArg (fun l => l.reverse.take 2) h1
      simp at this

/-- C41 (violated). The directory of the outbound cannot be read: nothing is archived, the received packet
is deleted all the same, and the next run deletes the outgoing packet. -/
theorem inbound_lost : ∃ fs1 fs2, Reach {} (afterScanToss outCfg {} true [] [b!"/in/1.pkt"]) tossDisk (.ret ()) fs1 ∧
    Reach {} (removeNewPkts outCfg) fs1 (.ret true) fs2 ∧ ∀ g, fs2 g = none := by
  refine ⟨tossDisk.put b!"/in/1.pkt" none, (tossDisk.put b!"/in/1.pkt" none).put b!"/create/1234abcd_Echomail_1_2_3_0.newpkt" none, ?_, ?_, ?_⟩
  · exact .step (.listFail _ _ _ _ trivial) (.step (.deleteOk _ _ _ b!"mail" rfl) (.here _ _))
  · refine .step (.listOk _ _ _ _ [⟨b!"1234abcd_Echomail_1_2_3_0.newpkt", 4, 0⟩] ⟨?_, ?_, by simp⟩) ?_
    · intro e he
      rw [List.mem_singleton.1 he]
      exact ⟨b!"1234abcd_Echomail_1_2_3_0.newpkt", b!"echo", by decide, by decide, by decide, by decide +kernel, by decide +kernel, rfl⟩
    · intro n h1 h2 h3 h4
      refine ⟨_, List.mem_singleton.2 rfl, ?_⟩
      have hdir : dirPart outCfg.packetCreate = b!"/create/" := by decide
      obtain ⟨-, k, hk, e⟩ := fullPath_in (dir := outCfg.packetCreate) (by decide) h1
      rw [e, hdir] at h4
      have : b!"/create/" ++ n.take k = b!"/create/1234abcd_Echomail_1_2_3_0.newpkt" := by
        by_cases hc : b!"/create/" ++ n.take k = b!"/create/1234abcd_Echomail_1_2_3_0.newpkt"
        · exact hc
        · exfalso
          apply h4
          unfold FS.put tossDisk
          have h5 : b!"/create/" ++ n.take k ≠ b!"/in/1.pkt" := by
            intro h; cases h
          rw [if_neg h5, if_neg h5, if_neg hc]
      have hn : n.take k = b!"1234abcd_Echomail_1_2_3_0.newpkt" := List.append_cancel_left (as := b!"/create/") this
      have hl : n.length ≤ k := by
        by_cases hl : n.length ≤ k
        · exact hl
        · exfalso
          have := congrArg List.length hn
          simp at this
          omega
      rw [List.take_of_length_le hl] at hn
      subst hn
      decide
    · exact .step (.deleteOk _ _ _ b!"echo" (by decide +kernel)) (.here _ _)
  · intro g
    unfold FS.put tossDisk
    split
    · rfl
    · split
      · rfl
      · rfl

end Ex

end CM
