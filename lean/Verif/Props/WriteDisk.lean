import Verif.Model.WriteDisk
import Verif.Spec.WriteDisk
import Verif.Lemmas.Disk
import Verif.Props.CrashWrite

/-! # What CrashWrite leaves on the disk (C125) -/

set_option linter.unusedSimpArgs false

namespace CM

theorem cwPacket_parts (a : WriteArgs) (t : Tm) (num : UInt32) (disk : FS) {o d po pd : Node4D} (h : cwAddrs a = some (o, d, po, pd)) :
    cwPacket a t num disk = (cwBody a disk).map fun x => cwStart a t o d po pd num ++ (x ++ cwTail a o ++ [0, 0, 0]) := by
  unfold cwAddrs at h
  unfold cwPacket
  cases h1 : cwAddr ⟨0, 0, 0, 0⟩ a.fromAddr with
  | none => simp [h1] at h
  | some o' =>
    cases h2 : cwAddr ⟨0, 0, 0, 0⟩ a.toAddr with
    | none => simp [h1, h2] at h
    | some d' =>
      cases h3 : cwAddr o' a.pktFrom with
      | none => simp [h1, h2, h3] at h
      | some po' =>
        cases h4 : cwAddr d' a.pktTo with
        | none => simp [h1, h2, h3, h4] at h
        | some pd' =>
          simp [h1, h2, h3, h4] at h
          obtain ⟨rfl, rfl, rfl, rfl⟩ := h
          cases h5 : cwBody a disk with
          | none => simp [h3, h4]
          | some x => simp [h3, h4, cwStart, List.append_assoc]

theorem cwAddrs_none (a : WriteArgs) (t : Tm) (num : UInt32) (disk : FS) (h : cwAddrs a = none) : cwPacket a t num disk = none := by
  unfold cwAddrs at h
  unfold cwPacket
  cases h1 : cwAddr ⟨0, 0, 0, 0⟩ a.fromAddr with
  | none => rfl
  | some o' =>
    cases h2 : cwAddr ⟨0, 0, 0, 0⟩ a.toAddr with
    | none => rfl
    | some d' =>
      cases h3 : cwAddr o' a.pktFrom with
      | none => simp [h3]
      | some po' =>
        cases h4 : cwAddr d' a.pktTo with
        | none => simp [h3, h4]
        | some pd' => simp [h1, h2, h3, h4] at h

theorem pick_through {w : World} {I : FS → Prop} {fs : FS} (hI : I fs) (dir : Str) : ∀ (fuel n : Nat),
    Through w I (fun num gs => gs = fs ∧ fs (cwPath dir num) = none) (cwPick dir fuel n) fs := by
  intro fuel
  induction fuel with
  | zero => intro n; exact .stuck hI
  | succ fuel ih =>
    intro n
    refine .time hI fun t => .exist hI ?_
    cases hf : fs (cwPath dir ((t <<< 8) + UInt32.ofNat n)) with
    | none => exact .ret hI ⟨rfl, hf⟩
    | some d => exact ih (n + 1)

theorem overlay_atEnd (o d : Data) : overlay o o.length d = o ++ d := by simp [overlay]

theorem rest_through {w : World} {I : FS → Prop} {Q : Nat → FS → Prop} {fs gs : FS} {name : Str} {start rest : Data} {ok : Bool} (hok : ok = true → gs = fs.put name (some start))
    (hw : ok = false → w.writeFails ∧ ∃ x, gs = fs.put name (some x)) (hI : w.writeFails → ∀ v, I (fs.put name v)) (hp : ∀ d, d <+: start ++ rest → I (fs.put name (some d)))
    (h0 : Q 0 (fs.put name (some (start ++ rest)))) (hq : w.writeFails → ∀ v, Q 0 (fs.put name v)) : Through w I Q (cwRest name start ok rest) gs := by
  cases ok with
  | true =>
    have e := hok rfl
    subst e
    refine .writing ?_ ?_ (.ret ?_ ?_) ?_
    · rw [FS.put_self, overlay_nil]
    · intro d' t' e
      rw [FS.put_put, overlay_atEnd]
      exact hp _ ⟨t', by rw [List.append_assoc, ← e]; rfl⟩
    · rw [FS.put_put, overlay_atEnd]; exact hp _ (List.prefix_refl _)
    · rw [FS.put_put, overlay_atEnd]; exact h0
    · intro hf junk
      rw [FS.put_put]
      exact .ret (hI hf _) (hq hf _)
  | false =>
    obtain ⟨hf, x, rfl⟩ := hw rfl
    refine .write (hI hf _) ?_ (.ret ?_ ?_) ?_ ?_
    · intro d' t' _; rw [FS.put_put]; exact hI hf _
    · rw [FS.put_put]; exact hI hf _
    · rw [FS.put_put]; exact hq hf _
    · intro _ junk; rw [FS.put_put]; exact .ret (hI hf _) (hq hf _)
    · intro _; exact .ret (hI hf _) (hq hf _)

theorem write_through {w : World} {fs : FS} (a : WriteArgs) (t : Tm) {o d po pd : Node4D} (ha : cwAddrs a = some (o, d, po, pd)) (ht : TextApart a) {num : UInt32}
    (hnew : fs (cwPath a.dir num) = none) : Through w (AtMost w a t fs) (EndsAs w a t fs) (cwWrite a t o d po pd num) fs := by
  have hpk := cwPacket_parts a t num fs ha
  have hput : ∀ v, w.writeFails → AtMost w a t fs (fs.put (cwPath a.dir num) v) := fun v hf => .inr ⟨num, v, hnew, rfl, fun h => absurd hf h⟩
  have hpre : ∀ d', (∀ c, cwPacket a t num fs = some c → d' <+: c) → AtMost w a t fs (fs.put (cwPath a.dir num) (some d')) :=
    fun d' h => .inr ⟨num, some d', hnew, rfl, fun _ => ⟨d', rfl, h⟩⟩
  have hstart : ∀ d', d' <+: cwStart a t o d po pd num → AtMost w a t fs (fs.put (cwPath a.dir num) (some d')) := by
    intro d' h
    refine hpre d' fun c hc => ?_
    rw [hpk] at hc
    cases hb : cwBody a fs with
    | none => rw [hb] at hc; cases hc
    | some x =>
      rw [hb, Option.map_some] at hc
      have hc := Option.some.inj hc
      subst hc
      exact h.trans (List.prefix_append _ _)
  have hov : ∀ x : Data, overlay (opened fs (cwPath a.dir num) .new).1 (opened fs (cwPath a.dir num) .new).2 x = x := by intro x; simp [opened, overlay]
  have main : ∀ (ok : Bool) (gs : FS), (ok = true → gs = fs.put (cwPath a.dir num) (some (cwStart a t o d po pd num))) →
      (ok = false → w.writeFails ∧ ∃ x, gs = fs.put (cwPath a.dir num) (some x)) →
      Through w (AtMost w a t fs) (EndsAs w a t fs)
        (match a.text with
        | none => cwRest (cwPath a.dir num) (cwStart a t o d po pd num) ok (cwTail a o ++ [0, 0, 0])
        | some f => .read f fun d' =>
          match d' with
          | none => .delete (cwPath a.dir num) fun _ => .ret 10
          | some d' => cwRest (cwPath a.dir num) (cwStart a t o d po pd num) ok (cwText d' ++ cwTail a o ++ [0, 0, 0])) gs := by
    intro ok gs hok hbad
    have hgs : ∃ x, gs = fs.put (cwPath a.dir num) (some x) ∧ AtMost w a t fs gs := by
      cases ok with
      | true => rw [hok rfl]; exact ⟨_, rfl, hstart _ (List.prefix_refl _)⟩
      | false =>
        obtain ⟨hf, x, e⟩ := hbad rfl
        exact ⟨x, e, by rw [e]; exact hput _ hf⟩
    have fin : ∀ x, cwBody a fs = some x → Through w (AtMost w a t fs) (EndsAs w a t fs)
        (cwRest (cwPath a.dir num) (cwStart a t o d po pd num) ok (x ++ cwTail a o ++ [0, 0, 0])) gs := by
      intro x hx
      rw [hx, Option.map_some] at hpk
      refine rest_through hok hbad (fun hf v => hput v hf) ?_ ?_ ?_
      · intro d' hd'
        refine hpre d' fun c hc => ?_
        rw [hpk] at hc
        have hc := Option.some.inj hc
        subst hc
        exact hd'
      · exact .written fun _ => ⟨num, _, hnew, hpk, rfl⟩
      · intro hf v
        exact .written fun h => absurd hf h
    cases htx : a.text with
    | none => exact fin [] (by simp [cwBody, htx])
    | some f =>
      obtain ⟨x, rfl, hI⟩ := hgs
      have hne : f ≠ cwPath a.dir num := ht f htx num
      refine .read hI ?_ ?_
      · intro d' hd'
        rw [FS.put_ne _ hne] at hd'
        exact fin (cwText d') (by simp [cwBody, htx, hd'])
      · intro hno
        rw [FS.put_ne _ hne] at hno
        have hwhy : w.openFails ∨ ∀ k, cwPacket a t k fs = none := by
          rcases hno with h | h
          · right
            intro k
            rw [cwPacket_parts a t k fs ha]
            simp [cwBody, htx, h]
          · exact .inl h
        refine .delete hI ?_ ?_
        · intro d' hd'
          rw [FS.put_put, FS.put_same fs hnew]
          exact .ret (.inl rfl) (.failed (fun _ => rfl) hwhy)
        · intro hd'
          refine .ret hI (.failed (fun h => ?_) hwhy)
          rcases hd' with hd' | hd'
          · rw [FS.put_self] at hd'; cases hd'
          · exact absurd hd' h
  refine .write (.inl rfl) ?_ ?_ ?_ ?_
  · intro d' t' e
    rw [hov]
    exact hstart d' ⟨t', e.symm⟩
  · rw [hov]
    exact main true _ (fun _ => rfl) (fun h => by cases h)
  · intro hf junk
    exact main false _ (fun h => by cases h) (fun _ => ⟨hf, _, rfl⟩)
  · intro ho
    exact .ret (.inl rfl) (.failed (fun _ => rfl) (.inl ho))

/-- **C125 (partial).** For every command line, wherever the program is stopped and whatever fails. -/
theorem write_whole_partial (w : World) (fs : FS) (t : Tm) (fuel : Nat) (argv : List Str) :
    (parseArgs cwTable argv = none → cwMain argv t fuel = .ret 10) ∧
    ∀ args, parseArgs cwTable argv = some args → TextApart (writeArgs args) →
      Through w (AtMost w (writeArgs args) t fs) (EndsAs w (writeArgs args) t fs) (cwMain argv t fuel) fs := by
  refine ⟨fun h => by unfold cwMain; rw [h], fun args h ht => ?_⟩
  unfold cwMain
  rw [h]
  dsimp only
  cases ha : cwAddrs (writeArgs args) with
  | none => exact .ret (.inl rfl) (.failed (fun _ => rfl) (.inr fun k => cwAddrs_none _ _ _ _ ha))
  | some x =>
    obtain ⟨o, d, po, pd⟩ := x
    refine (pick_through (I := AtMost w (writeArgs args) t fs) (.inl rfl) _ fuel 0).bind ?_
    intro num gs _ hq
    obtain ⟨e, hnew⟩ := hq
    rw [e]
    exact write_through _ t ha ht hnew

/-- The way to the packet, if the first name is free. -/
theorem main_start {w : World} {fs : FS} {argv : List Str} {t : Tm} {fuel : Nat} {args : List Arg} {c : Data} (tm : UInt32)
    (hp : parseArgs cwTable argv = some args) (hc : cwPacket (writeArgs args) t (tm <<< 8) fs = some c)
    (hf : fs (cwPath (writeArgs args).dir (tm <<< 8)) = none) :
    ∃ o d po pd, cwAddrs (writeArgs args) = some (o, d, po, pd) ∧
      Reach w (cwMain argv t (fuel + 1)) fs (cwWrite (writeArgs args) t o d po pd (tm <<< 8)) fs := by
  cases ha : cwAddrs (writeArgs args) with
  | none => rw [cwAddrs_none _ _ _ _ ha] at hc; cases hc
  | some x =>
    obtain ⟨o, d, po, pd⟩ := x
    refine ⟨o, d, po, pd, rfl, ?_⟩
    unfold cwMain
    rw [hp]
    dsimp only
    rw [ha]
    dsimp only [cwPick, Prog.bind]
    refine .step (.time _ _ tm) ?_
    refine .step (.exist _ _ _) ?_
    have e : (tm <<< 8) + UInt32.ofNat 0 = tm <<< 8 := by simp
    rw [e, hf]
    exact .here _ _

theorem reach_allBytes {w : World} {α : Type} (f : Str) (o : Data) (k : Bool → Prog α) : ∀ (todo done : Data) (fs : FS), fs f = some (o ++ done) →
    Reach w (.writing f o o.length done todo k) fs (k true) (fs.put f (some (o ++ (done ++ todo)))) := by
  intro todo
  induction todo with
  | nil =>
    intro done fs h
    rw [List.append_nil, FS.put_same fs h]
    exact .step (.writeDone _ _ _ _ _ _) (.here _ _)
  | cons c todo ih =>
    intro done fs h
    refine .step (.byte _ _ _ _ _ _ _ _) ?_
    rw [overlay_atEnd]
    have := ih (done ++ [c]) (fs.put f (some (o ++ (done ++ [c])))) (FS.put_self _ _ _)
    rw [FS.put_put, List.append_assoc, List.singleton_append] at this
    exact this

/-- C125. Every message can be written: if the first name is free, the program can end with exit code 0 and the message in the packet. -/
theorem write_ends {w : World} {fs : FS} {argv : List Str} {t : Tm} (fuel : Nat) {args : List Arg} {c : Data} {tm : UInt32}
    (hp : parseArgs cwTable argv = some args) (ht : TextApart (writeArgs args)) (hc : cwPacket (writeArgs args) t (tm <<< 8) fs = some c)
    (hf : fs (cwPath (writeArgs args).dir (tm <<< 8)) = none) :
    Reach w (cwMain argv t (fuel + 1)) fs (.ret 0) (fs.put (cwPath (writeArgs args).dir (tm <<< 8)) (some c)) := by
  obtain ⟨o, d, po, pd, ha, hr⟩ := main_start (w := w) (fuel := fuel) tm hp hc hf
  refine hr.trans ?_
  rw [cwPacket_parts _ _ _ _ ha] at hc
  generalize writeArgs args = a at *
  have hrest : ∀ rest, Reach w (cwRest (cwPath a.dir (tm <<< 8)) (cwStart a t o d po pd (tm <<< 8)) true rest)
      (fs.put (cwPath a.dir (tm <<< 8)) (some (cwStart a t o d po pd (tm <<< 8)))) (.ret 0)
      (fs.put (cwPath a.dir (tm <<< 8)) (some (cwStart a t o d po pd (tm <<< 8) ++ rest))) := by
    intro rest
    have := reach_allBytes (w := w) (cwPath a.dir (tm <<< 8)) (cwStart a t o d po pd (tm <<< 8)) (fun _ => Prog.ret 0) rest []
      (fs.put (cwPath a.dir (tm <<< 8)) (some (cwStart a t o d po pd (tm <<< 8)))) (by rw [FS.put_self, List.append_nil])
    rw [FS.put_put, List.nil_append] at this
    exact this
  unfold cwWrite
  refine .step (.openOk _ _ _ _ _) ?_
  simp only [opened]
  refine (reach_allBytes (w := w) (cwPath a.dir (tm <<< 8)) [] _ (cwStart a t o d po pd (tm <<< 8)) [] _ (FS.put_self _ _ _)).trans ?_
  rw [FS.put_put, List.nil_append, List.nil_append]
  cases htx : a.text with
  | none =>
    have hb : cwBody a fs = some [] := by simp [cwBody, htx]
    rw [hb, Option.map_some] at hc
    have hc := Option.some.inj hc
    subst hc
    exact hrest _
  | some f =>
    dsimp only
    cases hd : fs f with
    | none => simp [cwBody, htx, hd] at hc
    | some x =>
      have hb : cwBody a fs = some (cwText x) := by simp [cwBody, htx, hd]
      rw [hb, Option.map_some] at hc
      have hc := Option.some.inj hc
      subst hc
      have hne : f ≠ cwPath a.dir (tm <<< 8) := ht f htx _
      refine .step (.readOk _ _ _ x ?_) (hrest _)
      rw [FS.put_ne _ hne]
      exact hd

/-- **C125 (violated).** If writing fails, as on a full disk, the program still ends with exit code 0, whatever is in the file by then,
for every message. -/
theorem full_disk {w : World} (hw : w.writeFails) {fs : FS} {argv : List Str} {t : Tm} (fuel : Nat) {args : List Arg} {c : Data} {tm : UInt32}
    (hp : parseArgs cwTable argv = some args) (ht : TextApart (writeArgs args)) (hc : cwPacket (writeArgs args) t (tm <<< 8) fs = some c)
    (hf : fs (cwPath (writeArgs args).dir (tm <<< 8)) = none) (junk : Data) :
    Reach w (cwMain argv t (fuel + 1)) fs (.ret 0) (fs.put (cwPath (writeArgs args).dir (tm <<< 8)) (some junk)) := by
  obtain ⟨o, d, po, pd, ha, hr⟩ := main_start (w := w) (fuel := fuel) tm hp hc hf
  refine hr.trans ?_
  rw [cwPacket_parts _ _ _ _ ha] at hc
  generalize writeArgs args = a at *
  have hfail : ∀ rest, Reach w (cwRest (cwPath a.dir (tm <<< 8)) (cwStart a t o d po pd (tm <<< 8)) false rest) (fs.put (cwPath a.dir (tm <<< 8)) (some [])) (.ret 0)
      (fs.put (cwPath a.dir (tm <<< 8)) (some junk)) := by
    intro rest
    refine .step (.openOk _ _ _ _ _) ?_
    refine .step (.writeFail _ _ _ _ _ _ _ junk hw) ?_
    simp only [opened, FS.put_self, Option.getD_some, List.length_nil, Nat.not_lt_zero, if_false, Nat.sub_zero, List.take_nil, List.nil_append, FS.put_put]
    exact .here _ _
  unfold cwWrite
  refine .step (.openOk _ _ _ _ _) ?_
  refine .step (.writeFail _ _ _ _ _ _ _ [] hw) ?_
  simp only [opened, List.take_nil, List.nil_append, List.append_nil, FS.put_put]
  cases htx : a.text with
  | none => exact hfail _
  | some f =>
    dsimp only
    cases hd : fs f with
    | none => simp [cwBody, htx, hd] at hc
    | some x =>
      refine .step (.readOk _ _ _ x ?_) (hfail _)
      have hne : f ≠ cwPath a.dir (tm <<< 8) := ht f htx _
      rw [FS.put_ne _ hne]
      exact hd

/-- **C125 (violated).** The packet has its final name from the beginning: for every message there is a moment at which the directory has
an empty packet. -/
theorem early_packet {w : World} {fs : FS} {argv : List Str} {t : Tm} (fuel : Nat) {args : List Arg} {c : Data} {tm : UInt32}
    (hp : parseArgs cwTable argv = some args) (hc : cwPacket (writeArgs args) t (tm <<< 8) fs = some c)
    (hf : fs (cwPath (writeArgs args).dir (tm <<< 8)) = none) :
    ∃ p, Reach w (cwMain argv t (fuel + 1)) fs p (fs.put (cwPath (writeArgs args).dir (tm <<< 8)) (some [])) := by
  obtain ⟨o, d, po, pd, -, hr⟩ := main_start (w := w) (fuel := fuel) tm hp hc hf
  exact ⟨_, hr.trans (.step (.openOk _ _ _ _ _) (.here _ _))⟩

/-- **C125 (violated).** A tosser that reads the packet at this moment puts it away as bad; no message is handed over. -/
theorem early_bad (cfg : PktCfg) (handler : List MemMsg → MemMsg → Bool) (ctrlc : Nat → Bool) (junk : List UInt8) :
    readPkt cfg handler ctrlc junk [] = .ok (some (.bad .headerShort, [])) := by
  rfl

namespace Ex

/-- A packet that is cut in the text, and one that is cut after it. -/
theorem cut_packet : ((cwPacket cwNetArgs cwTm 1 (cwDisk b!"Hello\n")).map fun c =>
      [3, 10, 0].map fun n => (readPkt cwCfg (fun _ _ => true) (fun _ => false) (List.replicate 14 0) (c.take (c.length - n))).toOption.join.map
        fun r => (decide (r.1 = .done), r.2.length)) = some [some (false, 0), some (false, 0), some (true, 1)] := by decide +kernel

/-- The conditions of C125 are met. -/
theorem write_conditions : parseArgs cwTable cwNet = some ((parseArgs cwTable cwNet).getD []) ∧ TextApart (cwArgs cwNet) ∧
    (cwPacket (cwArgs cwNet) cwTm ((5 : UInt32) <<< 8) (cwDisk b!"Hello\n")).isSome = true ∧ cwDisk b!"Hello\n" (cwPath (cwArgs cwNet).dir ((5 : UInt32) <<< 8)) = none := by
  have hargs : cwArgs cwNet = cwNetArgs := by decide +kernel
  rw [hargs]
  refine ⟨by decide +kernel, ?_, by decide +kernel, by decide +kernel⟩
  intro f hf num e
  cases hf
  have := congrArg (fun l => l.head?) e
  revert this
  have h : mystrncpy [105, 110] 200 = [105, 110] := by decide
  simp [cwNetArgs, makeFullPath, h]

end Ex

end CM
