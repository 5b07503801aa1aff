import Verif.Spec.MsgRescan
import Verif.Props.MsgKeep
import Verif.Lemmas.Rescan
/-! # Lemmas: sending messages of a *.msg area again -/

set_option linter.unusedSimpArgs false

namespace CM

section
variable {w : World} {α β : Type} {I J : FS → Prop} {Q : α → FS → Prop}

theorem Sure.intro {p : Prog α} {fs : FS} (h1 : I fs) (h2 : ∀ a, p = .ret a → Q a fs) (h3 : ∀ u, p ≠ .ub u) (h4 : p ≠ .stuck)
    (hs : ∀ p' fs', Step w p fs p' fs' → Sure w I Q p' fs') : Sure w I Q p fs := by
  intro p' fs' hr
  cases hr with
  | here => exact ⟨h1, h2, h3, h4⟩
  | step s r => exact hs _ _ s _ _ r

theorem Sure.ret {a : α} {fs : FS} (h1 : I fs) (h2 : Q a fs) : Sure w I Q (.ret a) fs :=
  .intro h1 (fun b e => by cases e; exact h2) (fun u e => nomatch e) (fun e => nomatch e) fun _ _ s => nomatch s

theorem Sure.mono {R : α → FS → Prop} {p : Prog α} {fs : FS} (h : Sure w I Q p fs) (hI : ∀ fs, I fs → J fs) (hQ : ∀ a fs, I fs → Q a fs → R a fs) : Sure w J R p fs :=
  fun p' fs' hr => ⟨hI _ (h p' fs' hr).1, fun a e => hQ _ _ (h p' fs' hr).1 ((h p' fs' hr).2.1 a e), (h p' fs' hr).2.2⟩

theorem Sure.read {f : Str} {k : Option Data → Prog α} {fs : FS} (h1 : I fs) (hok : ∀ d, fs f = some d → Sure w I Q (k (some d)) fs)
    (hf : fs f = none ∨ w.openFails → Sure w I Q (k none) fs) : Sure w I Q (.read f k) fs := by
  refine .intro h1 (fun _ e => nomatch e) (fun u e => nomatch e) (fun e => nomatch e) fun p' fs' s => ?_
  cases s with
  | readOk _ _ _ d h => exact hok d h
  | readFail _ _ _ h => exact hf h

theorem Sure.list {dir : Str} {acc : Str → Bool} {k : Option (List FileEntry) → Prog α} {fs : FS} (h1 : I fs)
    (hok : ∀ es, DirList fs dir acc es → Sure w I Q (k (some es)) fs) (hf : w.listFails → Sure w I Q (k none) fs) : Sure w I Q (.list dir acc k) fs := by
  refine .intro h1 (fun _ e => nomatch e) (fun u e => nomatch e) (fun e => nomatch e) fun p' fs' s => ?_
  cases s with
  | listOk _ _ _ _ es h => exact hok es h
  | listFail _ _ _ _ h => exact hf h

theorem Sure.sleep {k : Bool → Prog α} {fs : FS} (h1 : I fs) (h : ∀ b, Sure w I Q (k b) fs) : Sure w I Q (.sleep k) fs := by
  refine .intro h1 (fun _ e => nomatch e) (fun u e => nomatch e) (fun e => nomatch e) fun p' fs' s => ?_
  cases s; exact h _

theorem Prog.bind_stuck {p : Prog α} {h : α → Prog β} (e : p.bind h = .stuck) (hp : ∀ a, p ≠ .ret a) : p = .stuck := by
  cases p with
  | ret a => exact absurd rfl (hp a)
  | stuck => rfl
  | _ => simp [Prog.bind] at e

theorem Sure.bind {S : β → FS → Prop} {p : Prog α} {h : α → Prog β} {fs : FS} (hp : Sure w I Q p fs)
    (hh : ∀ a gs, I gs → Q a gs → Sure w I S (h a) gs) : Sure w I S (p.bind h) fs := by
  intro b fs' hr
  rcases hr.bind_inv with ⟨p', h1, h2, h3⟩ | ⟨a, gs, h1, h2⟩
  · obtain ⟨e1, e2, e3, e4⟩ := hp _ _ h1
    subst h2
    refine ⟨e1, fun a e => ?_, fun u e => ?_, fun e => ?_⟩
    · obtain ⟨a', e'⟩ := Prog.bind_ret e; exact absurd e' (h3 a')
    · exact absurd (Prog.bind_ub e h3) (e3 u)
    · exact absurd (Prog.bind_stuck e h3) e4
  · exact hh a gs (hp _ _ h1).1 ((hp _ _ h1).2.1 a rfl) _ _ h2
end

/-- What a message is read as in a rescan. -/
def msgLoads (o : MsgOpt) (a : Area) (aka : Node4D) (num : UInt32) (d : Data) (mm : MemMsg) : Prop :=
  ∃ rd, msgReadLoop o aka true (d.take 190) (d.length + 1) { mm := storedHeader a (d.take 190) } (d.drop 190) = .ret rd ∧ mm = { rd.mm with msgnum := num, flags := rd.mm.flags ||| 1 }

/-! ## What is read belongs to the area -/

theorem addLineP_keepsTag {m m' : MemMsg} {l : Str} (h : addLineP m l = .ret m') : KeepsTag m m' := by
  unfold addLineP at h
  split at h
  · cases h
  · cases h
  · rename_i q hq; cases h; exact mmAddLine_keepsTag hq

theorem KeepsTag.rfl' {m : MemMsg} : KeepsTag m m := .of rfl rfl rfl

theorem addIf_keepsTag {b : Bool} {m m' : MemMsg} {l : Str} (h : addIf b m l = .ret m') : KeepsTag m m' := by
  unfold addIf at h
  split at h
  · exact addLineP_keepsTag h
  · cases h; exact .rfl'

theorem pbind_ret {α β : Type} {p : Prog α} {h : α → Prog β} {b : β} (e : p.bind h = .ret b) : ∃ a, p = .ret a ∧ h a = .ret b := by
  obtain ⟨a, rfl⟩ := Prog.bind_ret e
  exact ⟨a, rfl, e⟩

theorem addZones_keepsTag {o : MsgOpt} {aka : Node4D} {d : Data} {m m' : MemMsg} (h : addZones o aka d m = .ret m') : KeepsTag m m' := by
  unfold addZones at h
  obtain ⟨e1, e2, e3⟩ := addIf_keepsTag h
  exact ⟨e1, e2, e3⟩

theorem addKludges_keepsTag {o : MsgOpt} {aka : Node4D} {rescan : Bool} {d : Data} {m : MemMsg} {x : MemMsg × Bool} (h : addKludges o aka rescan d m = .ret x) : KeepsTag m x.1 := by
  unfold addKludges at h
  simp only [Prog.bind_eq] at h
  obtain ⟨m1, h1, h⟩ := pbind_ret h
  obtain ⟨m2, h2, h⟩ := pbind_ret h
  have k := (addIf_keepsTag h1).trans (addIf_keepsTag h2)
  split at h
  · obtain ⟨m3, h3, h⟩ := pbind_ret h
    cases h
    exact k.trans (addZones_keepsTag h3)
  · cases h; exact k

theorem kludgeTurn_keepsTag {o : MsgOpt} {aka : Node4D} {rescan : Bool} {d : Data} {l : Str} {r r' : MsgReading} (h : kludgeTurn o aka rescan d l r = .ret r') : KeepsTag r.mm r'.mm := by
  unfold kludgeTurn at h
  split at h
  · simp only [Prog.bind_eq] at h
    obtain ⟨x, h1, h⟩ := pbind_ret h
    cases h
    exact addKludges_keepsTag h1
  · cases h; exact .rfl'

theorem msgReadLoop_keepsTag {o : MsgOpt} {aka : Node4D} {rescan : Bool} {d : Data} : ∀ (fuel : Nat) {r r' : MsgReading} {t : Data},
    msgReadLoop o aka rescan d fuel r t = .ret r' → KeepsTag r.mm r'.mm
  | 0, _, _, _, h => by cases h
  | fuel + 1, r, r', t, h => by
    unfold msgReadLoop at h
    simp only [Prog.bind_eq] at h
    obtain ⟨r1, h1, h⟩ := pbind_ret h
    obtain ⟨m1, h2, h⟩ := pbind_ret h
    have k := (kludgeTurn_keepsTag h1).trans (addIf_keepsTag h2)
    split at h
    · cases h; exact k
    · exact k.trans (msgReadLoop_keepsTag fuel h)

/-- A message read from an area carries the tag of the area, and its SEEN-BY and PATH are well-formed. -/
theorem msgLoads_tag {o : MsgOpt} {a : Area} {aka : Node4D} {num : UInt32} {d : Data} {mm : MemMsg} (h : msgLoads o a aka num d mm) :
    mm.area = (if a.type = .netmail then [] else a.tag) ∧ Blocks mm.seenBy ∧ PathOK mm.path := by
  obtain ⟨rd, h1, rfl⟩ := h
  obtain ⟨e1, e2, e3⟩ := msgReadLoop_keepsTag _ h1
  exact ⟨e1, e2 (by simp [Blocks, storedHeader]), e3 (by simp [PathOK, storedHeader])⟩

/-! ## The loop -/

section
variable {w : World} {o : MsgOpt} {junk : Nat → UInt8} {handle : MsgHandler} {i : Nat} {a : Area} {aka : Node4D}

/-- The export of one message in a rescan. -/
theorem exportNum_sure (hw : ¬ w.openFails) (hd : DirName a.path) (hh : KeepsArea w handle i a.path) {io : Bool} {st : MsgSt} {r : MsgRec} {num : UInt32} {fs : FS} (hr : st i = some r)
    (hload : ∀ f, fs (msgFile a.path num.toNat) = some f → 190 ≤ f.length → ∃ mm, msgLoads o a aka num f mm) :
    Sure w (fun fs' => ∀ n, fs' (msgFile a.path n) = fs (msgFile a.path n))
      (fun x _ => x.st i = some r ∧ ((x.ok = true ∧ x.sent = [] ∧ ¬ MsgThere fs a.path num.toNat) ∨ (x.ok = false ∧ x.sent = []) ∨
        (x.ok = true ∧ ∃ f mm, fs (msgFile a.path num.toNat) = some f ∧ 190 ≤ f.length ∧ msgLoads o a aka num f mm ∧ x.sent = [(num, mm)])))
      (msgExportNum o junk handle io st i a aka true num) fs := by
  unfold msgExportNum msgGetArea readFile
  simp only [Prog.bind_eq, hr, Prog.bind, Bool.not_true, Bool.false_eq_true, if_false]
  rw [msgPath_eq hd]
  refine .read (fun _ => rfl) ?_ ?_
  · intro f hf
    dsimp only
    split
    · next hlt =>
      refine .ret (fun _ => rfl) ⟨hr, .inl ⟨rfl, rfl, ?_⟩⟩
      rintro ⟨d, h1, h2⟩
      rw [hf] at h1; cases h1; omega
    · next hlt =>
      have hl : 190 ≤ f.length := by omega
      obtain ⟨mm, hm⟩ := hload f hf hl
      obtain ⟨rd, h1, h2⟩ := id hm
      simp only [Bool.false_and, Bool.false_eq_true, if_false, h1, Prog.bind]
      unfold msgHand handed
      simp only [Prog.bind_eq]
      refine Sure.bind (hh _ _ _) ?_
      rintro ⟨ok, m, st'⟩ gs hI hst
      dsimp only at hst ⊢
      cases ok with
      | false =>
        simp only [Bool.not_false, if_true]
        exact .ret hI ⟨hst.trans hr, .inr (.inl ⟨rfl, rfl⟩)⟩
      | true =>
        simp only [Bool.not_true, Bool.false_eq_true, if_false, if_true]
        exact .ret hI ⟨hst.trans hr, .inr (.inr ⟨rfl, f, mm, hf, hl, hm, by rw [h2]; rfl⟩)⟩
  · rintro (h | h)
    · refine .ret (fun _ => rfl) ⟨hr, .inl ⟨rfl, rfl, ?_⟩⟩
      rintro ⟨d, h1, h2⟩; rw [h] at h1; cases h1
    · exact absurd h hw

theorem MsgResent.step {load : UInt32 → Data → MemMsg → Prop} {fs : FS} {dir : Str} {first : Nat} {num : UInt32} {s : List (UInt32 × MemMsg)} (h : MsgResent load fs dir first num.toNat s)
    (hn : ¬ MsgThere fs dir num.toNat) : MsgResent load fs dir first (num.toNat + 1) s := by
  refine ⟨h.order, fun n => ?_, h.what⟩
  rw [h.which]
  constructor
  · rintro ⟨e1, e2, e3, e4⟩; exact ⟨e1, e2, by omega, e4⟩
  · rintro ⟨e1, e2, e3, e4⟩
    have : n ≠ num.toNat := by rintro rfl; exact hn e4
    exact ⟨e1, e2, by omega, e4⟩

theorem MsgResent.add {load : UInt32 → Data → MemMsg → Prop} {fs : FS} {dir : Str} {first : Nat} {num : UInt32} {s : List (UInt32 × MemMsg)} (h : MsgResent load fs dir first num.toNat s)
    {f : Data} {mm : MemMsg} (h2 : 2 ≤ num.toNat) (h3 : first ≤ num.toNat) (hf : fs (msgFile dir num.toNat) = some f) (hl : 190 ≤ f.length) (hm : load num f mm) :
    MsgResent load fs dir first (num.toNat + 1) (s ++ [(num, mm)]) := by
  refine ⟨?_, fun n => ?_, fun p hp => ?_⟩
  · rw [List.map_append, List.pairwise_append]
    refine ⟨h.order, by simp, fun x hx y hy => ?_⟩
    simp only [List.map_cons, List.map_nil, List.mem_singleton] at hy
    subst hy
    exact ((h.which x).1 hx).2.2.1
  · rw [List.map_append, List.mem_append, h.which]
    simp only [List.map_cons, List.map_nil, List.mem_singleton]
    constructor
    · rintro (⟨e1, e2, e3, e4⟩ | rfl)
      · exact ⟨e1, e2, by omega, e4⟩
      · exact ⟨h2, h3, by omega, f, hf, hl⟩
    · rintro ⟨e1, e2, e3, e4⟩
      by_cases e : n = num.toNat
      · exact .inr e
      · exact .inl ⟨e1, e2, by omega, e4⟩
  · rcases List.mem_append.1 hp with hp | hp
    · exact h.what p hp
    · rw [List.mem_singleton] at hp
      subst hp
      exact ⟨f, hf, hm⟩

theorem MsgThere.congr {fs gs : FS} {dir : Str} (h : ∀ n, gs (msgFile dir n) = fs (msgFile dir n)) (n : Nat) : MsgThere gs dir n ↔ MsgThere fs dir n := by
  unfold MsgThere; rw [h]

theorem msgReloop_sure (hw : ¬ w.openFails) (hd : DirName a.path) (hh : KeepsArea w handle i a.path) {fs0 : FS} {r : MsgRec} {first : Nat} (hb : r.high.toNat + 1 < 2 ^ 32)
    (hload : ∀ (num : UInt32) f, 2 ≤ num.toNat → fs0 (msgFile a.path num.toNat) = some f → 190 ≤ f.length → ∃ mm, msgLoads o a aka num f mm) :
    ∀ fuel io st (start : UInt32) done fs, st i = some r → 2 ≤ start.toNat → first ≤ start.toNat → start.toNat ≤ r.high.toNat + 1 → r.high.toNat + 2 ≤ start.toNat + fuel →
      MsgResent (msgLoads o a aka) fs0 a.path first start.toNat done → (∀ n, fs (msgFile a.path n) = fs0 (msgFile a.path n)) →
      Sure w (fun fs' => ∀ n, fs' (msgFile a.path n) = fs0 (msgFile a.path n))
        (fun x _ => x.st i = some r ∧ ∃ stop, stop ≤ r.high.toNat + 1 ∧ (x.ok = true → stop = r.high.toNat + 1) ∧ MsgResent (msgLoads o a aka) fs0 a.path first stop x.sent)
        (msgLoop o junk handle i a aka true fuel io st start done) fs := by
  intro fuel
  induction fuel with
  | zero => intro io st start done fs _ _ _ h1 h2; omega
  | succ fuel ih =>
    intro io st start done fs hr h2 h3 hle hfu hE hfs
    unfold msgLoop pollCtrlC
    simp only [Prog.bind_eq, hr, Option.getD_some, Prog.bind]
    split
    · next hlt =>
      have hlt := UInt32.le_iff_toNat_le.1 hlt
      refine .sleep hfs fun c => ?_
      cases c with
      | true =>
        simp only [if_true]
        exact .ret hfs ⟨hr, _, hle, fun h => (by cases h), hE⟩
      | false =>
        simp only [Bool.false_eq_true, if_false]
        refine Sure.bind ((exportNum_sure hw hd hh hr (fun f hf hl => hload start f h2 ((hfs _).symm.trans hf) hl)).mono (fun gs hg n => (hg n).trans (hfs n)) fun _ _ _ h => h) ?_
        rintro x gs hI ⟨hx, hc⟩
        have hs1 : (start + 1).toNat = start.toNat + 1 := by
          rw [UInt32.toNat_add]; show (start.toNat + 1) % 2 ^ 32 = _; omega
        rcases hc with ⟨e1, e2, e3⟩ | ⟨e1, e2⟩ | ⟨e1, f, mm, e3, e4, e5, e6⟩
        · rw [e1, e2, List.append_nil]
          simp only [Bool.not_true, Bool.false_eq_true, if_false]
          refine ih _ _ _ _ _ hx (by omega) (by omega) (by omega) (by omega) ?_ hI
          rw [hs1]
          exact hE.step fun h => e3 ((MsgThere.congr hfs _).2 h)
        · rw [e1, e2, List.append_nil]
          simp only [Bool.not_false, if_true]
          exact .ret hI ⟨hx, _, hle, fun h => (by simp at h), hE⟩
        · rw [e1, e6]
          simp only [Bool.not_true, Bool.false_eq_true, if_false]
          refine ih _ _ _ _ _ hx (by omega) (by omega) (by omega) (by omega) ?_ hI
          rw [hs1]
          exact hE.add h2 h3 ((hfs _).symm.trans e3) e4 e5
    · next hlt =>
      have hlt : ¬ start.toNat ≤ r.high.toNat := fun h => hlt (UInt32.le_iff_toNat_le.2 h)
      exact .sleep hfs fun c => .ret hfs ⟨hr, _, hle, fun _ => by omega, hE⟩
end

end CM
