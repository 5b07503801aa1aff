import Verif.Lemmas.Nodelist
import Verif.Props.Strings
import Verif.Props.Node4D
import Verif.Model.Outbound
import Verif.Spec.Outbound
/-! # Lemmas about outbound names -/

set_option linter.unusedSimpArgs false

namespace CM

/-! ## Hexadecimal numbers -/

theorem hexW_length (w n : Nat) : (hexW w n).length = w := by
  induction w generalizing n with
  | zero => rfl
  | succ w ih => simp [hexW, ih]

theorem hexDigit_inj {a b : Nat} (ha : a < 16) (hb : b < 16) (h : hexDigit a = hexDigit b) : a = b := by
  have : ∀ a : Fin 16, ∀ b : Fin 16, hexDigit a.1 = hexDigit b.1 → a = b := by decide +kernel
  simpa using this ⟨a, ha⟩ ⟨b, hb⟩ h

theorem hexW_inj {w n m : Nat} (hn : n < 16 ^ w) (hm : m < 16 ^ w) (h : hexW w n = hexW w m) : n = m := by
  induction w generalizing n m with
  | zero => omega
  | succ w ih =>
    simp only [hexW] at h
    obtain ⟨h1, h2⟩ := List.append_inj' h rfl
    have h3 := ih (n := n / 16) (m := m / 16) (by omega) (by omega) h1
    have h4 := hexDigit_inj (Nat.mod_lt _ (by omega)) (Nat.mod_lt _ (by omega)) (by simpa using h2)
    omega

theorem hexDigit_slash (n : Nat) (h : n < 16) : hexDigit n ≠ 47 := by
  have : ∀ a : Fin 16, hexDigit a.1 ≠ 47 := by decide +kernel
  exact this ⟨n, h⟩

theorem hexW_slash (w n : Nat) : (47 : UInt8) ∉ hexW w n := by
  induction w generalizing n with
  | zero => simp [hexW]
  | succ w ih =>
    have := hexDigit_slash (n % 16) (Nat.mod_lt _ (by omega))
    simp [hexW, ih, Ne.symm this]

theorem hex3_inj {a b : UInt16} (h : hex3 a = hex3 b) : a = b := by
  have ha := a.toNat_lt
  have hb := b.toNat_lt
  apply UInt16.toNat_inj.1
  unfold hex3 at h
  split at h <;> split at h
  · exact hexW_inj (w := 3) (by omega) (by omega) h
  · have := congrArg List.length h; simp [hexW_length] at this
  · have := congrArg List.length h; simp [hexW_length] at this
  · exact hexW_inj (w := 4) (by omega) (by omega) h

theorem hex3_slash (a : UInt16) : (47 : UInt8) ∉ hex3 a := by
  unfold hex3; split <;> exact hexW_slash _ _

/-! ## Base names -/

/-- The last component of the directory of the outbound. -/
def lastPart (outbound : Str) : Str := getFilePart (if outbound.getLast? = some 47 then outbound.dropLast else outbound)

/-- What comes before it. -/
def headPart (outbound : Str) : Str :=
  let base := if outbound.getLast? = some 47 then outbound.dropLast else outbound
  base.take (base.length - (getFilePart base).length)

theorem parts (outbound : Str) :
    (if outbound.getLast? = some 47 then outbound.dropLast else outbound) = headPart outbound ++ lastPart outbound := by
  unfold headPart lastPart
  generalize (if outbound.getLast? = some 47 then outbound.dropLast else outbound) = base
  obtain ⟨h1, h2⟩ := (getFilePart_iff base _).1 rfl
  dsimp only
  rcases h2 with h2 | ⟨dir, h2⟩
  · rw [← h2]; simp
  · generalize getFilePart base = f at *
    subst h2
    have e : List.length (dir ++ [47] ++ f) - List.length f = List.length (dir ++ [47]) := by
      simp only [List.length_append]; omega
    rw [e, List.take_left' rfl]

theorem lastPart_slash (outbound : Str) : (47 : UInt8) ∉ lastPart outbound := getFilePart_no_dir _

/-- The directory for mail to an address. -/
inductive MailDir (cfg : Config) (n : Node4D) : Str → Str → Prop where
  | home (out : Str) (first : Aka) (hf : cfg.akas.head? = some first) (h : AtHome cfg n) (hz : n.zone = first.node.zone) :
      MailDir cfg n out (lastPart out)
  | zone (out : Str) (first : Aka) (hf : cfg.akas.head? = some first) (h : AtHome cfg n) (hz : n.zone ≠ first.node.zone) :
      MailDir cfg n out (lastPart out ++ 46 :: hex3 n.zone)
  | abroad (out d : Str) (h : Abroad cfg n d) : MailDir cfg n out d

theorem ownDomain_route (cfg : Config) (r : Route) : OwnDomain cfg r.aka (routeDomain cfg.akas r) := by
  unfold routeDomain OwnDomain
  split
  · rename_i a h
    have h1 := List.find?_some h
    exact .inl ⟨a, List.mem_of_find?_eq_some h, by simpa using h1, rfl⟩
  · rename_i h
    exact .inr ⟨fun k hk => by simpa using List.find?_eq_none.1 h k hk, rfl⟩

/-- The system's own addresses are distinct. -/
def DistinctAkas (cfg : Config) : Prop := (cfg.akas.map Aka.node).Nodup

theorem ownDomain_unique {cfg : Config} (h : DistinctAkas cfg) {a : Node4D} {d d' : Str} (h1 : OwnDomain cfg a d)
    (h2 : OwnDomain cfg a d') : d = d' := by
  have inj : ∀ {l : List Aka}, (l.map Aka.node).Nodup → ∀ {x y}, x ∈ l → y ∈ l → x.node = y.node → x = y := by
    intro l hl x y hx hy e
    induction l with
    | nil => simp at hx
    | cons z l ih =>
      simp only [List.map_cons, List.nodup_cons, List.mem_map, not_exists, not_and] at hl
      simp only [List.mem_cons] at hx hy
      rcases hx with rfl | hx <;> rcases hy with rfl | hy
      · rfl
      · exact absurd e.symm (hl.1 y hy)
      · exact absurd e (hl.1 x hx)
      · exact ih hl.2 hx hy
  rcases h1 with ⟨k, hk, e1, e2⟩ | ⟨h1, rfl⟩ <;> rcases h2 with ⟨k', hk', e1', e2'⟩ | ⟨h2, rfl⟩
  · rw [← e2, ← e2', inj h hk hk' (e1.trans e1'.symm)]
  · exact absurd e1 (h2 k hk)
  · exact absurd e1' (h1 k' hk')
  · rfl

theorem ite_ok {α : Type} {p : Prop} [Decidable p] {a x : α} {e : UB} (h : (if p then Except.ok a else .error e) = .ok x) :
    x = a := by
  split at h <;> simp_all

theorem makeBaseName_dir (cfg : Config) (hk : DistinctAkas cfg) (out : Str) (n : Node4D) (x : Str)
    (h : makeBaseName cfg out n = .ok x) :
    ∃ c, MailDir cfg n out c ∧ x = headPart out ++ (c ++ 47 :: (hexW 4 n.net.toNat ++ (hexW 4 n.node.toNat ++
      if n.point ≠ 0 then b!".pnt/" ++ hexW 8 n.point.toNat else []))) := by
  unfold makeBaseName at h
  cases hak : cfg.akas with
  | nil => rw [hak] at h; simp at h
  | cons first rest =>
    rw [hak] at h
    dsimp only at h
    have hfirst : cfg.akas.head? = some first := by rw [hak]; rfl
    replace h := ite_ok h
    subst h
    suffices hs : ∃ c, MailDir cfg n out c ∧ mailDirOf first (mailDomain cfg n) out n.zone = headPart out ++ c by
      obtain ⟨c, h1, h2⟩ := hs
      refine ⟨c, h1, ?_⟩
      rw [h2]
      by_cases hp : n.point = 0 <;> simp [hp]
    unfold mailDirOf mailDomain
    dsimp only
    have hp : (if out.getLast? = some 47 then out.dropLast else out).take
        ((if out.getLast? = some 47 then out.dropLast else out).length -
          (getFilePart (if out.getLast? = some 47 then out.dropLast else out)).length) = headPart out := rfl
    rw [hp, parts]
    have home : AtHome cfg n → ∃ c, MailDir cfg n out c ∧
        (if n.zone ≠ first.node.zone then headPart out ++ lastPart out ++ (46 :: hex3 n.zone)
          else headPart out ++ lastPart out) = headPart out ++ c := by
      intro hh
      by_cases hz : n.zone = first.node.zone
      · exact ⟨_, .home out first hfirst hh hz, by simp [hz]⟩
      · exact ⟨_, .zone out first hfirst hh hz, by simp [hz]⟩
    cases hr : cfg.findRoute n with
    | none =>
      refine home ?_
      rintro d ⟨r, f, h1, _⟩; rw [hr] at h1; simp at h1
    | some r =>
      simp only [Option.map_some, Option.getD_some]
      by_cases hd : sameDomain first (some (routeDomain cfg.akas r)) = true
      · simp only [hd, Bool.not_true, Bool.false_eq_true, if_false]
        refine home ?_
        rintro d ⟨r', f, h1, h2, h3, h4, h5, h6⟩
        rw [hr] at h1
        obtain rfl := Option.some.inj h1
        rw [hfirst] at h2
        obtain rfl := Option.some.inj h2
        have e := ownDomain_unique hk h3 (ownDomain_route cfg r)
        subst e
        simp [sameDomain, h4, h5, eqi, h6] at hd
      · have hd' := hd
        simp only [sameDomain, Bool.or_eq_true, not_or, beq_iff_eq, eqi] at hd'
        refine ⟨_, .abroad out (routeDomain cfg.akas r)
          ⟨r, first, hr, hfirst, ownDomain_route cfg r, hd'.1.1, hd'.1.2, hd'.2⟩, ?_⟩
        rw [Bool.not_eq_true] at hd
        simp only [hd, Bool.not_false, if_true]

theorem MailDir.slash {cfg : Config} {n : Node4D} {out c : Str} (hd : ∀ k ∈ cfg.akas, (47 : UInt8) ∉ k.domain)
    (h : MailDir cfg n out c) : (47 : UInt8) ∉ c := by
  cases h with
  | home => exact lastPart_slash out
  | zone => simp [lastPart_slash, hex3_slash]
  | abroad _ h =>
    obtain ⟨r, f, _, _, h3, _⟩ := h
    rcases h3 with ⟨k, hk, _, rfl⟩ | ⟨_, rfl⟩
    · exact hd k hk
    · simp

theorem MailDir.inv {cfg : Config} {n : Node4D} {out c : Str} (h : MailDir cfg n out c) :
    (AtHome cfg n ∧ ∃ first, cfg.akas.head? = some first ∧
      ((n.zone = first.node.zone ∧ c = lastPart out) ∨
        (n.zone ≠ first.node.zone ∧ c = lastPart out ++ 46 :: hex3 n.zone))) ∨ Abroad cfg n c := by
  cases h with
  | home first hf h hz => exact .inl ⟨h, first, hf, .inl ⟨hz, rfl⟩⟩
  | zone first hf h hz => exact .inl ⟨h, first, hf, .inr ⟨hz, rfl⟩⟩
  | abroad _ h => exact .inr h

theorem Abroad.unique {cfg : Config} (hk : DistinctAkas cfg) {n : Node4D} {d e : Str} (h : Abroad cfg n d)
    (h' : Abroad cfg n e) : d = e := by
  obtain ⟨r, f, h1, h2, h3, _⟩ := h
  obtain ⟨r', f', h1', h2', h3', _⟩ := h'
  rw [h1] at h1'
  obtain rfl := Option.some.inj h1'
  exact ownDomain_unique hk h3 h3'

theorem split_slash {a b x y : Str} (ha : (47 : UInt8) ∉ a) (hb : (47 : UInt8) ∉ b) (h : a ++ 47 :: x = b ++ 47 :: y) :
    a = b ∧ x = y := by
  induction a generalizing b with
  | nil =>
    cases b with
    | nil => simpa using h
    | cons c b => simp at h; simp [← h.1] at hb
  | cons c a ih =>
    cases b with
    | nil => simp at h; simp [h.1] at ha
    | cons c' b =>
      simp only [List.cons_append, List.cons.injEq] at h
      simp only [List.mem_cons, not_or] at ha hb
      obtain ⟨e1, e2⟩ := ih ha.2 hb.2 h.2
      exact ⟨by rw [h.1, e1], e2⟩

/-! ## Numbers of bundles -/

theorem hexVal_lower (c : UInt8) : hexVal (lower c) = hexVal c := by
  revert c; decide +kernel

theorem hextodecLoop_lower (s : Str) (r : UInt64) : hextodecLoop r (s.map lower) = hextodecLoop r s := by
  induction s generalizing r with
  | nil => rfl
  | cons c s ih =>
    simp only [List.map_cons, hextodecLoop, hexVal_lower]
    split
    · rfl
    · exact ih _

theorem hextodec_eqi {a b : Str} (h : eqi a b = true) : hextodec a = hextodec b := by
  unfold hextodec
  rw [← hextodecLoop_lower a, ← hextodecLoop_lower b, (eqi_iff a b).1 h]

theorem hextodecLoop_append (a b : Str) (r : UInt64) (h : ∀ c ∈ a, (hexVal c).isSome) :
    hextodecLoop r (a ++ b) = hextodecLoop (hextodecLoop r a) b := by
  induction a generalizing r with
  | nil => rfl
  | cons c a ih =>
    have hc := h c (by simp)
    obtain ⟨v, hv⟩ := Option.isSome_iff_exists.1 hc
    simp only [List.cons_append, hextodecLoop, hv]
    exact ih _ fun c' h' => h c' (by simp [h'])

theorem hexVal_hexDigit (n : Nat) (h : n < 16) : hexVal (hexDigit n) = some n := by
  have : ∀ a : Fin 16, hexVal (hexDigit a.1) = some a.1 := by decide +kernel
  exact this ⟨n, h⟩

theorem hexW_hex (w n : Nat) : ∀ c ∈ hexW w n, (hexVal c).isSome := by
  induction w generalizing n with
  | zero => simp [hexW]
  | succ w ih =>
    intro c hc
    simp only [hexW, List.mem_append, List.mem_singleton] at hc
    rcases hc with hc | rfl
    · exact ih _ c hc
    · simp [hexVal_hexDigit _ (Nat.mod_lt _ (by omega : 16 > 0))]

theorem hextodecLoop_hexW (w n : Nat) (h : n < 16 ^ w) (r : UInt64) :
    (hextodecLoop r (hexW w n)) = r * UInt64.ofNat (16 ^ w) + UInt64.ofNat n := by
  induction w generalizing n r with
  | zero =>
    have : n = 0 := by simpa using h
    subst this
    simp [hexW, hextodecLoop]
  | succ w ih =>
    simp only [hexW]
    rw [hextodecLoop_append _ _ _ (hexW_hex w _), ih (n / 16) (by omega)]
    simp only [hextodecLoop, hexVal_hexDigit _ (Nat.mod_lt _ (by omega : 16 > 0))]
    have e1 : UInt64.ofNat n = UInt64.ofNat (n / 16) * 16 + UInt64.ofNat (n % 16) := by
      conv => lhs; rw [show n = n / 16 * 16 + n % 16 by omega, UInt64.ofNat_add, UInt64.ofNat_mul]
      rfl
    have e2 : UInt64.ofNat (16 ^ (w + 1)) = UInt64.ofNat (16 ^ w) * 16 := by
      rw [Nat.pow_succ, UInt64.ofNat_mul]; rfl
    rw [e1, e2]
    generalize UInt64.ofNat (16 ^ w) = p
    generalize UInt64.ofNat (n / 16) = x
    generalize UInt64.ofNat (n % 16) = y
    grind

/-- The number of a bundle is the one in its name. -/
theorem hextodec_bundle (b : UInt32) (r : Str) : hextodec (hexW 8 b.toNat ++ 46 :: r) = b.toUInt64 := by
  unfold hextodec
  have hb := b.toNat_lt
  rw [hextodecLoop_append _ _ _ (hexW_hex _ _), hextodecLoop_hexW 8 _ (by omega)]
  simp only [hextodecLoop, show hexVal 46 = none by decide]
  apply UInt64.toNat_inj.1
  simp

end CM
