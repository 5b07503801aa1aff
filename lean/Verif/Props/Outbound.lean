import Verif.Lemmas.Outbound
import Verif.Lemmas.Example
/-! # C38, C39, C40: names in the outbound -/

set_option linter.unusedSimpArgs false

namespace CM

/-! ## C39: base names -/

/-- **C39 (partial).** If two addresses have the same base name for flow and lock files, they have the
same net, node and point; and they have the same zone if mail to both is sent in the domain of the
system's first address. Missing: in other domains the name does not contain the zone
(`Ex.foreign_zones`), and a domain may be called like the directory of the outbound. -/
theorem basename_unique_partial (cfg : Config) (hk : DistinctAkas cfg) (hd : ∀ k ∈ cfg.akas, (47 : UInt8) ∉ k.domain)
    (out : Str) (a b : Node4D) (x : Str) (ha : makeBaseName cfg out a = .ok x) (hb : makeBaseName cfg out b = .ok x) :
    a.net = b.net ∧ a.node = b.node ∧ a.point = b.point ∧
    (AtHome cfg a → AtHome cfg b → a.zone = b.zone) ∧
    (∀ d e, Abroad cfg a d → Abroad cfg b e → d = e) ∧
    (AtHome cfg a → ∀ e, Abroad cfg b e → e = lastPart out ∨ e = lastPart out ++ 46 :: hex3 a.zone) := by
  obtain ⟨ca, da, ea⟩ := makeBaseName_dir cfg hk out a x ha
  obtain ⟨cb, db, eb⟩ := makeBaseName_dir cfg hk out b x hb
  rw [ea] at eb
  obtain ⟨e1, e2⟩ := split_slash (da.slash hd) (db.slash hd) (List.append_cancel_left eb)
  obtain ⟨e3, e2⟩ := List.append_inj e2 (by simp [hexW_length])
  obtain ⟨e4, e5⟩ := List.append_inj e2 (by simp [hexW_length])
  subst e1
  have hnet : a.net = b.net := UInt16.toNat_inj.1 (hexW_inj (w := 4) (by have := a.net.toNat_lt; omega) (by have := b.net.toNat_lt; omega) e3)
  have hnode : a.node = b.node := UInt16.toNat_inj.1 (hexW_inj (w := 4) (by have := a.node.toNat_lt; omega) (by have := b.node.toNat_lt; omega) e4)
  have hpoint : a.point = b.point := by
    by_cases h1 : a.point = 0 <;> by_cases h2 : b.point = 0 <;> simp [h1, h2] at e5
    · rw [h1, h2]
    · exact UInt16.toNat_inj.1 (hexW_inj (w := 8) (by have := a.point.toNat_lt; omega) (by have := b.point.toNat_lt; omega) e5)
  refine ⟨hnet, hnode, hpoint, fun ga gb => ?_, fun d e ga gb => ?_, fun ga e gb => ?_⟩
  · rcases da.inv with ⟨_, f, hf, h1⟩ | h1
    · rcases db.inv with ⟨_, f', hf', h2⟩ | h2
      · rw [hf] at hf'
        obtain rfl := Option.some.inj hf'
        rcases h1 with ⟨z1, c1⟩ | ⟨z1, c1⟩ <;> rcases h2 with ⟨z2, c2⟩ | ⟨z2, c2⟩
        · rw [z1, z2]
        · rw [c1] at c2; simp at c2
        · rw [c1] at c2; simp at c2
        · rw [c1] at c2
          have := List.append_cancel_left c2
          exact hex3_inj (by simpa using this)
      · exact absurd h2 (gb _)
    · exact absurd h1 (ga _)
  · rcases da.inv with ⟨h1, _⟩ | h1
    · exact absurd ga (h1 d)
    · rcases db.inv with ⟨h2, _⟩ | h2
      · exact absurd gb (h2 e)
      · exact (Abroad.unique hk ga h1).trans (Abroad.unique hk h2 gb)
  · rcases da.inv with ⟨_, f, hf, h1⟩ | h1
    · rcases db.inv with ⟨h2, _⟩ | h2
      · exact absurd gb (h2 e)
      · have := Abroad.unique hk gb h2
        rcases h1 with ⟨z1, c1⟩ | ⟨z1, c1⟩
        · exact .inl (this.trans c1)
        · exact .inr (this.trans c1)
    · exact absurd h1 (ga _)

/-- **C39 (partial).** In a system with one domain, two different addresses never share a flow file, a
lock file or a packet of unpacked netmail. -/
theorem outbound_files_unique_partial (cfg : Config) (hk : DistinctAkas cfg) (hd : ∀ k ∈ cfg.akas, (47 : UInt8) ∉ k.domain)
    (hh : ∀ n, AtHome cfg n) (out : Str) (a b : Node4D) (hab : a ≠ b) (x y : Str) (ha : makeBaseName cfg out a = .ok x)
    (hb : makeBaseName cfg out b = .ok y) (t u : UInt8) :
    lockName x ≠ lockName y ∧ flowFile x t ≠ flowFile y u ∧ outFile x t ≠ outFile y u := by
  have ne : x ≠ y := by
    rintro rfl
    obtain ⟨h1, h2, h3, h4, _⟩ := basename_unique_partial cfg hk hd out a b x ha hb
    have h4 := h4 (hh a) (hh b)
    exact hab (by cases a; cases b; simp_all)
  refine ⟨fun h => ne ?_, fun h => ne ?_, fun h => ne ?_⟩
  · exact (List.append_inj' h rfl).1
  · exact (List.append_inj' h rfl).1
  · exact (List.append_inj' h rfl).1

/-- The names have the expected form and fit their buffer when the directory has at most 99
characters and the domains at most 19, as in a configuration file. -/
theorem basename_ok (cfg : Config) (out : Str) (n : Node4D) (hk : cfg.akas ≠ []) (ho : out.length ≤ 99)
    (hd : ∀ k ∈ cfg.akas, k.domain.length ≤ 19) : ∃ x, makeBaseName cfg out n = .ok x := by
  have hdom : ((mailDomain cfg n).getD []).length ≤ 19 := by
    unfold mailDomain
    cases cfg.findRoute n with
    | none => simp
    | some r =>
      simp only [Option.map_some, Option.getD_some]
      unfold routeDomain
      split
      · rename_i a h; exact hd a (List.mem_of_find?_eq_some h)
      · simp
  unfold makeBaseName
  cases hak : cfg.akas with
  | nil => exact absurd hak hk
  | cons first rest =>
    dsimp only
    have hdir : (mailDirOf first (mailDomain cfg n) out n.zone).length ≤ 118 := by
      unfold mailDirOf
      have hb : (if out.getLast? = some 47 then out.dropLast else out).length ≤ 99 := by
        split
        · rw [List.length_dropLast]; omega
        · exact ho
      have h3 : (hex3 n.zone).length ≤ 4 := by unfold hex3; split <;> simp [hexW_length]
      dsimp only
      generalize (if out.getLast? = some 47 then out.dropLast else out) = base at *
      generalize (mailDomain cfg n) = dom at *
      split
      · rw [List.length_append, List.length_take]; omega
      · split
        · rw [List.length_append, List.length_cons]; omega
        · omega
    generalize mailDirOf first (mailDomain cfg n) out n.zone = dir at *
    rw [if_pos]
    · exact ⟨_, rfl⟩
    · split <;> simp [hexW_length] <;> omega

namespace Ex

/-- A system in fidonet and othernet. -/
def twoNets : Config :=
  { cfg [] with
    akas := [{ node := ⟨2, 200, 300, 0⟩, domain := b!"fidonet" }, { node := ⟨99, 1, 1, 0⟩, domain := b!"othernet" }]
    routes := [⟨⟨.pattern, b!"9?", b!"*", b!"*", b!"*"⟩, ⟨.pattern, b!"*", b!"*", b!"*", b!"*"⟩, ⟨99, 1, 1, 0⟩⟩] }

example : (twoNets.akas.map Aka.node).Nodup ∧ (∀ k ∈ twoNets.akas, (47 : UInt8) ∉ k.domain) ∧
    makeBaseName twoNets b!"/var/out/" ⟨2, 201, 301, 0⟩ = .ok b!"/var/out/00c9012d" ∧
    makeBaseName twoNets b!"/var/out" ⟨1, 201, 301, 5⟩ = .ok b!"/var/out.001/00c9012d.pnt/00000005" ∧
    makeBaseName twoNets b!"/var/out" ⟨99, 1, 2, 0⟩ = .ok b!"/var/othernet/00010002" := by
  refine ⟨by decide +kernel, by decide +kernel, by decide +kernel, by decide +kernel, by decide +kernel⟩

/-- C39 (violated). Two nodes of different zones of another domain share their files. -/
theorem foreign_zones : makeBaseName twoNets b!"/var/out" ⟨99, 1, 2, 0⟩ = .ok b!"/var/othernet/00010002" ∧
    makeBaseName twoNets b!"/var/out" ⟨98, 1, 2, 0⟩ = .ok b!"/var/othernet/00010002" := by
  constructor <;> decide +kernel

end Ex

end CM
