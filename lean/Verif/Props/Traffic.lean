import Verif.Model.Traffic
import Verif.Props.CrashStats
import Verif.Props.Reply
/-! # The traffic of an area in the lists AreaFix sends (C105) -/

set_option linter.unusedSimpArgs false
namespace CM

theorem weekTotal_eq (x : AreaStat) (n : Nat) : weekTotal x.last8 (n : Int) = ((List.range n).map fun i => x.ago (i + 1)).sum := rfl

/-- C105. What is shown for an area whose first message is not from 1970 or from the future: the number of messages a day, the same number
that CrashStats shows (C93). Missing: the number of KB a week, which the heading promises. -/
theorem traffic_daily_partial (day : UInt32) (x : AreaStat) (hg : GoodTime day x.firstTime) (hd : day.toNat < 2 ^ 31)
    (hf : 86400 ≤ x.firstTime.toNat) (ht : x.texts.toNat < 2 ^ 31) : weekText day x = dec (x.average day) := by
  obtain ⟨h1, h2⟩ := hg
  obtain ⟨h2, h3⟩ := h2.resolve_left (by omega)
  have f0 : x.firstTime ≠ 0 := by intro e; rw [e] at hf; exact absurd hf (by decide)
  have d0 : day ≠ 0 := by
    intro e; rw [e] at h2
    have : x.firstTime.toNat / 86400 ≤ 0 := h2
    omega
  have hlt : x.average day < 2 ^ 31 :=
    perDay_le _ _ _ _ 65535 (fun i => by have := ago_lt x i; omega) ht (by decide)
  have td : ((x.firstTime.toNat : Int)).tdiv 86400 = ((x.firstTime.toNat / 86400 : Nat) : Int) := by
    rw [Int.tdiv_eq_ediv_of_nonneg (by omega)]; rfl
  have key : (calcWeek day x).toNat = x.average day := by
    unfold calcWeek
    rw [if_neg (show ¬ (x.firstTime = 0 ∨ day = 0) from fun h => h.elim f0 d0), timeInt_small _ h1, td]
    unfold AreaStat.average perDay at hlt ⊢
    rw [if_neg (show ¬ x.firstTime.toNat < 86400 by omega)] at hlt ⊢
    generalize x.firstTime.toNat / 86400 = q at *
    have hall : intOf ((day.toNat : Int) - (q : Int)) = ((day.toNat - q : Nat) : Int) := by
      unfold intOf
      rw [if_pos (by omega)]
      omega
    simp only [hall] at hlt ⊢
    generalize day.toNat - q = age at *
    have hdays : (if (age : Int) > 7 then (7 : Int) else (age : Int)) = ((min age 7 : Nat) : Int) := by
      split <;> omega
    simp only [hdays, weekTotal_eq] at hlt ⊢
    generalize hsum : ((List.range (min age 7)).map fun i => x.ago (i + 1)).sum = sum at *
    have e1 : ∀ n : Nat, n < 65536 → (UInt32.ofInt (if (n : Int) = 0 then 1 else (n : Int))).toNat = max n 1 := by
      intro n hn
      have : (if (n : Int) = 0 then (1 : Int) else (n : Int)) = ((max n 1 : Nat) : Int) := by split <;> omega
      rw [this]
      show (UInt32.ofNat (((max n 1 : Nat) : Int) % 2 ^ 32).toNat).toNat = _
      rw [UInt32.toNat_ofNat']
      omega
    have e2 : ∀ n : Nat, n < 65536 → (UInt64.ofInt (if (n : Int) = 0 then 1 else (n : Int))).toNat = max n 1 := by
      intro n hn
      have : (if (n : Int) = 0 then (1 : Int) else (n : Int)) = ((max n 1 : Nat) : Int) := by split <;> omega
      rw [this]
      show (UInt64.ofNat (((max n 1 : Nat) : Int) % 2 ^ 64).toNat).toNat = _
      rw [UInt64.toNat_ofNat']
      omega
    by_cases hz : sum = 0
    · rw [if_pos hz]
      by_cases h0 : x.texts = 0
      · rw [if_neg (by rintro ⟨_, h⟩; exact h h0), hz, h0]
        simp
      · rw [if_pos ⟨hz, h0⟩, UInt32.toNat_div, e1 _ (by omega)]
    · rw [if_neg (by rintro ⟨h, _⟩; exact hz h), if_neg hz, e2 _ (by omega), UInt32.toNat_ofNat']
      rw [if_neg hz] at hlt
      exact Nat.mod_eq_of_lt (by omega)
  unfold weekText sdec
  rw [if_neg (fun e => by rw [e] at key; rw [← key] at hlt; exact absurd hlt (by decide)), if_pos (by omega), key]

/-- C105. An area without messages, or a system without statistics. -/
theorem traffic_unknown (day : UInt32) (x : AreaStat) (h : x.firstTime = 0 ∨ day = 0) : weekText day x = b!"?" := by
  unfold weekText calcWeek
  rw [if_pos h, if_pos rfl]

/-- The end of each line. -/
theorem Row.traffic {type : ListType} {e : ListEntry} {ls : List Str} (h : Row type e ls) :
    ∃ l, ls.getLast? = some l ∧ (List.replicate (8 - e.kb.length) 32 ++ e.kb.take 8) <:+ l := by
  obtain ⟨rest, rfl, (⟨-, rfl⟩ | ⟨-, rfl⟩)⟩ := h
  · exact ⟨_, rfl, ⟨entryMark type e :: (inColumn 28 e.tag ++ (b!"  " ++ inColumn 33 e.desc ++ b!"  ")), by simp⟩⟩
  · exact ⟨_, rfl, ⟨32 :: (List.replicate 28 32 ++ (b!"  " ++ inColumn 33 e.desc ++ b!"  ")), by simp⟩⟩

/-- C105. The lines of a list for the areas of the system: each ends with the number of messages a day. `stat` are the counters of the areas. -/
theorem traffic_listed_partial (env : Env) (day : UInt32) (stat : Area → AreaStat) (henv : env.weekKB = fun a => weekText day (stat a))
    (log : List Effect) (c : Config) (type : ListType) (ci : Nat) (cn : ConfigNode) (es : List ListEntry)
    (h : IsList env log c type ci cn es) (a : Area) (ha : a ∈ c.areas) (hl : Listed type ci cn a)
    (hg : GoodTime day (stat a).firstTime) (hd : day.toNat < 2 ^ 31) (hf : 86400 ≤ (stat a).firstTime.toNat)
    (ht : (stat a).texts.toNat < 2 ^ 31) :
    ∃ e ∈ es, e.tag = a.tag ∧ ∀ ls, Row type e ls → ∃ l, ls.getLast? = some l ∧
      (List.replicate (8 - (dec ((stat a).average day)).length) 32 ++ (dec ((stat a).average day)).take 8) <:+ l := by
  obtain ⟨-, f, fw, hab, hp, -⟩ := h
  refine ⟨f a, hp.mem_iff.2 (List.mem_append_left _ (List.mem_map.2 ⟨a, List.mem_filter.2 ⟨ha, by simpa using hl⟩, rfl⟩)), (hab a).tag, fun ls hr => ?_⟩
  have hk : (f a).kb = dec ((stat a).average day) := by
    rw [(hab a).kb, henv]
    exact traffic_daily_partial day (stat a) hg hd hf ht
  rw [← hk]
  exact hr.traffic

namespace Ex

/-- An area with 100 messages a day for ten days, and its line. -/
def busy : AreaStat :=
  { tag := b!"NET.A", type := .echomail, aka := none, texts := 1000
    last8 := #v[0, 100, 100, 100, 100, 100, 100, 100], firstTime := 1700000000, lastTime := 1700000000 }

/-- The hypotheses are met. -/
example : GoodTime 19685 busy.firstTime ∧ (19685 : UInt32).toNat < 2 ^ 31 ∧ 86400 ≤ busy.firstTime.toNat ∧ busy.texts.toNat < 2 ^ 31 :=
  ⟨by unfold GoodTime; decide, by decide, by decide, by decide⟩

/-- The full statement is violated: under the heading `KB/week` there is 100 for 700 messages in the last week, whatever their size. -/
theorem traffic_not_weekly : weekText 19685 busy = b!"100" ∧ ((List.range 7).map fun i => busy.ago (i + 1)).sum = 700 := by decide +kernel

/-- A message that comes in after midnight in a run that began before it: the first time is behind the day of the statistics, and one
message counts as none. -/
theorem traffic_midnight : weekText 19674 { busy with texts := 1, last8 := #v[1, 0, 0, 0, 0, 0, 0, 0] } = b!"0" := by decide +kernel

end Ex

end CM
