import Verif.Model.EngineRecord
import Verif.Data.Shipped
import Verif.Lemmas.NR
import Mathlib.Tactic.Linarith
import Mathlib.Tactic.Positivity

/-!
# C116: the derived entry `fuel_ch` of an engine record
-/

namespace Verif.Props
open Verif.Registry Verif.Tables Verif.Construct Verif.Data

theorem round8_near (x : ℝ) : |round8 x - x| ≤ 5e-9 := by
  have key : ∀ y : ℝ, |y - x * 10 ^ 8| ≤ 1 / 2 → |y / 10 ^ 8 - x| ≤ 5e-9 := by
    intro y h
    rw [abs_le] at h ⊢
    constructor
    · have : (-5e-9 : ℝ) = -(1 / 2) / 10 ^ 8 := by norm_num
      rw [this]
      have : y / 10 ^ 8 - x = (y - x * 10 ^ 8) / 10 ^ 8 := by field_simp
      rw [this]
      exact div_le_div_of_nonneg_right h.1 (by norm_num)
    · have : (5e-9 : ℝ) = (1 / 2) / 10 ^ 8 := by norm_num
      rw [this]
      have : y / 10 ^ 8 - x = (y - x * 10 ^ 8) / 10 ^ 8 := by field_simp
      rw [this]
      exact div_le_div_of_nonneg_right h.2 (by norm_num)
  have h0 := Int.floor_le (x * 10 ^ 8)
  have h1 := Int.lt_floor_add_one (x * 10 ^ 8)
  unfold round8
  apply key
  generalize x * 10 ^ 8 = y at *
  clear key
  split_ifs with a b c <;> rw [abs_le] <;> constructor <;> linarith

theorem round8_decimal (x : ℝ) : ∃ n : ℤ, round8 x = n / 10 ^ 8 ∧
    (|x * 10 ^ 8 - n| = 1 / 2 → n % 2 = 0) := by
  have h0 := Int.floor_le (x * 10 ^ 8)
  have h1 := Int.lt_floor_add_one (x * 10 ^ 8)
  unfold round8
  simp only
  split_ifs with a b c
  · refine ⟨_, rfl, fun h => ?_⟩
    rw [abs_of_nonneg (by linarith)] at h; linarith
  · refine ⟨⌊x * 10 ^ 8⌋ + 1, by push_cast; rfl, fun h => ?_⟩
    push_cast at h
    rw [abs_of_nonpos (by linarith)] at h; linarith
  · exact ⟨_, rfl, fun _ => c⟩
  · exact ⟨⌊x * 10 ^ 8⌋ + 1, by push_cast; rfl, fun _ => by omega⟩

/-- **C116.** Whatever else the row holds, an engine without a published cruise consumption gets
the constant `6.7e-7`; with one, `fuel_ch` is the nearest eight-decimal number (ties to even) to
the difference of cruise and take-off specific consumption, per metre of cruise altitude. -/
theorem C116_fuel_ch (e : EngineRow) :
    (e.cruiseSfc = none → fuelCh e = .val 6.7e-7) ∧
    (∀ s m a : ℕ, e.cruiseSfc = some s → e.maxThrust = some m → e.cruiseAlt = some a →
      0 < m → 0 < a → ∃ n : ℤ, fuelCh e = .val (n / 10 ^ 8) ∧
      ∀ x : ℝ, x = (real s - real e.ff.toff / (real m / 1000)) / (real a * 0.3048) →
        |n / 10 ^ 8 - x| ≤ 5e-9 ∧ (|x * 10 ^ 8 - n| = 1 / 2 → n % 2 = 0)) := by
  constructor
  · intro h
    unfold fuelCh cell
    rw [h]; rfl
  · intro s m a hs hm ha m0 a0
    have m1 : real m ≠ 0 := by
      have : (0 : ℝ) < m := by exact_mod_cast m0
      unfold real; positivity
    have a1 : real a ≠ 0 := by
      have : (0 : ℝ) < a := by exact_mod_cast a0
      unfold real; positivity
    have e1 : fuelCh e = .val (round8
        ((real s - real e.ff.toff / (real m / 1000)) / (real a * 0.3048))) := by
      unfold fuelCh cell
      rw [hs, hm, ha]
      simp only
      rw [show (1000.0 : NR) = .val 1000 by rw [NR.val_sci]; norm_num, NR.val_div _ _ (by norm_num),
        NR.val_div _ _ (by positivity), NR.val_sub, NR.val_sci, NR.val_mul,
        NR.val_div _ _ (by positivity), NR.map_val]
    obtain ⟨n, hn, ht⟩ := round8_decimal
      ((real s - real e.ff.toff / (real m / 1000)) / (real a * 0.3048))
    refine ⟨n, by rw [e1, hn], ?_⟩
    intro x hx
    subst hx
    refine ⟨?_, ht⟩
    rw [← hn]; exact round8_near _

/-- Row check in integer arithmetic. -/
def chOk (r : EngineRow) : Bool :=
  match r.cruiseSfc with
  | none => true
  | some s =>
    match r.maxThrust, r.cruiseAlt with
    | some m, some a =>
      decide (0 < m) && decide (0 < a) &&
      decide (m * a * 3048 * 465 + 10 ^ 32 * r.ff.toff < s * m * 10 ^ 13) &&
      decide (s * m * 10 ^ 13 < m * a * 3048 * 795 + 10 ^ 32 * r.ff.toff)
    | _, _ => false

theorem chOk_shipped : ∀ r ∈ shipped.engines, chOk r = true := by decide +kernel

/-- **C116.** Every engine of the shipped table has a `fuel_ch` that is a positive number between
`4.7e-7` and `7.9e-7`: consumption per thrust grows with altitude for all of them. Any request
that finds an engine therefore gets such a number. -/
theorem C116_shipped : (∀ r ∈ shipped.engines, ∃ y : ℝ, fuelCh r = .val y ∧
      4.7e-7 ≤ y ∧ y ≤ 7.9e-7) ∧
    ∀ q v, engineFuelCh shipped q = .ok v → ∃ y : ℝ, v = .val y ∧ 4.7e-7 ≤ y ∧ y ≤ 7.9e-7 := by
  have main : ∀ r ∈ shipped.engines, ∃ y : ℝ, fuelCh r = .val y ∧ 4.7e-7 ≤ y ∧ y ≤ 7.9e-7 := by
    intro r hr
    have hk := chOk_shipped r hr
    unfold chOk at hk
    cases hs : r.cruiseSfc with
    | none => exact ⟨6.7e-7, (C116_fuel_ch r).1 hs, by norm_num, by norm_num⟩
    | some s =>
      cases hm : r.maxThrust with
      | none => simp [hs, hm] at hk
      | some m =>
        cases ha : r.cruiseAlt with
        | none => simp [hs, hm, ha] at hk
        | some a =>
          rw [hs, hm, ha] at hk
          simp only [Bool.and_eq_true, decide_eq_true_eq] at hk
          obtain ⟨⟨⟨m0, a0⟩, lo⟩, hi⟩ := hk
          obtain ⟨n, hn, hx⟩ := (C116_fuel_ch r).2 s m a hs hm ha m0 a0
          obtain ⟨hnear, -⟩ := hx _ rfl
          have m1 : (0 : ℝ) < m := by exact_mod_cast m0
          have a1 : (0 : ℝ) < a := by exact_mod_cast a0
          have lo' : (m * a * 3048 * 465 + 10 ^ 32 * r.ff.toff : ℝ) < s * m * 10 ^ 13 := by
            exact_mod_cast lo
          have hi' : (s * m * 10 ^ 13 : ℝ) < m * a * 3048 * 795 + 10 ^ 32 * r.ff.toff := by
            exact_mod_cast hi
          have ex : (real s - real r.ff.toff / (real m / 1000)) / (real a * 0.3048) =
              (s * m * 10 ^ 13 - 10 ^ 32 * r.ff.toff) / (m * a * 3048) / 10 ^ 9 := by
            unfold real; field_simp; ring
          have l1 : 4.65e-7 < (real s - real r.ff.toff / (real m / 1000)) / (real a * 0.3048) := by
            rw [ex, lt_div_iff₀ (by norm_num), lt_div_iff₀ (by positivity)]
            norm_num at lo' ⊢; linarith
          have h1 : (real s - real r.ff.toff / (real m / 1000)) / (real a * 0.3048) < 7.95e-7 := by
            rw [ex, div_lt_iff₀ (by norm_num), div_lt_iff₀ (by positivity)]
            norm_num at hi' ⊢; linarith
          rw [abs_le] at hnear
          refine ⟨n / 10 ^ 8, hn, ?_, ?_⟩
          · have : (46 : ℝ) < n := by
              have := hnear.1
              norm_num at this l1 ⊢; linarith
            have : (46 : ℤ) < n := by exact_mod_cast this
            have : (47 : ℝ) ≤ n := by exact_mod_cast this
            norm_num; linarith
          · have : (n : ℝ) < 80 := by
              have := hnear.2
              norm_num at this h1 ⊢; linarith
            have : n < (80 : ℤ) := by exact_mod_cast this
            have : (n : ℝ) ≤ 79 := by exact_mod_cast (by omega : n ≤ 79)
            norm_num; linarith
  refine ⟨main, ?_⟩
  intro q v h
  unfold engineFuelCh at h
  cases he : Registry.engine shipped q with
  | error x => rw [he] at h; cases h
  | ok r =>
    rw [he] at h
    have hv : fuelCh r.1 = v := by injection h
    have hr : r.1 ∈ shipped.engines := by
      unfold Registry.engine at he
      simp only at he
      split at he
      · cases he
      · next r0 l hl =>
        cases he
        exact (List.mem_filter.1 (hl ▸ List.mem_cons_self ..)).1
    rw [← hv]; exact main _ hr

/-- Both kinds of engine exist in the shipped table. -/
example : (∃ r ∈ shipped.engines, r.cruiseSfc = none) ∧
    ∃ r ∈ shipped.engines, ∃ s m a, r.cruiseSfc = some s ∧ r.maxThrust = some m ∧
      r.cruiseAlt = some a ∧ 0 < m ∧ 0 < a := by
  refine ⟨⟨shipped.engines.headD ⟨[], none, none, none, none, none, none, ⟨0, 0, 0, 0⟩, ⟨0, 0, 0, 0⟩,
    ⟨0, 0, 0, 0⟩, ⟨0, 0, 0, 0⟩⟩, by decide +kernel, by decide +kernel⟩, ?_⟩
  refine ⟨(shipped.engines.drop 1).headD ⟨[], none, none, none, none, none, none, ⟨0, 0, 0, 0⟩,
    ⟨0, 0, 0, 0⟩, ⟨0, 0, 0, 0⟩, ⟨0, 0, 0, 0⟩⟩, by decide +kernel, 232000000000000,
    165000000000000000000, 400000000000000000000, ?_⟩
  decide +kernel

end Verif.Props
