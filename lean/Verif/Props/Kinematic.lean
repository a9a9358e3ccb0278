import Verif.Model.Kinematic
import Verif.Lemmas.Construct

/-!
# C84: kinematic queries on the shipped tables
-/

namespace Verif.Props
open Verif Verif.Tables Verif.Registry Verif.Kinematic
open Verif.Data (shipped)

/-- The three table entries whose default lies outside their own bounds: the maximum cruise
altitude of the A333, the initial cruise altitude of the B737 and the cruise range of the
B752. -/
def wrapOutliers : List (Str × Str) :=
  [([97, 51, 51, 51], cruiseMaxAlt), ([98, 55, 51, 55], cruiseInitAlt),
   ([98, 55, 53, 50], cruiseRange)]

/-- **C84.** For every offered type code the kinematic model constructs and every query method
returns; minimum and maximum are in order; the default lies between them unless the table
used is one of three named outliers, for which it does not; climb rates are positive, descent
rates negative, and all speeds, altitudes and distances positive. -/
theorem C84_kinematic_queries :
    (∀ ac ∈ availableAircraft shipped true, ∃ file w, (file, w) ∈ shipped.wrap ∧
      Construct.wrap shipped ac none = .ok w ∧
      ∀ v ∈ queries, ∃ r, getVar w v = .ok r ∧ wreal r.min ≤ wreal r.max ∧
        ((file, v) ∉ wrapOutliers ↔ (wreal r.min ≤ wreal r.opt ∧ wreal r.opt ≤ wreal r.max)) ∧
        (v ∈ [descentVsConmach, descentVsConcas, descentVsPostConcas, finalappVs,
            landingAcceleration] → wreal r.opt < 0) ∧
        (v ∉ [descentVsConmach, descentVsConcas, descentVsPostConcas, finalappVs,
            landingAcceleration] → 0 < wreal r.opt)) ∧
    ∀ o ∈ wrapOutliers, o.1 ∈ availableAircraft shipped false := by
  have wle : ∀ a b : ℤ, wreal a ≤ wreal b ↔ a ≤ b := by
    intro a b
    unfold wreal
    rw [div_le_div_iff_of_pos_right (by norm_num)]
    exact_mod_cast Iff.rfl
  have wneg : ∀ a : ℤ, wreal a < 0 ↔ a < 0 := by
    intro a
    unfold wreal
    rw [div_neg_iff]
    have : ¬ ((10:ℝ) ^ 4 < 0) := by norm_num
    have h2 : (0:ℝ) < 10 ^ 4 := by norm_num
    simp only [this, and_false, h2, and_true, false_or]
    exact_mod_cast Iff.rfl
  have wpos : ∀ a : ℤ, 0 < wreal a ↔ 0 < a := by
    intro a
    unfold wreal
    rw [div_pos_iff_of_pos_right (by norm_num)]
    exact_mod_cast Iff.rfl
  simp only [wle, wneg, wpos]
  refine ⟨?_, by decide +kernel⟩
  intro ac hac
  have key : (availableAircraft shipped true).all (fun ac =>
      match Construct.wrap shipped ac none with
      | .error _ => false
      | .ok w => shipped.wrap.any fun f => decide (f.2 = w) && queries.all fun v =>
        match getVar w v with
        | .error _ => false
        | .ok r => decide (r.min ≤ r.max) &&
          decide ((f.1, v) ∉ wrapOutliers ↔ (r.min ≤ r.opt ∧ r.opt ≤ r.max)) &&
          decide (v ∈ [descentVsConmach, descentVsConcas, descentVsPostConcas, finalappVs,
            landingAcceleration] → r.opt < 0) &&
          decide (v ∉ [descentVsConmach, descentVsConcas, descentVsPostConcas, finalappVs,
            landingAcceleration] → 0 < r.opt)) = true := by
    decide +kernel
  have := List.all_eq_true.1 key ac hac
  rcases h : Construct.wrap shipped ac none with e | w
  · rw [h] at this; simp at this
  · rw [h] at this
    simp only at this
    obtain ⟨f, hf, h2⟩ := List.any_eq_true.1 this
    simp only [Bool.and_eq_true, decide_eq_true_eq] at h2
    refine ⟨f.1, w, by rw [← h2.1]; exact hf, rfl, ?_⟩
    intro v hv
    have h3 := List.all_eq_true.1 h2.2 v hv
    rcases hg : getVar w v with e | r
    · rw [hg] at h3; simp at h3
    · rw [hg] at h3
      simp only [Bool.and_eq_true, decide_eq_true_eq] at h3
      exact ⟨r, rfl, h3.1.1.1, h3.1.1.2, h3.1.2, h3.2⟩

/-- 33 query methods, 17 tables, 59 type codes. -/
example : queries.length = 33 ∧ shipped.wrap.length = 17 ∧
    (availableAircraft shipped true).length = 59 := by decide +kernel

end Verif.Props
