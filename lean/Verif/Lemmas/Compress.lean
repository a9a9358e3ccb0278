import Mathlib.Analysis.SpecialFunctions.Pow.Real
import Mathlib.Analysis.Convex.SpecificFunctions.Basic

/-! The isentropic impact-pressure function `F u = (1 + u) ^ 3.5 - 1`. -/
namespace Verif.Comp

/-- Relative impact pressure as a function of `u = ρ v² / (7 p)`. -/
noncomputable def F (u : ℝ) : ℝ := (1 + u) ^ (3.5 : ℝ) - 1

theorem F_zero : F 0 = 0 := by simp [F]

theorem F_strictMono {u v : ℝ} (hu : 0 ≤ u) (h : u < v) : F u < F v := by
  unfold F
  have := Real.rpow_lt_rpow (x := 1 + u) (y := 1 + v) (z := 3.5) (by linarith) (by linarith)
    (by norm_num)
  linarith

theorem F_mono {u v : ℝ} (hu : 0 ≤ u) (h : u ≤ v) : F u ≤ F v := by
  rcases h.eq_or_lt with rfl | h
  · exact le_rfl
  · exact (F_strictMono hu h).le

theorem F_nonneg {u : ℝ} (hu : 0 ≤ u) : 0 ≤ F u := by
  have := F_mono le_rfl hu; rwa [F_zero] at this

theorem F_pos {u : ℝ} (hu : 0 < u) : 0 < F u := by
  have := F_strictMono le_rfl hu; rwa [F_zero] at this

theorem F_le_iff {u v : ℝ} (hu : 0 ≤ u) (hv : 0 ≤ v) : F u ≤ F v ↔ u ≤ v := by
  constructor
  · intro h; by_contra hc; exact absurd (F_strictMono hv (not_le.1 hc)) (not_lt.2 h)
  · exact F_mono hu

theorem conv {x y a b : ℝ} (hx : 0 ≤ x) (hy : 0 ≤ y) (ha : 0 ≤ a) (hb : 0 ≤ b) (hab : a + b = 1) :
    (a * x + b * y) ^ (3.5 : ℝ) ≤ a * x ^ (3.5 : ℝ) + b * y ^ (3.5 : ℝ) := by
  have h : ConvexOn ℝ (Set.Ici 0) fun x : ℝ => x ^ (3.5 : ℝ) := convexOn_rpow (by norm_num)
  exact h.2 (Set.mem_Ici.2 hx) (Set.mem_Ici.2 hy) ha hb hab

/-- `F` grows at least linearly. -/
theorem F_scale_ge {l u : ℝ} (hl : 1 ≤ l) (hu : 0 ≤ u) : l * F u ≤ F (l * u) := by
  have hl0 : 0 < l := by linarith
  have h := conv (x := 1) (by norm_num) (y := 1 + l * u) (by positivity)
    (a := 1 - 1 / l) (b := 1 / l) (by rw [sub_nonneg, div_le_one hl0]; exact hl) (by positivity)
    (by ring)
  simp only [Real.one_rpow, mul_one] at h
  have e : 1 - 1 / l + 1 / l * (1 + l * u) = 1 + u := by field_simp; ring
  rw [e] at h
  unfold F
  have := mul_le_mul_of_nonneg_left h hl0.le
  have e2 : l * (1 - 1 / l + 1 / l * (1 + l * u) ^ (3.5 : ℝ)) = l - 1 + (1 + l * u) ^ (3.5 : ℝ) := by
    field_simp
  rw [e2] at this
  linarith

/-- `F` grows at most with the power 3.5. -/
theorem F_scale_le {l u : ℝ} (hl : 1 ≤ l) (hu : 0 ≤ u) :
    F (l * u) ≤ l ^ (3.5 : ℝ) * F u := by
  have hl0 : 0 < l := by linarith
  have hlu : 0 ≤ l * u := by positivity
  rcases eq_or_lt_of_le (show 0 ≤ l + l * u - 1 by linarith) with h0 | h0
  · have h1 : l = 1 := by linarith
    subst h1; simp
  have hm : (l + l * u) ^ (3.5 : ℝ) = l ^ (3.5 : ℝ) * (1 + u) ^ (3.5 : ℝ) := by
    rw [← Real.mul_rpow hl0.le (by linarith)]; congr 1; ring
  set θ := l * u / (l + l * u - 1) with hθ
  have hθ0 : 0 ≤ θ := by positivity
  have hθ1 : θ ≤ 1 := by rw [hθ, div_le_one h0]; linarith
  have hθe : θ * (l + l * u - 1) = l * u := div_mul_cancel₀ _ h0.ne'
  have a1 := conv (x := 1) (by norm_num) (y := l + l * u) (by positivity)
    (a := 1 - θ) (b := θ) (by linarith) hθ0 (by ring)
  have a2 := conv (x := 1) (by norm_num) (y := l + l * u) (by positivity)
    (a := θ) (b := 1 - θ) hθ0 (by linarith) (by ring)
  simp only [Real.one_rpow, mul_one] at a1 a2
  have e1 : 1 - θ + θ * (l + l * u) = 1 + l * u := by linarith
  have e2 : θ + (1 - θ) * (l + l * u) = l := by linarith
  rw [e1] at a1
  rw [e2] at a2
  unfold F
  nlinarith

/-- For a given dynamic pressure the impact pressure is larger in thinner air. -/
theorem impact_anti {c P Q : ℝ} (hc : 0 ≤ c) (hP : 0 < P) (h : P ≤ Q) :
    Q * F (c / Q) ≤ P * F (c / P) := by
  have hQ : 0 < Q := by linarith
  have h1 := F_scale_ge (l := Q / P) (u := c / Q) (by rw [le_div_iff₀ hP]; linarith) (by positivity)
  have e : Q / P * (c / Q) = c / P := by field_simp
  rw [e] at h1
  calc Q * F (c / Q) = P * (Q / P * F (c / Q)) := by field_simp
    _ ≤ _ := by gcongr

/-- Inverse of `F` as used by the code. -/
theorem F_inv {y : ℝ} (hy : 0 ≤ y) : F ((1 + y) ^ (2.0 / 7.0 : ℝ) - 1) = y := by
  unfold F
  have : (1 + ((1 + y) ^ (2.0 / 7.0 : ℝ) - 1)) = (1 + y) ^ (2.0 / 7.0 : ℝ) := by ring
  rw [this, ← Real.rpow_mul (by linarith)]
  norm_num

theorem inv_F {u : ℝ} (hu : 0 ≤ u) : (1 + F u) ^ (2.0 / 7.0 : ℝ) - 1 = u := by
  unfold F
  have : (1 + ((1 + u) ^ (3.5 : ℝ) - 1)) = (1 + u) ^ (3.5 : ℝ) := by ring
  rw [this, ← Real.rpow_mul (by linarith)]
  norm_num

theorem inv_nonneg {y : ℝ} (hy : 0 ≤ y) : 0 ≤ (1 + y) ^ (2.0 / 7.0 : ℝ) - 1 := by
  have := Real.one_le_rpow (x := 1 + y) (z := 2.0 / 7.0) (by linarith) (by norm_num)
  linarith

end Verif.Comp
