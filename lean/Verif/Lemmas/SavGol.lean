import Verif.Model.Filters
import Mathlib.LinearAlgebra.Matrix.Rank
import Mathlib.LinearAlgebra.Matrix.DotProduct
import Mathlib.Algebra.Polynomial.Taylor
import Mathlib.Algebra.Polynomial.Roots

/-!
# The Savitzky-Golay kernel

The matrix of the filter has independent columns, `pinv` is its Moore-Penrose inverse, and the rows
of the inverse pick Taylor coefficients.
-/

namespace Verif.Filters
open Matrix Polynomial

/-- A polynomial with few coefficients that vanishes on the window is zero. -/
theorem vander_injective {half order : ℕ} (h : order < 2 * half + 1) {v : Fin (order + 1) → ℝ}
    (hv : (vander half order).mulVec v = 0) : v = 0 := by
  let p : ℝ[X] := ∑ j : Fin (order + 1), Polynomial.C (v j) * Polynomial.X ^ (j : ℕ)
  have hp : p = 0 := by
    by_contra hne
    have hdeg : p.natDegree ≤ order := by
      apply Polynomial.natDegree_sum_le_of_forall_le
      intro j _
      exact (Polynomial.natDegree_C_mul_X_pow_le _ _).trans (Nat.lt_succ_iff.1 j.2)
    have hroot : ∀ i : Fin (2 * half + 1), p.IsRoot ((i : ℝ) - half) := by
      intro i
      have := congrFun hv i
      simp only [Matrix.mulVec, dotProduct, vander, Pi.zero_apply] at this
      simp only [Polynomial.IsRoot, p, Polynomial.eval_finsetSum, Polynomial.eval_mul,
        Polynomial.eval_C, Polynomial.eval_pow, Polynomial.eval_X]
      rw [← this]
      exact Finset.sum_congr rfl fun j _ => mul_comm _ _
    have hinj : Function.Injective fun i : Fin (2 * half + 1) => ((i : ℝ) - half) := by
      intro i j hij
      simp only [sub_left_inj, Nat.cast_inj] at hij
      exact Fin.ext hij
    have hcard := Polynomial.card_le_degree_of_subset_roots (p := p)
      (Z := Finset.univ.image fun i : Fin (2 * half + 1) => ((i : ℝ) - half)) (by
        intro x hx
        rw [Finset.mem_val, Finset.mem_image] at hx
        obtain ⟨i, -, rfl⟩ := hx
        exact (Polynomial.mem_roots hne).2 (hroot i))
    rw [Finset.card_image_of_injective _ hinj, Finset.card_univ, Fintype.card_fin] at hcard
    omega
  ext j
  have : p.coeff (j : ℕ) = v j := by
    simp only [p, Polynomial.finsetSum_coeff, Polynomial.coeff_C_mul, Polynomial.coeff_X_pow]
    rw [Finset.sum_eq_single j]
    · simp
    · intro b _ hb
      rw [if_neg (fun e => hb (Fin.ext e.symm))]; simp
    · simp
  rw [← this, hp]; simp

theorem gram_isUnit {half order : ℕ} (h : order < 2 * half + 1) :
    IsUnit ((vander half order).transpose * vander half order) := by
  rw [← Matrix.mulVec_injective_iff_isUnit]
  intro v w hvw
  have h0 : ((vander half order).transpose * vander half order).mulVecLin (v - w) = 0 := by
    simp only [Matrix.mulVecLin_apply, Matrix.mulVec_sub]
    exact sub_eq_zero.2 hvw
  have h1 := (LinearMap.mem_ker).2 h0
  rw [Matrix.ker_mulVecLin_transpose_mul_self] at h1
  exact sub_eq_zero.1 (vander_injective h (LinearMap.mem_ker.1 h1))

theorem pinv_mul {half order : ℕ} (h : order < 2 * half + 1) :
    pinv (vander half order) * vander half order = 1 := by
  unfold pinv
  rw [Matrix.mul_assoc]
  exact Matrix.nonsing_inv_mul _ ((Matrix.isUnit_iff_isUnit_det _).1 (gram_isUnit h))

/-- The four Penrose conditions. -/
structure IsPinv {m n : ℕ} (b : Matrix (Fin m) (Fin n) ℝ) (p : Matrix (Fin n) (Fin m) ℝ) : Prop where
  left : b * p * b = b
  right : p * b * p = p
  symm_left : (b * p).transpose = b * p
  symm_right : (p * b).transpose = p * b

/-- The Moore-Penrose inverse is unique. -/
theorem IsPinv.unique {m n : ℕ} {b : Matrix (Fin m) (Fin n) ℝ} {p q : Matrix (Fin n) (Fin m) ℝ}
    (hp : IsPinv b p) (hq : IsPinv b q) : p = q := by
  have h1 : b * p = b * q := by
    calc b * p = (b * p).transpose := hp.symm_left.symm
      _ = ((b * q * b) * p).transpose := by rw [hq.left]
      _ = ((b * q) * (b * p)).transpose := by rw [Matrix.mul_assoc (b * q)]
      _ = (b * p) * (b * q) := by rw [Matrix.transpose_mul, hp.symm_left, hq.symm_left]
      _ = b * q := by rw [← Matrix.mul_assoc, hp.left]
  have h2 : p * b = q * b := by
    calc p * b = (p * b).transpose := hp.symm_right.symm
      _ = (p * (b * q * b)).transpose := by rw [hq.left]
      _ = ((p * b) * (q * b)).transpose := by simp only [Matrix.mul_assoc]
      _ = (q * b) * (p * b) := by rw [Matrix.transpose_mul, hp.symm_right, hq.symm_right]
      _ = q * b := by rw [Matrix.mul_assoc, ← Matrix.mul_assoc b, hp.left]
  calc p = p * b * p := hp.right.symm
    _ = q * (b * p) := by rw [h2, Matrix.mul_assoc]
    _ = q * b * q := by rw [h1, Matrix.mul_assoc]
    _ = q := hq.right

/-- The model's `pinv` is the Moore-Penrose inverse on the matrices of the filter. -/
theorem pinv_isPinv {half order : ℕ} (h : order < 2 * half + 1) :
    IsPinv (vander half order) (pinv (vander half order)) where
  left := by rw [Matrix.mul_assoc, pinv_mul h, Matrix.mul_one]
  right := by rw [pinv_mul h, Matrix.one_mul]
  symm_left := by
    unfold pinv
    simp only [Matrix.transpose_mul, Matrix.transpose_transpose, Matrix.transpose_nonsing_inv,
      Matrix.mul_assoc]
  symm_right := by rw [pinv_mul h, Matrix.transpose_one]

/-- Row `d` of the inverse applied to the reversed window of a polynomial signal. -/
theorem row_poly {half order : ℕ} (h : order < 2 * half + 1) (p : ℝ[X]) (hp : p.natDegree ≤ order)
    (c : ℝ) (d : Fin (order + 1)) :
    ∑ i : Fin (2 * half + 1), pinv (vander half order) d i * p.eval (c - ((i : ℝ) - half)) =
      (-1) ^ (d : ℕ) * (taylor c p).coeff d := by
  have hev : ∀ x : ℝ, p.eval (c - x) =
      ∑ e : Fin (order + 1), (-1) ^ (e : ℕ) * (taylor c p).coeff e * x ^ (e : ℕ) := by
    intro x
    have h1 : p.eval (c - x) = (taylor c p).eval (-x) := by rw [taylor_eval]; congr 1; ring
    rw [h1, Polynomial.eval_eq_sum_range' (n := order + 1) (by rw [natDegree_taylor]; omega),
      Finset.sum_range]
    refine Finset.sum_congr rfl fun e _ => ?_
    rw [neg_pow]; ring
  simp only [hev]
  have hm := pinv_mul h
  calc ∑ i : Fin (2 * half + 1), pinv (vander half order) d i *
        ∑ e : Fin (order + 1), (-1) ^ (e : ℕ) * (taylor c p).coeff e * ((i : ℝ) - half) ^ (e : ℕ)
      = ∑ i : Fin (2 * half + 1), ∑ e : Fin (order + 1), (-1) ^ (e : ℕ) * (taylor c p).coeff e *
          (pinv (vander half order) d i * vander half order i e) := by
        refine Finset.sum_congr rfl fun i _ => ?_
        rw [Finset.mul_sum]
        refine Finset.sum_congr rfl fun e _ => ?_
        simp only [vander]; ring
    _ = ∑ e : Fin (order + 1), (-1) ^ (e : ℕ) * (taylor c p).coeff e *
          (pinv (vander half order) * vander half order) d e := by
        rw [Finset.sum_comm]
        refine Finset.sum_congr rfl fun e _ => ?_
        rw [← Finset.mul_sum, Matrix.mul_apply]
    _ = (-1) ^ (d : ℕ) * (taylor c p).coeff d := by
        rw [hm, Finset.sum_eq_single d]
        · simp
        · intro b _ hb; rw [Matrix.one_apply_ne (Ne.symm hb)]; simp
        · simp

end Verif.Filters
