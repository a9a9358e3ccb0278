import Verif.Lemmas.FloatDrag
import Verif.Lemmas.Fuel
import Verif.Model.FloatRecords

/-!
# Rounding error of fuel flow
-/

namespace Verif.Fuel
open Verif.Aero Verif.Drag Real

variable {f : Format} (M : Machine f) (hw : f.Wide)

theorem sp_le_max (y : ℝ) : sp y ≤ max y 0 + 0.7 := by
  unfold sp
  have hp : 0 < 1 + exp y := by have := exp_pos y; linarith
  rw [log_le_iff_le_exp hp, exp_add]
  have h2 : (2 : ℝ) ≤ exp 0.7 := by
    rw [← log_le_iff_le_exp (by norm_num)]
    have := log_two_lt_d9; norm_num at this ⊢; linarith
  have h3 : exp y ≤ exp (max y 0) := exp_le_exp.2 (le_max_left _ _)
  have h4 : 1 ≤ exp (max y 0) := one_le_exp (le_max_right _ _)
  nlinarith

theorem sp_ge_max (y : ℝ) : max y 0 ≤ sp y := max_le (sp_gt y).le (sp_pos y).le

theorem sp50' : 50 ≤ sp 50 ∧ sp 50 ≤ 50.1 := by
  refine ⟨(sp_gt 50).le, (sp_le_add 50).trans ?_⟩
  have : exp (-50) ≤ exp (-3) := exp_le_exp.2 (by norm_num)
  have h3 : exp (-3 : ℝ) ≤ 0.1 := by
    rw [exp_neg, inv_le_comm₀ (exp_pos _) (by norm_num)]
    have := exp_one_gt_d9
    have h : exp 3 = exp 1 ^ 3 := by rw [← exp_nat_mul]; norm_num
    rw [h]
    calc (0.1 : ℝ)⁻¹ ≤ 2.7 ^ 3 := by norm_num
      _ ≤ exp 1 ^ 3 := by gcongr; linarith
  linarith

theorem exp_upper {z : ℝ} (hz : z ≤ 80) : exp z ≤ (2 : ℝ) ^ (116 : ℕ) := by
  have h := log_two_gt_d9
  calc exp z ≤ exp ((116 : ℕ) * log 2) := exp_le_exp.2 (by push_cast; linarith)
    _ = _ := by rw [exp_nat_mul, exp_log (by norm_num)]

include hw in
/-- `log (1 + exp z)` in floating point. -/
theorem fl_softplus {z' z d : ℝ} (hz : |z' - z| ≤ d * f.u) (d0 : 0 ≤ d) (hd : d ≤ 70000)
    (hz' : z ≤ 79) : |M.log (M.rnd (M.rnd 1.0 + M.exp z')) - sp z| ≤
      (1.0202 * d + 10 + 8.1 * sp z) * f.u := by
  have hu := f.u_pos
  have hu' := hw.u_le'
  have ez := exp_pos z
  have ez' := exp_pos z'
  have hdu : d * f.u ≤ 1 / 220 := by nlinarith
  have du0 : 0 ≤ d * f.u := by positivity
  -- the exponential
  have e1 : |exp z' - exp z| ≤ 1.005 * d * f.u * exp z := by
    have : exp z' - exp z = exp z * (exp (z' - z) - 1) := by
      rw [mul_sub, ← exp_add]; ring_nf
    rw [this, abs_mul, abs_of_pos ez]
    have h2 : |exp (z' - z) - 1| ≤ 1.005 * (d * f.u) := by
      have hb : |z' - z| ≤ 1 := hz.trans (by linarith)
      have := abs_exp_sub_one_sub_id_le hb
      have h3 : |exp (z' - z) - 1| ≤ |exp (z' - z) - 1 - (z' - z)| + |z' - z| := by
        calc |exp (z' - z) - 1| = |(exp (z' - z) - 1 - (z' - z)) + (z' - z)| := by ring_nf
          _ ≤ _ := abs_add_le _ _
      have h4 : (z' - z) ^ 2 ≤ (d * f.u) * (1 / 220) := by
        rw [← sq_abs, sq]
        exact mul_le_mul hz (hz.trans hdu) (abs_nonneg _) du0
      linarith
    calc exp z * |exp (z' - z) - 1| ≤ exp z * (1.005 * (d * f.u)) := by gcongr
      _ = _ := by ring
  have big : exp z ≤ (2 : ℝ) ^ (116 : ℕ) := exp_upper (by linarith)
  have e2 : exp z' ≤ 1.01 * exp z := by
    have := (abs_le.1 e1).2
    have : 1.005 * d * f.u * exp z ≤ 0.01 * exp z := by
      refine mul_le_mul_of_nonneg_right ?_ ez.le
      linarith
    linarith
  have acc := (M.exp_acc z').abs_err hw (by
    rw [abs_of_pos ez']
    calc exp z' ≤ 1.01 * (2 : ℝ) ^ (116 : ℕ) := by linarith
      _ ≤ _ := by norm_num)
  rw [abs_of_pos ez'] at acc
  have tin : (2 : ℝ) ^ (-126 : ℤ) ≤ 0.001 := by norm_num
  have acc' : |M.exp z' - exp z'| ≤ 8.1 * f.u * (1 + exp z) := by
    refine acc.trans ?_
    have : max (exp z') ((2 : ℝ) ^ (-126 : ℤ)) ≤ 1.01 * (1 + exp z) :=
      max_le (by linarith) (by linarith)
    calc 8 * f.u * max (exp z') ((2 : ℝ) ^ (-126 : ℤ)) ≤ 8 * f.u * (1.01 * (1 + exp z)) := by gcongr
      _ ≤ _ := by nlinarith [mul_pos hu ez]
  have tot : |(1 + M.exp z') - (1 + exp z)| ≤ (1.005 * d + 8.1) * f.u * (1 + exp z) := by
    have e : (1 + M.exp z') - (1 + exp z) = (M.exp z' - exp z') + (exp z' - exp z) := by ring
    rw [e]
    refine (abs_add_le _ _).trans ?_
    have : 0 ≤ 1.005 * d * f.u := by positivity
    have : (1.005 * d + 8.1) * f.u * (1 + exp z) =
      1.005 * d * f.u * 1 + 1.005 * d * f.u * exp z + 8.1 * f.u * (1 + exp z) := by ring
    linarith
  have ap := Ap.of_rel (L := 117) tot (by linarith) (by positivity) hu (by nlinarith)
    (le_trans (by norm_num) (by linarith : (1 : ℝ) ≤ 1 + exp z)) (by
      calc 1 + exp z ≤ 1 + (2 : ℝ) ^ (116 : ℕ) := by linarith
        _ ≤ _ := by norm_num)
  have ap2 := ap.rnd M hw (by norm_num) (by linarith)
  have l := ap2.log_err
  rw [rnd_1 M hw]
  have sp0 := sp_pos z
  have spu : sp z ≤ 80 := (sp_le_max z).trans (by
    have : max z 0 ≤ 79 := max_le hz' (by norm_num)
    linarith)
  have l2 := (M.log_acc _ ap2.pos').abs_add hw (B := sp z) (B' := 8 * sp z + 0.6) l
    (abs_of_pos sp0).le (by linarith) (by linarith) (by linarith)
  refine l2.trans (mul_le_mul_of_nonneg_right ?_ hu.le)
  linarith

theorem limiter_le {r : ℝ} (h : r ≤ 1.6) : limiter np r ≤ 1.26 := by
  rw [limiter_eq]
  have h1 := sp_le_max (50 * (r - 0.03))
  have h2 := sp_ge_max (45 * (r - 1.2))
  have h3 : max (50 * (r - 0.03)) 0 - max (45 * (r - 1.2)) 0 ≤ 60.6 := by
    have a1 := le_max_left (45 * (r - 1.2)) 0
    have a2 := le_max_right (45 * (r - 1.2)) 0
    rcases max_cases (50 * (r - 0.03)) 0 with ⟨e, -⟩ | ⟨e, -⟩ <;> rw [e]
    · rcases le_total r 1.2 with hr | hr <;> linarith
    · linarith
  have : (sp (50 * (r - 0.03)) - sp (45 * (r - 1.2))) / sp 50 ≤ 1.23 := by
    rw [div_le_iff₀ (sp_pos 50)]
    have := sp50'.1
    linarith
  linarith

include hw in
theorem fl_scaled {x' x r k c n : ℝ} (hx : |x' - x| ≤ r * f.u) (r0 : 0 ≤ r) (hr : r ≤ 1300)
    (h1 : -2 ≤ x) (h2 : x ≤ 1.6) (k0 : 0 < k) (k1 : k ≤ 50) (c0 : 0 ≤ c) (c1 : c ≤ 1.2)
    (hn : k * r + k * (c + (2 + c)) + k * (2 + c) + 3 ≤ n) :
    |M.rnd (k * M.rnd (x' - M.rnd c)) - k * (x - c)| ≤ n * f.u := by
  have hu := f.u_pos
  have l := lit_abs M hw (c := c) (B := c) (abs_of_nonneg c0).le (by linarith)
  have a : |(x' - M.rnd c) - (x - c)| ≤ (r + c + 0.00001) * f.u := by
    have : (x' - M.rnd c) - (x - c) = (x' - x) - (M.rnd c - c) := by ring
    rw [this]
    exact (abs_sub _ _).trans (by linarith)
  have b := M.rnd_abs hw (B := 2 + c) (B' := 2.002 + c) a (abs_le.2 ⟨by linarith, by linarith⟩)
    (by linarith) (by linarith) (by linarith)
  have c' : |k * M.rnd (x' - M.rnd c) - k * (x - c)| ≤
      (k * (r + c + 0.00001 + (2.002 + c))) * f.u := by
    rw [← mul_sub, abs_mul, abs_of_pos k0, mul_assoc]
    gcongr
  have d : |k * (x - c)| ≤ k * (2 + c) := by
    rw [abs_mul, abs_of_pos k0]
    gcongr
    exact abs_le.2 ⟨by linarith, by linarith⟩
  have kr : k * r ≤ 50 * 1300 := by gcongr
  have kc : k * c ≤ 50 * 1.2 := by gcongr
  refine (M.rnd_abs hw (B' := k * (2 + c) + 0.1) c' d
    (by linarith) (by linarith) (by linarith)).trans ?_
  refine mul_le_mul_of_nonneg_right ?_ hu.le
  linarith

include hw in
theorem limiter_core {A' A B' B C' C r : ℝ} (r0 : 0 ≤ r) (hr : r ≤ 1300) (k1 : 50 ≤ C) (k2 : C ≤ 50.1)
    (hA : |A' - A| ≤ (51.01 * r + 867) * f.u) (hB : |B' - B| ≤ (45.91 * r + 520) * f.u)
    (hC : |C' - C| ≤ 416 * f.u) (lim : (A - B) / C + 0.03 ≤ 1.26)
    (lim' : 0.03 ≤ (A - B) / C + 0.03) :
    |M.rnd (M.rnd (M.rnd (A' - B') / C') + M.rnd 0.03) - ((A - B) / C + 0.03)| ≤
      (1.95 * r + 49) * f.u := by
  have hu := f.u_pos
  have hu' := hw.u_le'
  have l1 := lit_abs M hw (c := 0.03) (B := 0.03) (by norm_num [abs_of_pos]) (by norm_num)
  have hN : |(A' - B') - (A - B)| ≤ (96.92 * r + 1387) * f.u := by
    have : (A' - B') - (A - B) = (A' - A) - (B' - B) := by ring
    rw [this]
    exact (abs_sub _ _).trans (by linarith)
  have q0 : (A - B) / C ≤ 1.23 := by linarith
  have q1 : 0 ≤ (A - B) / C := by linarith
  have C0 : 0 < C := by linarith
  have hAB : |A - B| ≤ 62 := by
    have e1 := (div_le_iff₀ C0).1 q0
    have e2 := (le_div_iff₀ C0).1 q1
    exact abs_le.2 ⟨by linarith, by linarith⟩
  have hN2 := M.rnd_abs hw (B := 62) (B' := 63) hN hAB (by linarith) (by norm_num) (by linarith)
  generalize M.rnd (A' - B') = N' at *
  generalize A - B = N at *
  have C'l : 49.99 ≤ C' := by have := (abs_le.1 hC).1; linarith
  have hq : |N' / C' - N / C| ≤ (1.94 * r + 40) * f.u := by
    have e1 : N' / C' - N / C = ((N' - N) - N / C * (C' - C)) / C' := by
      field_simp; ring
    rw [e1, abs_div, abs_of_pos (by linarith : 0 < C'), div_le_iff₀ (by linarith)]
    have e2 : |N / C * (C' - C)| ≤ 1.23 * (416 * f.u) := by
      rw [abs_mul, abs_of_nonneg q1]
      exact mul_le_mul q0 hC (abs_nonneg _) (by norm_num)
    refine (abs_sub _ _).trans ?_
    have e3 : (1.94 * r + 40) * f.u * 49.99 ≤ (1.94 * r + 40) * f.u * C' := by gcongr
    have : 0 ≤ r * f.u := by positivity
    linarith
  have hq2 := M.rnd_abs hw (B := 1.23) (B' := 1.24) hq (by rw [abs_of_nonneg q1]; exact q0)
    (by linarith) (by norm_num) (by linarith)
  generalize M.rnd (N' / C') = Q' at *
  generalize N / C = Q at *
  have hs : |(Q' + M.rnd 0.03) - (Q + 0.03)| ≤ (1.94 * r + 40 + 1.24 + 0.031) * f.u := by
    have : (Q' + M.rnd 0.03) - (Q + 0.03) = (Q' - Q) + (M.rnd 0.03 - 0.03) := by ring
    rw [this]
    exact (abs_add_le _ _).trans (by linarith)
  have fin := M.rnd_abs hw (B := 1.26) (B' := 1.27) hs (by
    rw [abs_of_nonneg (by linarith)]; exact lim) (by linarith) (by norm_num) (by linarith)
  exact fin.trans (mul_le_mul_of_nonneg_right (by linarith) hu.le)

include hw in
/-- The limiter of the thrust ratio in floating point. -/
theorem fl_limiter {x' x r : ℝ} (hx : |x' - x| ≤ r * f.u) (r0 : 0 ≤ r) (hr : r ≤ 1300)
    (h1 : -2 ≤ x) (h2 : x ≤ 1.6) :
    |(limiter (flt M) ⟨x'⟩).val - limiter np x| ≤ (1.95 * r + 49) * f.u := by
  have hu := f.u_pos
  have hu' := hw.u_le'
  have e : (limiter (flt M) ⟨x'⟩).val = M.rnd (M.rnd (M.rnd (
      M.log (M.rnd (M.rnd 1.0 + M.exp (M.rnd (M.rnd 50.0 * M.rnd (x' - M.rnd 0.03))))) -
      M.log (M.rnd (M.rnd 1.0 + M.exp (M.rnd (M.rnd 45.0 * M.rnd (x' - M.rnd 1.2)))))) /
      M.log (M.rnd (M.rnd 1.0 + M.exp (M.rnd 50.0)))) + M.rnd 0.03) := rfl
  have r50 : M.rnd 50.0 = 50 := by
    have := M.rnd_nat hw 50 (by norm_num)
    norm_num at this ⊢; exact this
  have r45 : M.rnd 45.0 = 45 := by
    have := M.rnd_nat hw 45 (by norm_num)
    norm_num at this ⊢; exact this
  rw [e, limiter_eq, r50, r45]
  have l1 := lit_abs M hw (c := 0.03) (B := 0.03) (by norm_num [abs_of_pos]) (by norm_num)
  have l2 := lit_abs M hw (c := 1.2) (B := 1.2) (by norm_num [abs_of_pos]) (by norm_num)
  have z1 := fl_scaled M hw (k := 50) (c := 0.03) (n := 50 * r + 210) hx r0 hr h1 h2 (by norm_num)
    (by norm_num) (by norm_num) (by norm_num) (by linarith)
  have z2 := fl_scaled M hw (k := 45) (c := 1.2) (n := 45 * r + 350) hx r0 hr h1 h2 (by norm_num)
    (by norm_num) (by norm_num) (by norm_num) (by linarith)
  have s1 := fl_softplus M hw z1 (by linarith) (by linarith) (by linarith)
  have s2 := fl_softplus M hw z2 (by linarith) (by linarith) (by linarith)
  have s3 := fl_softplus M hw (z' := 50) (z := 50) (d := 0) (by simp) le_rfl (by norm_num)
    (by norm_num)
  obtain ⟨k1, k2⟩ := sp50'
  have u1 := sp_le_max (50 * (x - 0.03))
  have u2 := sp_le_max (45 * (x - 1.2))
  have u3 : max (50 * (x - 0.03)) 0 ≤ 78.5 := max_le (by linarith) (by norm_num)
  have u4 : max (45 * (x - 1.2)) 0 ≤ 18 := max_le (by linarith) (by norm_num)
  have p1 := sp_pos (50 * (x - 0.03))
  have p2 := sp_pos (45 * (x - 1.2))
  have lim := limiter_le h2
  have lim' := limiter_ge (r := x) (by linarith)
  rw [limiter_eq] at lim lim'
  generalize M.log (M.rnd (M.rnd 1.0 + M.exp (M.rnd (50 * M.rnd (x' - M.rnd 0.03))))) = A' at *
  generalize M.log (M.rnd (M.rnd 1.0 + M.exp (M.rnd (45 * M.rnd (x' - M.rnd 1.2))))) = B' at *
  generalize M.log (M.rnd (M.rnd 1.0 + M.exp 50)) = C' at *
  generalize sp (50 * (x - 0.03)) = A at *
  generalize sp (45 * (x - 1.2)) = B at *
  generalize sp 50 = C at *
  have hA : |A' - A| ≤ (51.01 * r + 867) * f.u :=
    s1.trans (mul_le_mul_of_nonneg_right (by linarith) hu.le)
  have hB : |B' - B| ≤ (45.91 * r + 520) * f.u :=
    s2.trans (mul_le_mul_of_nonneg_right (by linarith) hu.le)
  have hC : |C' - C| ≤ 416 * f.u :=
    s3.trans (mul_le_mul_of_nonneg_right (by linarith) hu.le)
  exact limiter_core M hw r0 hr k1 k2 hA hB hC lim lim'

/-! ## The fuel curve -/

theorem mul_exp_neg (t : ℝ) : t * exp (-t) ≤ 0.37 := by
  have h := add_one_le_exp (t - 1)
  have e : exp (t - 1) = exp t * exp (-1) := by rw [← exp_add]; ring_nf
  have h1 : exp (-1 : ℝ) ≤ 0.37 := by
    rw [exp_neg, inv_le_comm₀ (exp_pos _) (by norm_num)]
    have := exp_one_gt_d9
    norm_num at this ⊢; linarith
  have p := exp_pos (-t)
  calc t * exp (-t) ≤ (exp t * exp (-1)) * exp (-t) := by
        refine mul_le_mul_of_nonneg_right ?_ p.le
        linarith
    _ = exp (-1) * (exp t * exp (-t)) := by ring
    _ = exp (-1) := by rw [← exp_add]; simp
    _ ≤ _ := h1

theorem exp_105 {t : ℝ} (h : t ≤ 1.05) : exp t ≤ 2.87 := by
  have h1 := exp_one_lt_d9
  have h2 : exp (0.05 : ℝ) ≤ 1.053 := by
    have := one_sub_le_exp_neg (0.05 : ℝ)
    rw [exp_neg] at this
    rw [← inv_inv (exp 0.05), inv_le_comm₀ (inv_pos.2 (exp_pos _)) (by norm_num)]
    refine le_trans ?_ this
    norm_num
  calc exp t ≤ exp (1 + 0.05) := exp_le_exp.2 (by linarith)
    _ = exp 1 * exp 0.05 := exp_add _ _
    _ ≤ 2.7182818286 * 1.053 := by gcongr
    _ ≤ _ := by norm_num

/-- Slope of `exp (-c2 x exp (c3 x))`. -/
theorem curve_lip {c2 c3 x y : ℝ} (h2 : 0 < c2) (h2' : c2 ≤ 3) (h3 : 0 < c3) (h3' : c3 ≤ 3.5)
    (hx : 0 ≤ x) (hy : 0 ≤ y) :
    |exp (-(c2 * (x * exp (c3 * x)))) - exp (-(c2 * (y * exp (c3 * y))))| ≤ 10 * |x - y| := by
  have h := (convex_Ici (0 : ℝ)).norm_image_sub_le_of_norm_hasDerivWithin_le
    (f := fun x => exp (-(c2 * (x * exp (c3 * x)))))
    (f' := fun x => exp (-(c2 * (x * exp (c3 * x)))) *
      (-(c2 * (1 * exp (c3 * x) + x * (exp (c3 * x) * (c3 * 1)))))) (C := 10)
    (fun z hz => ?_) (fun z hz => ?_)
    (Set.mem_Ici.2 hy) (Set.mem_Ici.2 hx)
  · simpa [norm_eq_abs] using h
  · have e1 : HasDerivAt (fun x => exp (c3 * x)) (exp (c3 * z) * (c3 * 1)) z :=
      ((hasDerivAt_id z).const_mul c3).exp
    exact ((((hasDerivAt_id z).mul e1).const_mul c2).neg.exp).hasDerivWithinAt
  · have z0 : 0 ≤ z := hz
    have E0 := exp_pos (c3 * z)
    have t := mul_exp_neg (c2 * (z * exp (c3 * z)))
    have P0 := exp_pos (-(c2 * (z * exp (c3 * z))))
    have P1 : exp (-(c2 * (z * exp (c3 * z)))) ≤ 1 := exp_le_one_iff.2 (by
      have : 0 ≤ c2 * (z * exp (c3 * z)) := by positivity
      linarith)
    have hE : z ≤ 0.3 → exp (c3 * z) ≤ 2.87 := fun hz3 => exp_105 (by nlinarith)
    rw [norm_eq_abs, abs_mul, abs_neg, abs_of_pos P0, abs_of_nonneg (by positivity)]
    set E := exp (c3 * z)
    set P := exp (-(c2 * (z * E)))
    have T0 : 0 ≤ c2 * (z * E) * P := by positivity
    have e : P * (c2 * (1 * E + z * (E * (c3 * 1)))) = c2 * E * P + c3 * (c2 * (z * E) * P) := by
      ring
    rw [e]
    have b2 : c3 * (c2 * (z * E) * P) ≤ 3.5 * 0.37 := by gcongr
    rcases le_total z 0.3 with hz3 | hz3
    · have := hE hz3
      have b1 : c2 * E * P ≤ 3 * 2.87 * 1 := by gcongr
      norm_num at b1 b2 ⊢
      linarith
    · have b1 : c2 * E * P ≤ 0.37 / 0.3 := by
        rw [le_div_iff₀ (by norm_num)]
        have : c2 * E * P * 0.3 ≤ c2 * E * P * z := by gcongr
        linarith
      norm_num at b1 b2 ⊢
      linarith

theorem log_c1 {c : ℝ} (h1 : 0.5 ≤ c) (h2 : c ≤ 4) : |log c| ≤ 1.39 := by
  have l2 := log_two_lt_d9
  have c0 : 0 < c := by linarith
  have a := log_le_log c0 h2
  have b := log_le_log (by norm_num) h1
  have e4 : log 4 = 2 * log 2 := by
    rw [show (4 : ℝ) = 2 ^ 2 by norm_num, log_pow]; norm_num
  have e5 : log (0.5 : ℝ) = -log 2 := by
    rw [show (0.5 : ℝ) = 2⁻¹ by norm_num, log_inv]
  rw [e4] at a
  rw [e5] at b
  exact abs_le.2 ⟨by linarith, by linarith⟩

theorem exp_446 {t : ℝ} (h : t ≤ 4.46) : exp t ≤ 128 := by
  have h1 := log_two_gt_d9
  calc exp t ≤ exp (7 * log 2) := exp_le_exp.2 (by linarith)
    _ = 128 := by
        rw [show (7 : ℝ) * log 2 = (7 : ℕ) * log 2 by norm_num, exp_nat_mul,
          exp_log (by norm_num)]
        norm_num

include hw in
/-- The exponent of the fuel curve. -/
theorem fl_exponent {c1 c2 c3 x : ℝ} (h1 : 0.5 ≤ c1) (h1' : c1 ≤ 4) (h2 : 0.5 ≤ c2)
    (h2' : c2 ≤ 3) (h3 : 0.1 ≤ c3) (h3' : c3 ≤ 3.5) (hx : 0.02 ≤ x) (hx' : x ≤ 1.27) :
    |M.rnd (-c2 * M.rnd (M.rnd (x * M.exp (M.rnd (c3 * x))) - M.rnd (M.log c1 / c2))) -
      -c2 * (x * exp (c3 * x) - log c1 / c2)| ≤
      (c2 * (15.9 * (x * exp (c3 * x)) + 31)) * f.u := by
  have hu := f.u_pos
  have hu' := hw.u_le'
  have cx : c3 * x ≤ 4.45 := by nlinarith
  have cx0 : 0 ≤ c3 * x := by positivity
  have a1 := M.rnd_abs hw (a := c3 * x) (b := c3 * x) (c := 0) (B := 4.45) (B' := 4.46)
    (by simp) (by rw [abs_of_nonneg cx0]; exact cx) (by norm_num) (by norm_num) (by norm_num)
  have E1 : 1 ≤ exp (c3 * x) := one_le_exp cx0
  have E2 : exp (c3 * x) ≤ 128 := exp_446 (by linarith)
  have a2 := Ap.exp (K := 7) a1 (le_trans (by norm_num) E1) (E2.trans (by norm_num))
  have a3 := a2.lib (M.exp_acc _) hw (by norm_num) (by norm_num)
  have a4 := ((Ap.exact (u := f.u) (L := 6) (b := x) (le_trans (by norm_num) hx)
    (hx'.trans (by norm_num))).mul a3).rnd M hw (by norm_num) (by norm_num)
  have a5 := a4.rel (by norm_num) hu.le (by nlinarith)
  have y0 : 0 < x * exp (c3 * x) := by positivity
  have y1 : x * exp (c3 * x) ≤ 163 := by
    calc x * exp (c3 * x) ≤ 1.27 * 128 := by gcongr
      _ ≤ _ := by norm_num
  -- log c1 / c2
  have lc := log_c1 h1 h1'
  have b1 := (M.log_acc c1 (by linarith)).abs_add hw (b := log c1) (c := 0) (B := 1.39)
    (B' := 11.2) (by simp) lc (by norm_num) (by norm_num) (by norm_num)
  have c0 : 0 < c2 := by linarith
  have b2 : |M.log c1 / c2 - log c1 / c2| ≤ 22.4 * f.u := by
    rw [← sub_div, abs_div, abs_of_pos c0, div_le_iff₀ c0]
    nlinarith
  have b3 : |log c1 / c2| ≤ 2.78 := by
    rw [abs_div, abs_of_pos c0, div_le_iff₀ c0]
    linarith
  have b4 := M.rnd_abs hw (B := 2.78) (B' := 2.79) b2 b3 (by norm_num) (by norm_num) (by norm_num)
  generalize M.rnd (M.log c1 / c2) = l' at *
  generalize log c1 / c2 = l at *
  generalize M.rnd (x * M.exp (M.rnd (c3 * x))) = y' at *
  generalize x * exp (c3 * x) = y at *
  have yu : 0 ≤ y * f.u := by positivity
  have d1 : |(y' - l') - (y - l)| ≤ (13.8 * y + 25.2) * f.u := by
    have : (y' - l') - (y - l) = (y' - y) - (l' - l) := by ring
    rw [this]
    exact (abs_sub _ _).trans (by linarith)
  have d2 : |y - l| ≤ y + 2.78 := by
    refine (abs_sub _ _).trans ?_
    rw [abs_of_pos y0]; linarith
  have d3 := M.rnd_abs hw (B' := y + 2.79) d1 d2 (by linarith) (by linarith) (by linarith)
  generalize M.rnd (y' - l') = S' at *
  generalize y - l = S at *
  have d4 : |-c2 * S' - -c2 * S| ≤ (c2 * (14.8 * y + 27.99)) * f.u := by
    rw [← mul_sub, abs_mul, abs_neg, abs_of_pos c0, mul_assoc]
    refine mul_le_mul_of_nonneg_left (d3.trans ?_) c0.le
    exact mul_le_mul_of_nonneg_right (by linarith) hu.le
  have d5 : |-c2 * S| ≤ c2 * (y + 2.78) := by
    rw [abs_mul, abs_neg, abs_of_pos c0]
    gcongr
  have cy : c2 * y ≤ 3 * 163 := by gcongr
  have cy0 : 0 < c2 * y := by positivity
  refine (M.rnd_abs hw (B' := c2 * (y + 2.78) + 0.01) d4 d5 (by linarith) (by linarith)
    (by linarith)).trans ?_
  exact mul_le_mul_of_nonneg_right (by linarith) hu.le

include hw in
theorem curve_core {c1 c2 y P Q e w' w : ℝ} (h1 : 0.5 ≤ c1) (h1' : c1 ≤ 4) (h2 : 0.5 ≤ c2)
    (h2' : c2 ≤ 3) (hw' : |w' - w| ≤ (c2 * (15.9 * y + 31)) * f.u) (ee : exp w = c1 * P)
    (y0 : 0 ≤ y) (y1 : y ≤ 163) (t : c2 * y * P ≤ 0.37) (q0 : 0 ≤ Q) (q1 : Q ≤ 1) (p0 : 0 < P)
    (p1 : P ≤ 1) (lip : |P - Q| ≤ 10 * e * f.u) (e0 : 0 ≤ e) (e1 : e ≤ 10000) :
    |M.rnd (c1 - M.exp w') - c1 * (1 - Q)| ≤ (c1 * (10 * e + 111)) * f.u := by
  have hu := f.u_pos
  have hu' := hw.u_le'
  have c10 : 0 < c1 := by linarith
  have c20 : 0 < c2 := by linarith
  -- the exponential
  set d := c2 * (15.9 * y + 31) with hd
  have cy : c2 * y ≤ 3 * 163 := by gcongr
  have d0 : 0 ≤ d := by positivity
  have d1 : d ≤ 8000 := by rw [hd]; linarith
  have du : d * f.u ≤ 1 / 1000 := by nlinarith
  have dP : d * P ≤ 98.9 := by
    have e1 : d * P = 15.9 * (c2 * y * P) + 31 * (c2 * P) := by rw [hd]; ring
    have e2 : c2 * P ≤ 3 * 1 := by gcongr
    rw [e1]; linarith
  have x1 : |exp w' - exp w| ≤ 1.001 * (d * f.u) * (c1 * P) := by
    have : exp w' - exp w = (exp (w' - w) - 1) * exp w := by
      rw [sub_mul, ← exp_add]; ring_nf
    rw [this, abs_mul, abs_of_pos (exp_pos w), ee]
    refine mul_le_mul_of_nonneg_right ?_ (by positivity)
    have hb : |w' - w| ≤ 1 := hw'.trans (by linarith)
    have := abs_exp_sub_one_sub_id_le hb
    have h3 : |exp (w' - w) - 1| ≤ |exp (w' - w) - 1 - (w' - w)| + |w' - w| := by
      calc |exp (w' - w) - 1| = |(exp (w' - w) - 1 - (w' - w)) + (w' - w)| := by ring_nf
        _ ≤ _ := abs_add_le _ _
    have h4 : (w' - w) ^ 2 ≤ (d * f.u) * (1 / 1000) := by
      rw [← sq_abs, sq]
      exact mul_le_mul hw' (hw'.trans du) (abs_nonneg _) (by positivity)
    linarith
  have x2 : |exp w' - exp w| ≤ c1 * 99.1 * f.u := by
    refine x1.trans ?_
    have : 1.001 * (d * f.u) * (c1 * P) = 1.001 * (d * P) * (c1 * f.u) := by ring
    rw [this]
    have : 1.001 * (d * P) * (c1 * f.u) ≤ 1.001 * 98.9 * (c1 * f.u) := by gcongr
    have : 0 < c1 * f.u := by positivity
    linarith
  have ew : exp w' ≤ 1.001 * c1 := by
    have := (abs_le.1 x2).2
    have : c1 * P ≤ c1 * 1 := by gcongr
    have : c1 * f.u ≤ c1 * (1 / 16000000) := by gcongr
    linarith
  have acc := (M.exp_acc w').abs_err hw (by
    rw [abs_of_pos (exp_pos _)]; exact le_trans (b := 5) (by linarith) (by norm_num))
  rw [abs_of_pos (exp_pos _)] at acc
  have tin : (2 : ℝ) ^ (-126 : ℤ) ≤ 0.001 := by norm_num
  have acc' : |M.exp w' - exp w'| ≤ 8.01 * c1 * f.u := by
    refine acc.trans ?_
    have : max (exp w') ((2 : ℝ) ^ (-126 : ℤ)) ≤ 1.001 * c1 := max_le ew (by linarith)
    calc 8 * f.u * max (exp w') ((2 : ℝ) ^ (-126 : ℤ)) ≤ 8 * f.u * (1.001 * c1) := by gcongr
      _ ≤ _ := by nlinarith [mul_pos hu c10]
  have lip' : |c1 * P - c1 * Q| ≤ c1 * (10 * e) * f.u := by
    rw [← mul_sub, abs_mul, abs_of_pos c10, mul_assoc]
    exact mul_le_mul_of_nonneg_left lip c10.le
  have fin : |(c1 - M.exp w') - c1 * (1 - Q)| ≤ (c1 * (10 * e + 107.2)) * f.u := by
    have : (c1 - M.exp w') - c1 * (1 - Q) =
        -((M.exp w' - exp w') + ((exp w' - exp w) + (c1 * P - c1 * Q))) := by rw [ee]; ring
    rw [this, abs_neg]
    refine (abs_add_le _ _).trans ((add_le_add le_rfl (abs_add_le _ _)).trans ?_)
    have : 0 < c1 * f.u := by positivity
    linarith
  have ce : c1 * e ≤ 4 * 10000 := by gcongr
  refine (M.rnd_abs hw (B := c1) (B' := 2 * c1) fin ?_ (by linarith) (by linarith)
    (by linarith)).trans ?_
  · rw [abs_of_nonneg (mul_nonneg c10.le (by linarith))]
    exact mul_le_of_le_one_right c10.le (by linarith)
  · exact mul_le_mul_of_nonneg_right (by linarith) hu.le

include hw in
/-- The fuel curve before scaling, at a ratio with an error of `e` roundoffs. -/
theorem fl_curve {c1 c2 c3 x' x e : ℝ} (h1 : 0.5 ≤ c1) (h1' : c1 ≤ 4) (h2 : 0.5 ≤ c2)
    (h2' : c2 ≤ 3) (h3 : 0.1 ≤ c3) (h3' : c3 ≤ 3.5) (hx : 0.03 ≤ x) (hx' : x ≤ 1.26)
    (he : |x' - x| ≤ e * f.u) (e1 : e ≤ 10000) :
    |M.rnd (c1 - M.exp (M.rnd (-c2 * M.rnd (M.rnd (x' * M.exp (M.rnd (c3 * x'))) -
      M.rnd (M.log c1 / c2))))) - c1 * (1 - exp (-(c2 * (x * exp (c3 * x)))))| ≤
      (c1 * (10 * e + 111)) * f.u := by
  have hu := f.u_pos
  have hu' := hw.u_le'
  have eu : e * f.u ≤ 0.001 := by nlinarith
  obtain ⟨k1, k2⟩ := abs_le.1 he
  have hw' := fl_exponent M hw h1 h1' h2 h2' h3 h3' (x := x') (by linarith) (by linarith)
  have c10 : 0 < c1 := by linarith
  have c20 : 0 < c2 := by linarith
  have L := curve_lip c20 h2' (by linarith : 0 < c3) h3' (by linarith : 0 ≤ x')
    (by linarith : 0 ≤ x)
  have ee : exp (-c2 * (x' * exp (c3 * x') - log c1 / c2)) =
      c1 * exp (-(c2 * (x' * exp (c3 * x')))) := by
    have : -c2 * (x' * exp (c3 * x') - log c1 / c2) =
        log c1 + -(c2 * (x' * exp (c3 * x'))) := by field_simp; ring
    rw [this, exp_add, exp_log c10]
  have y0 : 0 ≤ x' * exp (c3 * x') := mul_nonneg (by linarith) (exp_pos _).le
  have y1 : x' * exp (c3 * x') ≤ 163 := by
    have : exp (c3 * x') ≤ 128 := exp_446 (by nlinarith)
    calc x' * exp (c3 * x') ≤ 1.27 * 128 := by
          refine mul_le_mul (by linarith) this (exp_pos _).le (by norm_num)
      _ ≤ _ := by norm_num
  have t := mul_exp_neg (c2 * (x' * exp (c3 * x')))
  have q0 : 0 ≤ exp (-(c2 * (x * exp (c3 * x)))) := (exp_pos _).le
  have q1 : exp (-(c2 * (x * exp (c3 * x)))) ≤ 1 := exp_le_one_iff.2 (by
    have : 0 ≤ c2 * (x * exp (c3 * x)) := mul_nonneg c20.le (mul_nonneg (by linarith) (exp_pos _).le)
    linarith)
  have p0 := exp_pos (-(c2 * (x' * exp (c3 * x'))))
  have p1 : exp (-(c2 * (x' * exp (c3 * x')))) ≤ 1 := exp_le_one_iff.2 (by
    have : 0 ≤ c2 * (x' * exp (c3 * x')) := by positivity
    linarith)
  generalize exp (-(c2 * (x * exp (c3 * x)))) = Q at *
  generalize M.rnd (-c2 * M.rnd (M.rnd (x' * M.exp (M.rnd (c3 * x'))) -
    M.rnd (M.log c1 / c2))) = w' at *
  generalize -c2 * (x' * exp (c3 * x') - log c1 / c2) = w at *
  generalize x' * exp (c3 * x') = y at *
  generalize exp (-(c2 * y)) = P at *
  have e0 : 0 ≤ e := by
    by_contra hneg
    have := mul_neg_of_neg_of_pos (not_le.1 hneg) hu
    linarith [abs_nonneg (x' - x)]
  exact curve_core M hw h1 h1' h2 h2' hw' ee y0 y1 t q0 q1 p0 p1 (by linarith) e0 e1

/-! ## Fuel flow -/

variable (p : Params ℝ)

include hw in
theorem fl_atThrust (h : Spec.FuelRange p.scale p.c1 p.c2 p.c3 p.maxThrust p.number) {T' T e : ℝ}
    (hT : |T' - T| ≤ e * f.u * (p.number * p.maxThrust)) (e0 : 0 ≤ e) (e1 : e ≤ 1200)
    (t1 : -2 * (p.number * p.maxThrust) ≤ T) (t2 : T ≤ 1.6 * (p.number * p.maxThrust)) :
    |(atThrust (flt M) (Fl.fuel M p) ⟨T'⟩).val - atThrust np p T| ≤
      (19.5 * e + 690) * f.u * (p.scale * p.c1 * p.number) := by
  have hu := f.u_pos
  obtain ⟨⟨s1, s2⟩, ⟨a1, a2⟩, ⟨b1, b2⟩, ⟨c1, c2⟩, ⟨m1, m2⟩, ⟨n1, n2⟩⟩ := h
  have n0 : 0 < p.number := by linarith
  have m0 : 0 < p.maxThrust := by linarith
  have e' : (atThrust (flt M) (Fl.fuel M p) ⟨T'⟩).val =
      M.rnd (M.rnd (p.scale * M.rnd (p.c1 - M.exp (M.rnd (-p.c2 * M.rnd (M.rnd (
        (limiter (flt M) ⟨M.rnd (M.rnd (T' / p.number) / p.maxThrust)⟩).val *
          M.exp (M.rnd (p.c3 *
            (limiter (flt M) ⟨M.rnd (M.rnd (T' / p.number) / p.maxThrust)⟩).val))) -
        M.rnd (M.log p.c1 / p.c2)))))) * p.number) := rfl
  have e'' : atThrust np p T = p.scale * (p.c1 * (1 - exp (-(p.c2 *
      (limiter np (T / p.number / p.maxThrust) *
        exp (p.c3 * limiter np (T / p.number / p.maxThrust))))))) * p.number := by
    simp only [atThrust]
    rw [funcFuel_eq p (by linarith) (by linarith)]
  -- the ratio
  have r1 : |T' / p.number - T / p.number| ≤ (e * p.maxThrust) * f.u := by
    rw [← sub_div, abs_div, abs_of_pos n0, div_le_iff₀ n0]
    linarith
  have r2 : |T / p.number| ≤ 2 * p.maxThrust := by
    rw [abs_div, abs_of_pos n0, div_le_iff₀ n0]
    have : 0 < p.number * p.maxThrust := by positivity
    exact abs_le.2 ⟨by linarith, by linarith⟩
  have em : e * p.maxThrust ≤ 1200 * p.maxThrust := by gcongr
  have r3 := M.rnd_abs hw (B' := 2.01 * p.maxThrust) r1 r2 (by linarith) (by linarith) (by linarith)
  have r4 : |M.rnd (T' / p.number) / p.maxThrust - T / p.number / p.maxThrust| ≤
      (e + 2.01) * f.u := by
    rw [← sub_div, abs_div, abs_of_pos m0, div_le_iff₀ m0]
    linarith
  have r5 : |T / p.number / p.maxThrust| ≤ 2 := by
    rw [abs_div, abs_of_pos m0, div_le_iff₀ m0]; exact r2
  have r6 := M.rnd_abs hw (B' := 2.01) r4 r5 (by linarith) (by norm_num) (by linarith)
  have r7 : T / p.number / p.maxThrust ≤ 1.6 := by
    rw [div_div, div_le_iff₀ (by positivity)]; exact t2
  have l := fl_limiter M hw r6 (by linarith) (by linarith) (by linarith [(abs_le.1 r5).1]) r7
  have lo := limiter_ge (r := T / p.number / p.maxThrust) (by linarith [(abs_le.1 r5).1])
  have hi := limiter_le r7
  rw [e', e'']
  generalize (limiter (flt M) ⟨M.rnd (M.rnd (T' / p.number) / p.maxThrust)⟩).val = x' at *
  generalize limiter np (T / p.number / p.maxThrust) = x at *
  have c := fl_curve M hw (c1 := p.c1) (c2 := p.c2) (c3 := p.c3) (by linarith) a2 (by linarith) b2
    (by linarith) (by linarith) lo hi l (by linarith)
  have H0 : 0 ≤ 1 - exp (-(p.c2 * (x * exp (p.c3 * x)))) := by
    have : exp (-(p.c2 * (x * exp (p.c3 * x)))) ≤ 1 := exp_le_one_iff.2 (by
      have : 0 ≤ p.c2 * (x * exp (p.c3 * x)) :=
        mul_nonneg (by linarith) (mul_nonneg (by linarith) (exp_pos _).le)
      linarith)
    linarith
  have H1 : 1 - exp (-(p.c2 * (x * exp (p.c3 * x)))) ≤ 1 := by
    linarith [exp_pos (-(p.c2 * (x * exp (p.c3 * x))))]
  generalize M.rnd (p.c1 - M.exp (M.rnd (-p.c2 * M.rnd (M.rnd (x' * M.exp (M.rnd (p.c3 * x'))) -
    M.rnd (M.log p.c1 / p.c2))))) = H' at *
  generalize 1 - exp (-(p.c2 * (x * exp (p.c3 * x)))) = G at *
  clear e' e'' r1 r2 r3 r4 r5 r6 r7 l lo hi hT t1 t2
  -- scaling
  have s0 : 0 < p.scale := by linarith
  have c0 : 0 < p.c1 := by linarith
  have K0 : 0.0005 ≤ p.scale * p.c1 := by nlinarith
  have K1 : p.scale * p.c1 ≤ 4000 := by nlinarith
  have g1 : |p.scale * H' - p.scale * (p.c1 * G)| ≤
      (p.scale * p.c1 * (19.5 * e + 680)) * f.u := by
    rw [← mul_sub, abs_mul, abs_of_pos s0]
    have := mul_le_mul_of_nonneg_left c s0.le
    have q : 0 ≤ p.scale * p.c1 * f.u := by positivity
    linarith
  have g2 : |p.scale * (p.c1 * G)| ≤ p.scale * p.c1 := by
    rw [abs_of_nonneg (by positivity), ← mul_assoc]
    exact mul_le_of_le_one_right (by positivity) H1
  generalize p.scale * p.c1 = K at *
  have Ke : K * e ≤ K * 1200 := by gcongr
  have g3 := M.rnd_abs hw (B' := 1.5 * K) g1 g2 (by linarith) (by linarith) (by linarith)
  generalize M.rnd (p.scale * H') = U' at *
  generalize p.scale * (p.c1 * G) = U at *
  have Kn : K * p.number ≤ 4000 * 10 := by gcongr
  have Kn0 : K * 1 ≤ K * p.number := by gcongr
  have g4 : |U' * p.number - U * p.number| ≤ (K * p.number * (19.5 * e + 681.5)) * f.u := by
    rw [← sub_mul, abs_mul, abs_of_pos n0]
    have := mul_le_mul_of_nonneg_right g3 n0.le
    linarith
  have g5 : |U * p.number| ≤ K * p.number := by
    rw [abs_mul, abs_of_pos n0]
    gcongr
  have Kne : K * p.number * e ≤ K * p.number * 1200 := by gcongr
  refine (M.rnd_abs hw (B' := 1.5 * (K * p.number)) g4 g5 (by linarith) (by linarith)
    (by linarith)).trans ?_
  have q : 0 ≤ K * p.number * f.u := by
    have : 0 ≤ K * p.number := by linarith
    positivity
  linarith

variable (ac : Drag.Airframe ℝ) (pol : Drag.Polar ℝ)

include hw in
/-- Required thrust without wave drag. `F` is the thrust of all engines. -/
theorem fl_enrouteThrust {mass tas alt vs acc F : ℝ}
    (h : Spec.DragRange ac.area pol.cd0 pol.k mass tas alt vs) (dT : ℝ) (F1 : 1000 ≤ F)
    (F2 : F ≤ 10000000) (hD : clean np ac pol false mass tas alt vs dT ≤ F)
    (hW : mass * 9.81 ≤ 5 * F) (hA : |mass * acc| ≤ F)
    (hT : |enrouteThrust np ac pol false mass tas alt vs acc dT| ≤ 2 * F) :
    |(enrouteThrust (flt M) (Fl.airframe M ac) (Fl.polar M pol) false ⟨mass⟩ ⟨tas⟩ ⟨alt⟩ ⟨vs⟩ ⟨acc⟩
      ⟨dT⟩).val - enrouteThrust np ac pol false mass tas alt vs acc dT| ≤ 605 * f.u * F := by
  have hu := f.u_pos
  have hu' := hw.u_le'
  have F0 : 0 < F := by linarith
  have e : (enrouteThrust (flt M) (Fl.airframe M ac) (Fl.polar M pol) false ⟨mass⟩ ⟨tas⟩ ⟨alt⟩ ⟨vs⟩
      ⟨acc⟩ ⟨dT⟩).val = M.rnd (M.rnd (
        (clean (flt M) (Fl.airframe M ac) (Fl.polar M pol) false ⟨mass⟩ ⟨tas⟩ ⟨alt⟩ ⟨vs⟩ ⟨dT⟩).val +
        M.rnd (M.rnd (mass * M.rnd 9.81) *
          M.sin (M.arctan2 (M.rnd (vs * M.rnd 0.00508)) (M.rnd (tas * M.rnd 0.514444))))) +
        M.rnd (mass * acc)) := rfl
  rw [enrouteThrust_eq] at hT ⊢
  rw [e]
  obtain ⟨t1, t2⟩ := h.hTas
  obtain ⟨q1, q2⟩ := h.hMass
  have ap := fl_clean M hw ac pol h dT
  have D1 := ap.rel (by norm_num) hu.le (by nlinarith)
  have D0 := ap.pos
  have g := fl_gamma M hw t1 t2 h.hPath
  have s1 := (M.sin_acc (M.arctan2 (M.rnd (vs * M.rnd 0.00508))
    (M.rnd (tas * M.rnd 0.514444)))).abs_add hw (B := 1) (B' := 8.01) ((sin_lip _ _).trans g)
    (abs_sin_le_one _) (by norm_num) (by norm_num) (by norm_num)
  have sl := abs_sin_le_one (atan2R (vs * 0.00508) (tas * 0.514444))
  have w1 := (((Ap.exact (u := f.u) (L := 20) (b := mass) (le_trans (by norm_num) q1)
    (q2.trans (by norm_num))).mul (Ap.lit M hw (L := 4) (b := 9.81) (by norm_num) (by norm_num)
    (by norm_num))).rnd M hw (by norm_num) (by norm_num)).rel (by norm_num) hu.le (by nlinarith)
  have W0 : 0 < mass * 9.81 := by positivity
  generalize (clean (flt M) (Fl.airframe M ac) (Fl.polar M pol) false ⟨mass⟩ ⟨tas⟩ ⟨alt⟩ ⟨vs⟩
    ⟨dT⟩).val = D' at *
  generalize clean np ac pol false mass tas alt vs dT = D at *
  generalize M.sin (M.arctan2 (M.rnd (vs * M.rnd 0.00508)) (M.rnd (tas * M.rnd 0.514444))) = s' at *
  generalize sin (atan2R (vs * 0.00508) (tas * 0.514444)) = s at *
  generalize M.rnd (mass * M.rnd 9.81) = W' at *
  generalize mass * 9.81 = W at *
  generalize mass * acc = A at *
  clear e ap g h
  have uF := mul_pos hu F0
  have uD : f.u * D ≤ f.u * F := by gcongr
  have uW : f.u * W ≤ f.u * (5 * F) := by gcongr
  have p1 : |W' * s' - W * s| ≤ (112.6 * F) * f.u := by
    have e1 : W' * s' - W * s = (W' - W) * s' + W * (s' - s) := by ring
    have s'l : |s'| ≤ 1.001 := by
      have a := abs_le.1 s1; have b := abs_le.1 sl
      exact abs_le.2 ⟨by linarith, by linarith⟩
    rw [e1]
    refine (abs_add_le _ _).trans ?_
    rw [abs_mul, abs_mul, abs_of_pos W0]
    have a := mul_le_mul (w1.trans (by linarith : _ ≤ 10.31 * (f.u * F))) s'l (abs_nonneg _)
      (by positivity)
    have b := mul_le_mul hW s1 (abs_nonneg _) (by positivity)
    linarith
  have p2 : |W * s| ≤ 5 * F := by
    rw [abs_mul, abs_of_pos W0]
    calc W * |s| ≤ 5 * F * 1 := by gcongr
      _ = _ := mul_one _
  have p3 := M.rnd_abs hw (B' := 5.01 * F) p1 p2 (by linarith) (by linarith) (by linarith)
  generalize M.rnd (W' * s') = X' at *
  have p4 : |(D' + X') - (D + W * s)| ≤ (595.5 * F) * f.u := by
    have e1 : (D' + X') - (D + W * s) = (D' - D) + (X' - W * s) := by ring
    rw [e1]
    exact (abs_add_le _ _).trans (by linarith)
  have p5 : |D + W * s| ≤ 6 * F := by
    refine (abs_add_le _ _).trans ?_
    rw [abs_of_pos D0]; linarith
  have p6 := M.rnd_abs hw (B' := 6.01 * F) p4 p5 (by linarith) (by linarith) (by linarith)
  have p7 := M.rnd_abs hw (a := A) (b := A) (c := 0) (B' := 1.01 * F) (by simp) hA (by linarith)
    (by linarith) (by linarith)
  generalize M.rnd (D' + X') = Y' at *
  generalize M.rnd A = A' at *
  have p8 : |(Y' + A') - (D + W * s + A)| ≤ (602.6 * F) * f.u := by
    have e1 : (Y' + A') - (D + W * s + A) = (Y' - (D + W * s)) + (A' - A) := by ring
    rw [e1]
    exact (abs_add_le _ _).trans (by linarith)
  refine (M.rnd_abs hw (B' := 2.01 * F) p8 hT (by linarith) (by linarith) (by linarith)).trans ?_
  linarith

end Verif.Fuel
