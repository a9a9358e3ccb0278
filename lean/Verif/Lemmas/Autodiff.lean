import Verif.Spec.Autodiff
import Verif.Lemmas.NR
import Verif.Lemmas.Defined
import Mathlib.Analysis.SpecialFunctions.Pow.Deriv
import Mathlib.Analysis.SpecialFunctions.Sqrt
import Mathlib.Analysis.SpecialFunctions.ExpDeriv
import Mathlib.Analysis.SpecialFunctions.Log.Deriv
import Mathlib.Analysis.SpecialFunctions.Trigonometric.Deriv
import Mathlib.Analysis.SpecialFunctions.Trigonometric.InverseDeriv
import Mathlib.Analysis.SpecialFunctions.Complex.LogDeriv
import Mathlib.Analysis.Calculus.FDeriv.Mul
import Mathlib.Analysis.Calculus.Deriv.Abs

/-! Each JAX rule computes the true derivative inside the domain of smoothness. -/

namespace Verif.AD.Jvp
open Verif.NR Verif.Spec

variable {E : Type} [NormedAddCommGroup E] [NormedSpace ℝ E] {f g : E → ℝ} {x v : E} {A B : Dual}

theorem of {f' : E →L[ℝ] ℝ} {D : Dual} (h : HasFDerivAt f f' x)
    (hD : D = ⟨val (f x), val (f' v)⟩) : ExactJvp f x v D := by
  refine ⟨h.differentiableAt, ?_, ?_⟩ <;> rw [hD]
  rw [h.fderiv]

theorem out (h : ExactJvp f x v A) :
    ∃ f' : E →L[ℝ] ℝ, HasFDerivAt f f' x ∧ A = ⟨val (f x), val (f' v)⟩ :=
  ⟨fderiv ℝ f x, h.1.hasFDerivAt, Dual.ext h.2.1 h.2.2⟩

theorem congr {f g : E → ℝ} (h : ExactJvp f x v A) (e : g =ᶠ[nhds x] f) : ExactJvp g x v A := by
  obtain ⟨f', kf, rfl⟩ := out h
  exact of (kf.congr_of_eventuallyEq e) (by rw [e.eq_of_nhds])

theorem mem {f : E → ℝ} (h : ExactJvp f x v A) {U : Set ℝ} (hU : U ∈ nhds (f x)) :
    ∀ᶠ y in nhds x, f y ∈ U := h.1.continuousAt.eventually_mem hU

theorem constT (c : ℝ) : ExactJvp (fun _ : E => c) x v (Dual.const c) :=
  of (hasFDerivAt_const c x) rfl

theorem sciT (m : ℕ) (s : Bool) (e : ℕ) :
    ExactJvp (fun _ : E => (OfScientific.ofScientific m s e : ℝ)) x v
      (OfScientific.ofScientific m s e : Dual) := of (hasFDerivAt_const _ x) rfl

theorem linT (L : E →L[ℝ] ℝ) : ExactJvp (fun y => L y) x v (Dual.seed (L x) (L v)) :=
  of L.hasFDerivAt rfl

theorem addT (hf : ExactJvp f x v A) (hg : ExactJvp g x v B) :
    ExactJvp (fun y => f y + g y) x v (A + B) := by
  obtain ⟨f', kf, rfl⟩ := out hf
  obtain ⟨g', kg, rfl⟩ := out hg
  exact of (kf.add kg) rfl

theorem subT (hf : ExactJvp f x v A) (hg : ExactJvp g x v B) :
    ExactJvp (fun y => f y - g y) x v (A - B) := by
  obtain ⟨f', kf, rfl⟩ := out hf
  obtain ⟨g', kg, rfl⟩ := out hg
  exact of (kf.sub kg) rfl

theorem negT (hf : ExactJvp f x v A) : ExactJvp (fun y => -f y) x v (-A) := by
  obtain ⟨f', kf, rfl⟩ := out hf
  exact of kf.neg rfl

theorem mulT (hf : ExactJvp f x v A) (hg : ExactJvp g x v B) :
    ExactJvp (fun y => f y * g y) x v (A * B) := by
  obtain ⟨f', kf, rfl⟩ := out hf
  obtain ⟨g', kg, rfl⟩ := out hg
  refine of (kf.mul kg) (Dual.ext rfl ?_)
  show val (f' v * g x + f x * g' v) = _
  congr 1
  simp; ring

theorem powT (hf : ExactJvp f x v A) (n : ℕ) (hn : n ≠ 0) :
    ExactJvp (fun y => f y ^ n) x v (A ^ n) := by
  obtain ⟨f', kf, rfl⟩ := out hf
  refine of ((hasDerivAt_pow n (f x)).comp_hasFDerivAt x kf) (Dual.ext (val_pow _ _ hn) ?_)
  show (if n = 0 then val 0 else val (f' v) * (val n * (val (f x) : NR) ^ (n - 1))) = _
  rw [if_neg hn]
  have : (val (f x) : NR) ^ (n - 1) = val (f x ^ (n - 1)) := by
    change (if n - 1 = 0 then val 1 else val (f x ^ (n - 1))) = _
    by_cases h : n - 1 = 0 <;> simp [h]
  rw [this]
  simp [mul_comm]

/-- Unary rules. -/
theorem unary {φ : ℝ → ℝ} {φ' : ℝ} {F dF : NR → NR} (hf : ExactJvp f x v A)
    (hφ : HasDerivAt φ φ' (f x)) (h1 : F (val (f x)) = val (φ (f x)))
    (h2 : dF (val (f x)) = val φ') : ExactJvp (fun y => φ (f y)) x v (Dual.lift F dF A) := by
  obtain ⟨f', kf, rfl⟩ := out hf
  refine of (hφ.comp_hasFDerivAt x kf) (Dual.ext h1 ?_)
  show val (f' v) * dF (val (f x)) = _
  rw [h2]; simp [mul_comm]

theorem divT (hf : ExactJvp f x v A) (hg : ExactJvp g x v B) (h0 : g x ≠ 0) :
    ExactJvp (fun y => f y / g y) x v (A / B) := by
  obtain ⟨f', kf, rfl⟩ := out hf
  obtain ⟨g', kg, rfl⟩ := out hg
  have e : (fun y => f y / g y) = fun y => f y * (g y)⁻¹ := by funext y; rw [div_eq_mul_inv]
  rw [e]
  refine of (kf.mul ((hasDerivAt_inv h0).comp_hasFDerivAt x kg)) (Dual.ext (val_div _ _ h0) ?_)
  show (val (f' v) : NR) / val (g x) + -val (g' v) * val (f x) * (val 1 / (val (g x) * val (g x))) = _
  rw [val_div _ _ h0, val_mul, val_div _ _ (mul_ne_zero h0 h0)]
  simp only [val_neg, val_mul, val_add]
  congr 1
  simp
  field_simp
  ring

theorem sqrtT (hf : ExactJvp f x v A) (h0 : 0 < f x) :
    ExactJvp (fun y => np.sqrt (f y)) x v (jaxDual.sqrt A) := by
  refine unary hf (Real.hasDerivAt_sqrt h0.ne') (partialMap_val _ _ _ h0.le) ?_
  rw [Defined.b_sqrt h0.le, val_div _ _ (Real.sqrt_pos.2 h0).ne']
  congr 1; norm_num; ring

theorem expT (hf : ExactJvp f x v A) :
    ExactJvp (fun y => np.exp (f y)) x v (jaxDual.exp A) :=
  unary hf (Real.hasDerivAt_exp _) rfl rfl

theorem logT (hf : ExactJvp f x v A) (h0 : 0 < f x) :
    ExactJvp (fun y => np.log (f y)) x v (jaxDual.log A) := by
  refine unary hf (Real.hasDerivAt_log h0.ne') (partialMap_val _ _ _ h0) ?_
  show val 1 / val (f x) = _
  rw [val_div _ _ h0.ne', one_div]

theorem sinT (hf : ExactJvp f x v A) :
    ExactJvp (fun y => np.sin (f y)) x v (jaxDual.sin A) :=
  unary hf (Real.hasDerivAt_sin _) rfl rfl

theorem cosT (hf : ExactJvp f x v A) :
    ExactJvp (fun y => np.cos (f y)) x v (jaxDual.cos A) :=
  unary hf (Real.hasDerivAt_cos _) rfl rfl

theorem arcsinT (hf : ExactJvp f x v A) (h1 : -1 < f x) (h2 : f x < 1) :
    ExactJvp (fun y => np.arcsin (f y)) x v (jaxDual.arcsin A) := by
  refine unary hf (Real.hasDerivAt_arcsin h1.ne' h2.ne) (Defined.b_arcsin ⟨h1.le, h2.le⟩) ?_
  have h : 0 < 1 - f x * f x := by nlinarith
  rw [val_mul, val_sub, Defined.b_sqrt h.le, val_div _ _ (Real.sqrt_pos.2 h).ne', pow_two]

theorem powerT (hf : ExactJvp f x v A) (hg : ExactJvp g x v B) (h0 : 0 < f x) :
    ExactJvp (fun y => np.power (f y) (g y)) x v (jaxDual.power A B) := by
  obtain ⟨f', kf, rfl⟩ := out hf
  obtain ⟨g', kg, rfl⟩ := out hg
  refine of (kf.rpow kg h0) (Dual.ext (power_val _ _ h0) ?_)
  show (val (f' v) : NR) * (if Dual.eqB ⟨val (g x), val (g' v)⟩ (Dual.const 0) then val 0 else
      val (g x) * NR.power (val (f x)) (val (g x) - val 1)) + val (g' v) *
      (npNR.log (if Dual.eqB ⟨val (f x), val (f' v)⟩ (Dual.const 0) then val 1
        else val (f x)) * NR.power (val (f x)) (val (g x))) = _
  have e1 : Dual.eqB ⟨val (f x), val (f' v)⟩ (Dual.const 0) = false := by
    simp [Dual.eqB, Dual.const, h0.ne']
  simp only [e1, Bool.false_eq_true, if_false]
  rw [Defined.b_log h0, val_sub, power_val _ _ h0, power_val _ _ h0]
  by_cases hz : g x = 0
  · have : Dual.eqB ⟨val (g x), val (g' v)⟩ (Dual.const 0) = true := by
      simp [Dual.eqB, Dual.const, hz]
    rw [this, if_pos rfl]
    simp only [val_mul, val_add]
    congr 1
    simp [hz]; ring
  · have : Dual.eqB ⟨val (g x), val (g' v)⟩ (Dual.const 0) = false := by
      simp [Dual.eqB, Dual.const, hz]
    rw [this, if_neg (by simp)]
    simp only [val_mul, val_add]
    congr 1
    simp; ring

/-- `atan2` is differentiable away from the negative half-axis of its second argument. -/
theorem hasFDerivAt_atan2 {f' g' : E →L[ℝ] ℝ} (hf : HasFDerivAt f f' x) (hg : HasFDerivAt g g' x)
    (h : 0 < g x ∨ f x ≠ 0) : HasFDerivAt (fun y => atan2R (f y) (g y))
      ((g x / (f x ^ 2 + g x ^ 2)) • f' - (f x / (f x ^ 2 + g x ^ 2)) • g') x := by
  have hz : HasFDerivAt (fun y => (Complex.equivRealProdCLM.symm (g y, f y) : ℂ))
      ((Complex.equivRealProdCLM.symm : ℝ × ℝ →L[ℝ] ℂ).comp (g'.prod f')) x :=
    (Complex.equivRealProdCLM.symm : ℝ × ℝ →L[ℝ] ℂ).hasFDerivAt.comp x (hg.prodMk hf)
  have hs : (Complex.equivRealProdCLM.symm (g x, f x) : ℂ) ∈ Complex.slitPlane := by
    rw [Complex.mem_slitPlane_iff]; simpa using h
  have hl := (Complex.hasStrictFDerivAt_log_real hs).hasFDerivAt.comp x hz
  have hi := Complex.imCLM.hasFDerivAt.comp x hl
  have e : (fun y => atan2R (f y) (g y)) =
      (Complex.imCLM ∘ (Complex.log ∘ fun y => (Complex.equivRealProdCLM.symm (g y, f y) : ℂ))) := by
    funext y
    simp [atan2R, Complex.log_im]
    rfl
  rw [e]
  refine hi.congr_fderiv ?_
  ext w
  simp [Complex.inv_im, Complex.inv_re, Complex.normSq_apply]
  ring

theorem arctan2T (hf : ExactJvp f x v A) (hg : ExactJvp g x v B) (h : 0 < g x ∨ f x ≠ 0) :
    ExactJvp (fun y => np.arctan2 (f y) (g y)) x v (jaxDual.arctan2 A B) := by
  obtain ⟨f', kf, rfl⟩ := out hf
  obtain ⟨g', kg, rfl⟩ := out hg
  have h0 : f x * f x + g x * g x ≠ 0 := by
    rcases h with h | h
    · nlinarith [mul_pos h h, mul_self_nonneg (f x)]
    · have := sq_pos_of_ne_zero h; nlinarith [mul_self_nonneg (g x)]
  refine of (hasFDerivAt_atan2 kf kg h) (Dual.ext rfl ?_)
  show (val (f' v) : NR) * (val (g x) / (val (f x) * val (f x) + val (g x) * val (g x))) +
    val (g' v) * -(val (f x) / (val (f x) * val (f x) + val (g x) * val (g x))) = _
  simp only [val_mul, val_add]
  rw [val_div _ _ h0, val_div _ _ h0]
  simp only [val_mul, val_add, val_neg]
  congr 1
  simp [pow_two]; ring

theorem absT (hf : ExactJvp f x v A) (h0 : Clear f x 0) :
    ExactJvp (fun y => np.abs (f y)) x v (jaxDual.abs A) := by
  rcases h0 with h0 | h0
  · refine unary (φ := fun x => |x|) (φ' := Real.sign (f x)) hf ?_ rfl rfl
    rcases lt_or_gt_of_ne h0 with h | h
    · rw [Real.sign_of_neg h]; exact hasDerivAt_abs_neg h
    · rw [Real.sign_of_pos h]; exact hasDerivAt_abs_pos h
  · have he : (fun y => np.abs (f y)) =ᶠ[nhds x] fun _ => (0 : ℝ) :=
      h0.mono fun y hy => by show |f y| = 0; rw [hy, abs_zero]
    refine congr (of (hasFDerivAt_const (0 : ℝ) x) ?_) he
    have eA : A = ⟨val 0, A.t⟩ := Dual.ext (by rw [hf.2.1, h0.self_of_nhds]) rfl
    rw [eA, hf.2.2]
    refine Dual.ext (congrArg val abs_zero) ?_
    show (val _ : NR) * val (Real.sign 0) = val 0
    simp

/-- A maximum or minimum whose first operand is the strict winner. -/
theorem pick_left {F : ℝ → ℝ → ℝ} (hf : ExactJvp f x v A) (hg : ExactJvp g x v B)
    (he : ∀ᶠ y in nhds x, F (f y) (g y) = f y) (hne : g x ≠ f x) :
    ExactJvp (fun y => F (f y) (g y)) x v (Dual.pick F A B) := by
  have h0 : F (f x) (g x) = f x := he.self_of_nhds
  have : Dual.pick F A B = A := by
    obtain ⟨f', kf, rfl⟩ := out hf
    obtain ⟨g', kg, rfl⟩ := out hg
    refine Dual.ext (congrArg val h0) ?_
    show (val (f' v) : NR) * val (Dual.balanced (f x) (F (f x) (g x)) (g x)) +
      val (g' v) * val (Dual.balanced (g x) (F (f x) (g x)) (f x)) = _
    rw [h0]
    simp [Dual.balanced, hne]
  rw [this]
  exact congr hf he

/-- A maximum or minimum whose second operand is the strict winner. -/
theorem pick_right {F : ℝ → ℝ → ℝ} (hf : ExactJvp f x v A) (hg : ExactJvp g x v B)
    (he : ∀ᶠ y in nhds x, F (f y) (g y) = g y) (hne : f x ≠ g x) :
    ExactJvp (fun y => F (f y) (g y)) x v (Dual.pick F A B) := by
  have h0 : F (f x) (g x) = g x := he.self_of_nhds
  have : Dual.pick F A B = B := by
    obtain ⟨f', kf, rfl⟩ := out hf
    obtain ⟨g', kg, rfl⟩ := out hg
    refine Dual.ext (congrArg val h0) ?_
    show (val (f' v) : NR) * val (Dual.balanced (f x) (F (f x) (g x)) (g x)) +
      val (g' v) * val (Dual.balanced (g x) (F (f x) (g x)) (f x)) = _
    rw [h0]
    simp [Dual.balanced, hne]
  rw [this]
  exact congr hg he

theorem lt_near (hf : ExactJvp f x v A) (hg : ExactJvp g x v B) (h : f x < g x) :
    ∀ᶠ y in nhds x, f y < g y := hf.1.continuousAt.eventually_lt hg.1.continuousAt h

/-- Two operands that stay equal: each gets weight one half. -/
theorem pick_same {F : ℝ → ℝ → ℝ} (hF : ∀ a, F a a = a) (hf : ExactJvp f x v A)
    (hg : ExactJvp g x v B) (he : f =ᶠ[nhds x] g) :
    ExactJvp (fun y => F (f y) (g y)) x v (Dual.pick F A B) := by
  have hd : fderiv ℝ f x = fderiv ℝ g x := he.fderiv_eq
  have hx : f x = g x := he.eq_of_nhds
  have : Dual.pick F A B = A := by
    have eA : A = ⟨val (f x), val (fderiv ℝ f x v)⟩ := Dual.ext hf.2.1 hf.2.2
    have eB : B = ⟨val (f x), val (fderiv ℝ f x v)⟩ := by
      rw [hd, hx]; exact Dual.ext hg.2.1 hg.2.2
    rw [eA, eB]
    refine Dual.ext (congrArg val (hF _)) ?_
    show (val (fderiv ℝ f x v) : NR) * val (Dual.balanced (f x) (F (f x) (f x)) (f x)) +
      val (fderiv ℝ f x v) * val (Dual.balanced (f x) (F (f x) (f x)) (f x)) = _
    rw [hF, val_mul, val_add]
    congr 1
    simp only [Dual.balanced, if_true]; ring
  rw [this]
  exact congr hf (he.mono fun y hy => by simp only [← hy, hF])

theorem maxT (hf : ExactJvp f x v A) (hg : ExactJvp g x v B)
    (h : f x ≠ g x ∨ f =ᶠ[nhds x] g) :
    ExactJvp (fun y => np.maximum (f y) (g y)) x v (jaxDual.maximum A B) := by
  rcases h with h | h
  · rcases lt_or_gt_of_ne h with h' | h'
    · exact pick_right hf hg ((lt_near hf hg h').mono fun y hy => max_eq_right hy.le) h
    · exact pick_left hf hg ((lt_near hg hf h').mono fun y hy => max_eq_left hy.le) h.symm
  · exact pick_same max_self hf hg h

theorem minT (hf : ExactJvp f x v A) (hg : ExactJvp g x v B)
    (h : f x ≠ g x ∨ f =ᶠ[nhds x] g) :
    ExactJvp (fun y => np.minimum (f y) (g y)) x v (jaxDual.minimum A B) := by
  rcases h with h | h
  · rcases lt_or_gt_of_ne h with h' | h'
    · exact pick_left hf hg ((lt_near hf hg h').mono fun y hy => min_eq_left hy.le) h.symm
    · exact pick_right hf hg ((lt_near hg hf h').mono fun y hy => min_eq_right hy.le) h
  · exact pick_same min_self hf hg h

theorem ltB_val (a b s t : ℝ) : Dual.ltB ⟨val a, val s⟩ ⟨val b, val t⟩ = true ↔ a < b := by
  simp [Dual.ltB]

theorem ltB_iff (hf : ExactJvp f x v A) (hg : ExactJvp g x v B) :
    Dual.ltB A B = true ↔ f x < g x := by
  obtain ⟨f', kf, rfl⟩ := out hf
  obtain ⟨g', kg, rfl⟩ := out hg
  exact ltB_val _ _ _ _

theorem eqB_iff (hf : ExactJvp f x v A) (hg : ExactJvp g x v B) :
    Dual.eqB A B = true ↔ f x = g x := by
  obtain ⟨f', kf, rfl⟩ := out hf
  obtain ⟨g', kg, rfl⟩ := out hg
  simp [Dual.eqB]

/-- `where(a > c, p, q)` away from equality. Only the branch chosen has to be smooth. -/
theorem whereT {a p q : E → ℝ} {c : ℝ} {A C P Q : Dual} (ha : ExactJvp a x v A)
    (hc : ExactJvp (fun _ => c) x v C) (hp : c < a x → ExactJvp p x v P)
    (hq : a x ≤ c → ExactJvp q x v Q) (hne : Clear a x c) :
    ExactJvp (fun y => np.whereGt (a y) c (p y) (q y)) x v (jaxDual.whereGt A C P Q) := by
  have hb := ltB_iff hc ha
  show ExactJvp _ x v (if Dual.ltB C A = true then P else Q)
  by_cases h : c < a x
  · rw [if_pos (hb.2 h)]
    refine congr (hp h) ((lt_near hc ha h).mono fun y hy => ?_)
    show (if a y > c then p y else q y) = p y
    exact if_pos hy
  · rw [if_neg (fun h' => absurd (hb.1 h') h)]
    have he : ∀ᶠ y in nhds x, a y ≤ c := by
      rcases hne with hne | hne
      · exact (lt_near ha hc (lt_of_le_of_ne (not_lt.1 h) hne)).mono fun y hy => hy.le
      · exact hne.mono fun y hy => hy.le
    refine congr (hq (not_lt.1 h)) (he.mono fun y hy => ?_)
    show (if a y > c then p y else q y) = q y
    exact if_neg (not_lt.2 hy)

end Verif.AD.Jvp
