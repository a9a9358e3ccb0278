import Verif.Lemmas.AutodiffJax

/-! Partial derivatives, summed up forward or handed back, give the derivative. -/

namespace Verif.AD.Jets
open Verif.NR Verif.Spec

variable {E : Type} [NormedAddCommGroup E] [NormedSpace ℝ E] {T : Type} [Tan T]

/-- What carried information represents which linear map. -/
structure IsLin (Lin : (E →L[ℝ] ℝ) → T → Prop) : Prop where
  zero : Lin 0 Tan.zero
  add {a b : E →L[ℝ] ℝ} {s t : T} (ha : Lin a s) (hb : Lin b t) : Lin (a + b) (Tan.add s t)
  smul {a : E →L[ℝ] ℝ} {s : T} (c : ℝ) (ha : Lin a s) : Lin (c • a) (Tan.smul (val c) s)
  sel {a b : E →L[ℝ] ℝ} {s t : T} (c : Bool) (ha : Lin a s) (hb : Lin b t) :
    Lin (if c then a else b) (Tan.sel c s t)

theorem isLin_forward (v : E) : IsLin (fun (a : E →L[ℝ] ℝ) (t : NR) => t = val (a v)) where
  zero := rfl
  add := by rintro a b _ _ rfl rfl; rfl
  smul := by rintro a _ c rfl; exact congrArg val (mul_comm _ _)
  sel := by rintro a b _ _ c rfl rfl; cases c <;> rfl

theorem isLin_reverse {ι : Type} [Fintype ι] [DecidableEq ι] :
    IsLin (fun (a : (ι → ℝ) →L[ℝ] ℝ) (t : Pull ι) =>
      ∀ (c : ℝ) (i : ι), t (val c) i = val (c * a (Pi.single i 1))) where
  zero c i := by simp [Tan.zero]
  add := by
    intro a b s t ha hb c i
    show s (val c) i + t (val c) i = _
    rw [ha, hb, val_add]
    congr 1
    simp; ring
  smul := by
    intro a s k ha c i
    show s (val c * val k) i = _
    rw [val_mul, ha]
    congr 1
    simp; ring
  sel := by
    intro a b s t k ha hb c i
    cases k
    · show s (val 0) i + t (val c) i = _
      rw [ha, hb]; simp
    · show s (val c) i + t (val 0) i = _
      rw [ha, hb]; simp

variable {Lin : (E →L[ℝ] ℝ) → T → Prop} (hL : IsLin Lin) {x : E} {f g : E → ℝ} {A B : Jet T}

/-- The right result in terms of `Lin`. -/
def Good (Lin : (E →L[ℝ] ℝ) → T → Prop) (x : E) (f : E → ℝ) (A : Jet T) : Prop :=
  DifferentiableAt ℝ f x ∧ A.p = val (f x) ∧ Lin (fderiv ℝ f x) A.t

theorem of {f' : E →L[ℝ] ℝ} (h : HasFDerivAt f f' x) (hp : A.p = val (f x)) (ht : Lin f' A.t) :
    Good Lin x f A := ⟨h.differentiableAt, hp, by rw [h.fderiv]; exact ht⟩

theorem out (h : Good Lin x f A) :
    ∃ (f' : E →L[ℝ] ℝ) (t : T), HasFDerivAt f f' x ∧ Lin f' t ∧ A = ⟨val (f x), t⟩ :=
  ⟨fderiv ℝ f x, A.t, h.1.hasFDerivAt, h.2.2, by rw [← h.2.1]⟩

theorem congr {f g : E → ℝ} (h : Good Lin x f A) (e : g =ᶠ[nhds x] f) : Good Lin x g A := by
  obtain ⟨f', t, kf, kl, rfl⟩ := out h
  exact of (kf.congr_of_eventuallyEq e) (by rw [e.eq_of_nhds]) kl

include hL

theorem constT (c : ℝ) : Good Lin x (fun _ : E => c) (Jet.const c) :=
  of (hasFDerivAt_const c x) rfl hL.zero

theorem sciT (m : ℕ) (s : Bool) (e : ℕ) :
    Good Lin x (fun _ : E => (OfScientific.ofScientific m s e : ℝ))
      (OfScientific.ofScientific m s e : Jet T) := of (hasFDerivAt_const _ x) rfl hL.zero

theorem addT (hf : Good Lin x f A) (hg : Good Lin x g B) :
    Good Lin x (fun y => f y + g y) (A + B) := by
  obtain ⟨f', s, kf, ks, rfl⟩ := out hf
  obtain ⟨g', t, kg, kt, rfl⟩ := out hg
  exact of (kf.add kg) rfl (hL.add ks kt)

theorem subT (hf : Good Lin x f A) (hg : Good Lin x g B) :
    Good Lin x (fun y => f y - g y) (A - B) := by
  obtain ⟨f', s, kf, ks, rfl⟩ := out hf
  obtain ⟨g', t, kg, kt, rfl⟩ := out hg
  refine of ((kf.sub kg).congr_fderiv ?_) rfl (hL.add ks (hL.smul (-1) kt))
  ext; simp; ring

theorem negT (hf : Good Lin x f A) : Good Lin x (fun y => -f y) (-A) := by
  obtain ⟨f', s, kf, ks, rfl⟩ := out hf
  refine of (kf.neg.congr_fderiv ?_) rfl (hL.smul (-1) ks)
  ext; simp

theorem mulT (hf : Good Lin x f A) (hg : Good Lin x g B) :
    Good Lin x (fun y => f y * g y) (A * B) := by
  obtain ⟨f', s, kf, ks, rfl⟩ := out hf
  obtain ⟨g', t, kg, kt, rfl⟩ := out hg
  refine of ((kf.mul kg).congr_fderiv ?_) rfl (hL.add (hL.smul (g x) ks) (hL.smul (f x) kt))
  ext; simp; ring

/-- Unary rules. -/
theorem unary {φ : ℝ → ℝ} {φ' : ℝ} {F dF : NR → NR} (hf : Good Lin x f A)
    (hφ : HasDerivAt φ φ' (f x)) (h1 : F (val (f x)) = val (φ (f x)))
    (h2 : dF (val (f x)) = val φ') : Good Lin x (fun y => φ (f y)) (Jet.lift F dF A) := by
  obtain ⟨f', s, kf, ks, rfl⟩ := out hf
  refine of (hφ.comp_hasFDerivAt x kf) h1 ?_
  show Lin _ (Tan.smul (dF (val (f x))) s)
  rw [h2]; exact hL.smul φ' ks

theorem powT (hf : Good Lin x f A) (n : ℕ) (hn : n ≠ 0) :
    Good Lin x (fun y => f y ^ n) (A ^ n) := by
  obtain ⟨f', s, kf, ks, rfl⟩ := out hf
  refine of ((hasDerivAt_pow n (f x)).comp_hasFDerivAt x kf) (val_pow _ _ hn) ?_
  show Lin _ (if n = 0 then Tan.zero else Tan.smul (val n * (val (f x) : NR) ^ (n - 1)) s)
  rw [if_neg hn]
  have : (val (f x) : NR) ^ (n - 1) = val (f x ^ (n - 1)) := by
    change (if n - 1 = 0 then val 1 else val (f x ^ (n - 1))) = _
    by_cases h : n - 1 = 0 <;> simp [h]
  rw [this, val_mul]
  exact hL.smul _ ks

theorem divT (hf : Good Lin x f A) (hg : Good Lin x g B) (h0 : g x ≠ 0) :
    Good Lin x (fun y => f y / g y) (A / B) := by
  obtain ⟨f', s, kf, ks, rfl⟩ := out hf
  obtain ⟨g', t, kg, kt, rfl⟩ := out hg
  have e : (fun y => f y / g y) = fun y => f y * (g y)⁻¹ := by funext y; rw [div_eq_mul_inv]
  rw [e]
  refine of ((kf.mul ((hasDerivAt_inv h0).comp_hasFDerivAt x kg)).congr_fderiv
    (g' := (1 / g x) • f' + (-(f x * (1 / (g x * g x)))) • g') ?_) (val_div _ _ h0) ?_
  · ext; simp; field_simp; ring
  · show Lin _ (Tan.add (Tan.smul (val 1 / val (g x)) s)
      (Tan.smul (-(val (f x) * (val 1 / (val (g x) * val (g x))))) t))
    rw [val_div _ _ h0, val_mul, val_div _ _ (mul_ne_zero h0 h0), val_mul, val_neg]
    exact hL.add (hL.smul _ ks) (hL.smul _ kt)

theorem expT (hf : Good Lin x f A) : Good Lin x (fun y => np.exp (f y))
    (Jet.lift npNR.exp npNR.exp A) := unary hL hf (Real.hasDerivAt_exp _) rfl rfl

theorem logT (hf : Good Lin x f A) (h0 : 0 < f x) : Good Lin x (fun y => np.log (f y))
    (Jet.lift npNR.log (fun x => val 1 / x) A) := by
  refine unary hL hf (Real.hasDerivAt_log h0.ne') (partialMap_val _ _ _ h0) ?_
  show val 1 / val (f x) = _
  rw [val_div _ _ h0.ne', one_div]

theorem sinT (hf : Good Lin x f A) : Good Lin x (fun y => np.sin (f y))
    (Jet.lift npNR.sin npNR.cos A) := unary hL hf (Real.hasDerivAt_sin _) rfl rfl

theorem cosT (hf : Good Lin x f A) : Good Lin x (fun y => np.cos (f y))
    (Jet.lift npNR.cos (fun x => -npNR.sin x) A) := unary hL hf (Real.hasDerivAt_cos _) rfl rfl

theorem arcsinT (hf : Good Lin x f A) (h1 : -1 < f x) (h2 : f x < 1) :
    Good Lin x (fun y => np.arcsin (f y))
      (Jet.lift npNR.arcsin (fun x => val 1 / npNR.sqrt (val 1 - x * x)) A) := by
  refine unary hL hf (Real.hasDerivAt_arcsin h1.ne' h2.ne) (Defined.b_arcsin ⟨h1.le, h2.le⟩) ?_
  have h : 0 < 1 - f x * f x := by nlinarith
  rw [val_mul, val_sub, Defined.b_sqrt h.le, val_div _ _ (Real.sqrt_pos.2 h).ne', pow_two]

theorem sqrtJ (hf : Good Lin x f A) (h0 : 0 < f x) : Good Lin x (fun y => np.sqrt (f y))
    (Jet.lift npNR.sqrt (fun x => val 0.5 / npNR.sqrt x) A) := by
  refine unary hL hf (Real.hasDerivAt_sqrt h0.ne') (partialMap_val _ _ _ h0.le) ?_
  rw [Defined.b_sqrt h0.le, val_div _ _ (Real.sqrt_pos.2 h0).ne']
  congr 1; norm_num; ring

theorem sqrtC (hf : Good Lin x f A) (h0 : 0 < f x) : Good Lin x (fun y => np.sqrt (f y))
    (Jet.lift npNR.sqrt (fun x => val 1 / (val 2 * npNR.sqrt x)) A) := by
  refine unary hL hf (Real.hasDerivAt_sqrt h0.ne') (partialMap_val _ _ _ h0.le) ?_
  rw [Defined.b_sqrt h0.le, val_mul, val_div _ _ (mul_pos two_pos (Real.sqrt_pos.2 h0)).ne']

theorem powerC (hf : Good Lin x f A) (hg : Good Lin x g B) (h0 : 0 < f x) :
    Good Lin x (fun y => np.power (f y) (g y)) (Jet.powerCa A B) := by
  obtain ⟨f', s, kf, ks, rfl⟩ := out hf
  obtain ⟨g', t, kg, kt, rfl⟩ := out hg
  refine of ((kf.rpow kg h0).congr_fderiv (g' := (g x * f x ^ (g x - 1)) • f' +
    (Real.log (f x) * f x ^ g x) • g') ?_) (power_val _ _ h0) ?_
  · ext; simp; left; ring
  · show Lin _ (Tan.add (Tan.smul (val (g x) * NR.power (val (f x)) (val (g x) - val 1)) s)
      (Tan.smul (npNR.log (val (f x)) * NR.power (val (f x)) (val (g x))) t))
    rw [Defined.b_log h0, val_sub, power_val _ _ h0, power_val _ _ h0, val_mul, val_mul]
    exact hL.add (hL.smul _ ks) (hL.smul _ kt)

theorem powerJ (hf : Good Lin x f A) (hg : Good Lin x g B) (h0 : 0 < f x) :
    Good Lin x (fun y => np.power (f y) (g y)) (Jet.power A B) := by
  have key := powerC hL hf hg h0
  have e : Jet.power A B = Jet.powerCa A B := by
    obtain ⟨f', s, kf, ks, rfl⟩ := out hf
    obtain ⟨g', t, kg, kt, rfl⟩ := out hg
    have e1 : Jet.eqB (⟨val (f x), s⟩ : Jet T) (Jet.const 0) = false := by
      simp [Jet.eqB, Jet.const, h0.ne']
    unfold Jet.power Jet.powerCa
    rw [e1]
    by_cases hz : g x = 0
    · have e2 : Jet.eqB (⟨val (g x), t⟩ : Jet T) (Jet.const 0) = true := by
        simp [Jet.eqB, Jet.const, hz]
      rw [e2]
      have : (val (g x) : NR) * npNR.power (val (f x)) (val (g x) - val 1) = val 0 := by
        rw [val_sub]
        show (val (g x) : NR) * NR.power (val (f x)) (val (g x - 1)) = _
        rw [power_val _ _ h0, val_mul, hz, zero_mul]
      simp only [this, if_true, if_false, Bool.false_eq_true]
    · have e2 : Jet.eqB (⟨val (g x), t⟩ : Jet T) (Jet.const 0) = false := by
        simp [Jet.eqB, Jet.const, hz]
      rw [e2]; simp
  rw [e]; exact key

theorem arctan2T (hf : Good Lin x f A) (hg : Good Lin x g B) (h : 0 < g x ∨ f x ≠ 0) :
    Good Lin x (fun y => np.arctan2 (f y) (g y)) (Jet.arctan2 A B) := by
  obtain ⟨f', s, kf, ks, rfl⟩ := out hf
  obtain ⟨g', t, kg, kt, rfl⟩ := out hg
  have h0 : f x * f x + g x * g x ≠ 0 := by
    rcases h with h | h
    · nlinarith [mul_pos h h, mul_self_nonneg (f x)]
    · have := sq_pos_of_ne_zero h; nlinarith [mul_self_nonneg (g x)]
  refine of ((Jvp.hasFDerivAt_atan2 kf kg h).congr_fderiv
    (g' := (g x / (f x * f x + g x * g x)) • f' + (-(f x / (f x * f x + g x * g x))) • g') ?_) rfl ?_
  · ext; simp [pow_two]; ring
  · show Lin _ (Tan.add (Tan.smul (val (g x) / (val (f x) * val (f x) + val (g x) * val (g x))) s)
      (Tan.smul (-(val (f x) / (val (f x) * val (f x) + val (g x) * val (g x)))) t))
    simp only [val_mul, val_add]
    rw [val_div _ _ h0, val_div _ _ h0, val_neg]
    exact hL.add (hL.smul _ ks) (hL.smul _ kt)

theorem absT (hf : Good Lin x f A) (h0 : Clear f x 0) : Good Lin x (fun y => np.abs (f y))
    (Jet.lift npNR.abs (NR.map Real.sign) A) := by
  rcases h0 with h0 | h0
  · refine unary (φ := fun x => |x|) (φ' := Real.sign (f x)) hL hf ?_ rfl rfl
    rcases lt_or_gt_of_ne h0 with h | h
    · rw [Real.sign_of_neg h]; exact hasDerivAt_abs_neg h
    · rw [Real.sign_of_pos h]; exact hasDerivAt_abs_pos h
  · obtain ⟨f', s, kf, ks, rfl⟩ := out hf
    have hx : f x = 0 := h0.self_of_nhds
    have he : (fun y => np.abs (f y)) =ᶠ[nhds x] fun _ => (0 : ℝ) :=
      h0.mono fun y hy => by show |f y| = 0; rw [hy, abs_zero]
    refine congr (of (f' := (0 : ℝ) • f') ((hasFDerivAt_const (0 : ℝ) x).congr_fderiv (by simp)) ?_
      ?_) he
    · show val |f x| = val 0
      rw [hx, abs_zero]
    · show Lin _ (Tan.smul (val (Real.sign (f x))) s)
      rw [hx, Real.sign_zero]; exact hL.smul _ ks

/-- Maximum or minimum: the winner, or both when they stay equal. -/
theorem pickT (w : ℝ) {φ : ℝ → ℝ → ℝ} {F : NR → NR → NR} (hF : ∀ a c, F (val a) (val c) = val (φ a c))
    (hφ : ∀ a, φ a a = a) (hf : Good Lin x f A) (hg : Good Lin x g B)
    (h : (f x ≠ g x ∧ ((∀ᶠ y in nhds x, φ (f y) (g y) = f y) ∨ ∀ᶠ y in nhds x, φ (f y) (g y) = g y)) ∨
      f =ᶠ[nhds x] g) :
    Good Lin x (fun y => φ (f y) (g y)) (Jet.pick w φ F A B) := by
  obtain ⟨f', s, kf, ks, rfl⟩ := out hf
  obtain ⟨g', t, kg, kt, rfl⟩ := out hg
  have lin : ∀ c : ℝ, Lin (c • f' + (1 - c) • g') (Tan.add (Tan.smul (val c) s)
      (Tan.smul (val (1 - c)) t)) := fun c => hL.add (hL.smul _ ks) (hL.smul _ kt)
  rcases h with ⟨hne, h | h⟩ | h
  · have h0 : φ (f x) (g x) = f x := h.self_of_nhds
    have hw : Jet.weight w (f x) (φ (f x) (g x)) (g x) = 1 := by
      simp [Jet.weight, hne, h0]
    refine of (f' := (1 : ℝ) • f' + (1 - 1 : ℝ) • g')
      ((kf.congr_of_eventuallyEq h).congr_fderiv (by simp)) (hF _ _) ?_
    show Lin _ (Tan.add (Tan.smul (val (Jet.weight w (f x) (φ (f x) (g x)) (g x))) s)
      (Tan.smul (val (1 - Jet.weight w (f x) (φ (f x) (g x)) (g x))) t))
    rw [hw]; exact lin 1
  · have h0 : φ (f x) (g x) = g x := h.self_of_nhds
    have hw : Jet.weight w (f x) (φ (f x) (g x)) (g x) = 0 := by
      simp [Jet.weight, hne, h0]
    refine of (f' := (0 : ℝ) • f' + (1 - 0 : ℝ) • g')
      ((kg.congr_of_eventuallyEq h).congr_fderiv (by simp)) (hF _ _) ?_
    show Lin _ (Tan.add (Tan.smul (val (Jet.weight w (f x) (φ (f x) (g x)) (g x))) s)
      (Tan.smul (val (1 - Jet.weight w (f x) (φ (f x) (g x)) (g x))) t))
    rw [hw]; exact lin 0
  · have hx : f x = g x := h.eq_of_nhds
    have hd : f' = g' := (kf.congr_of_eventuallyEq h.symm).unique kg
    have hw : Jet.weight w (f x) (φ (f x) (g x)) (g x) = w := by simp [Jet.weight, hx]
    have he : (fun y => φ (f y) (g y)) =ᶠ[nhds x] f := h.mono fun y hy => by simp only [← hy, hφ]
    refine of (f' := w • f' + (1 - w) • g')
      ((kf.congr_of_eventuallyEq he).congr_fderiv ?_) (hF _ _) ?_
    · rw [← hd, ← add_smul]; simp
    · show Lin _ (Tan.add (Tan.smul (val (Jet.weight w (f x) (φ (f x) (g x)) (g x))) s)
        (Tan.smul (val (1 - Jet.weight w (f x) (φ (f x) (g x)) (g x))) t))
      rw [hw]; exact lin w

theorem lt_near (hf : Good Lin x f A) (hg : Good Lin x g B) (h : f x < g x) :
    ∀ᶠ y in nhds x, f y < g y := hf.1.continuousAt.eventually_lt hg.1.continuousAt h

theorem maxT (w : ℝ) {F : NR → NR → NR} (hF : ∀ a c, F (val a) (val c) = val (max a c))
    (hf : Good Lin x f A) (hg : Good Lin x g B) (h : f x ≠ g x ∨ f =ᶠ[nhds x] g) :
    Good Lin x (fun y => max (f y) (g y)) (Jet.pick w max F A B) := by
  refine pickT hL w hF max_self hf hg (h.imp_left fun h => ⟨h, ?_⟩)
  rcases lt_or_gt_of_ne h with h' | h'
  · exact Or.inr ((lt_near hL hf hg h').mono fun y hy => max_eq_right hy.le)
  · exact Or.inl ((lt_near hL hg hf h').mono fun y hy => max_eq_left hy.le)

theorem minT (w : ℝ) {F : NR → NR → NR} (hF : ∀ a c, F (val a) (val c) = val (min a c))
    (hf : Good Lin x f A) (hg : Good Lin x g B) (h : f x ≠ g x ∨ f =ᶠ[nhds x] g) :
    Good Lin x (fun y => min (f y) (g y)) (Jet.pick w min F A B) := by
  refine pickT hL w hF min_self hf hg (h.imp_left fun h => ⟨h, ?_⟩)
  rcases lt_or_gt_of_ne h with h' | h'
  · exact Or.inl ((lt_near hL hf hg h').mono fun y hy => min_eq_left hy.le)
  · exact Or.inr ((lt_near hL hg hf h').mono fun y hy => min_eq_right hy.le)

theorem ltB_iff (hf : Good Lin x f A) (hg : Good Lin x g B) :
    Jet.ltB A B = true ↔ f x < g x := by
  obtain ⟨f', s, kf, ks, rfl⟩ := out hf
  obtain ⟨g', t, kg, kt, rfl⟩ := out hg
  simp [Jet.ltB]

theorem eqB_iff (hf : Good Lin x f A) (hg : Good Lin x g B) :
    Jet.eqB A B = true ↔ f x = g x := by
  obtain ⟨f', s, kf, ks, rfl⟩ := out hf
  obtain ⟨g', t, kg, kt, rfl⟩ := out hg
  simp [Jet.eqB]

/-- Both forms of the conditional. -/
theorem whereT {a p q : E → ℝ} {c : ℝ} {A C P Q : Jet T} (ha : Good Lin x a A)
    (hc : Good Lin x (fun _ => c) C) (hp : Good Lin x p P) (hq : Good Lin x q Q)
    (hne : Clear a x c) :
    Good Lin x (fun y => np.whereGt (a y) c (p y) (q y)) (Jet.select A C P Q) ∧
    Good Lin x (fun y => np.whereGt (a y) c (p y) (q y)) (Jet.ifElse A C P Q) := by
  have hb := ltB_iff hL hc ha
  obtain ⟨p', s, kp, ks, rfl⟩ := out hp
  obtain ⟨q', t, kq, kt, rfl⟩ := out hq
  by_cases h : c < a x
  · have he : (fun y => np.whereGt (a y) c (p y) (q y)) =ᶠ[nhds x] p :=
      (lt_near hL hc ha h).mono fun y hy => if_pos hy
    have hB : Jet.ltB C A = true := hb.2 h
    constructor
    · refine of (kp.congr_of_eventuallyEq he) ?_ ?_
      · rw [he.eq_of_nhds]; simp [Jet.select, hB]
      · have := hL.sel true ks kt
        simpa [Jet.select, hB] using this
    · refine of (f' := (1 : ℝ) • p' + (0 : ℝ) • q')
        ((kp.congr_of_eventuallyEq he).congr_fderiv (by simp)) ?_ ?_
      · rw [he.eq_of_nhds]; simp [Jet.ifElse, hB]
      · have := hL.add (hL.smul 1 ks) (hL.smul 0 kt)
        simpa only [Jet.ifElse, hB, if_true] using this
  · have hev : ∀ᶠ y in nhds x, a y ≤ c := by
      rcases hne with hne | hne
      · exact (lt_near hL ha hc (lt_of_le_of_ne (not_lt.1 h) hne)).mono fun y hy => hy.le
      · exact hne.mono fun y hy => hy.le
    have he : (fun y => np.whereGt (a y) c (p y) (q y)) =ᶠ[nhds x] q :=
      hev.mono fun y hy => if_neg (not_lt.2 hy)
    have hB : Jet.ltB C A = false := by
      rw [Bool.eq_false_iff]; exact fun h' => h (hb.1 h')
    constructor
    · refine of (kq.congr_of_eventuallyEq he) ?_ ?_
      · rw [he.eq_of_nhds]; simp [Jet.select, hB]
      · have := hL.sel false ks kt
        simpa [Jet.select, hB] using this
    · refine of (f' := (0 : ℝ) • p' + (1 : ℝ) • q')
        ((kq.congr_of_eventuallyEq he).congr_fderiv (by simp)) ?_ ?_
      · rw [he.eq_of_nhds]; simp [Jet.ifElse, hB]
      · have := hL.add (hL.smul 0 ks) (hL.smul 1 kt)
        simpa only [Jet.ifElse, hB, if_false, Bool.false_eq_true] using this

theorem arctan2Lin {f' g' : E →L[ℝ] ℝ} {s t : T} {a c : ℝ} (ks : Lin f' s) (kt : Lin g' t)
    (h0 : a * a + c * c ≠ 0) :
    Lin ((c / (a * a + c * c)) • f' + (-(a / (a * a + c * c))) • g')
      (Jet.arctan2 (⟨val a, s⟩ : Jet T) ⟨val c, t⟩).t := by
  show Lin _ (Tan.add (Tan.smul (val c / (val a * val a + val c * val c)) s)
      (Tan.smul (-(val a / (val a * val a + val c * val c))) t))
  simp only [val_mul, val_add]
  rw [val_div _ _ h0, val_div _ _ h0, val_neg]
  exact hL.add (hL.smul _ ks) (hL.smul _ kt)

theorem compassT (hf : Good Lin x f A) (hg : Good Lin x g B) (h : ¬ (0 ≤ g x ∧ f x = 0)) :
    Good Lin x (fun y => np.fmod (np.arctan2 (f y) (g y) * (180.0 / np.pi) + 360.0) 360.0)
      (Jet.fmod (Jet.arctan2 A B * (180.0 / Jet.const Real.pi) + 360.0) 360.0) := by
  have e360 : (360.0 : ℝ) = 360 := by norm_num
  have er : (180.0 / np.pi : ℝ) = 180 / Real.pi := by simp only [np]; norm_num
  have h' : 0 < -g x ∨ -f x ≠ 0 := by
    rcases lt_or_ge (g x) 0 with hn | hn
    · left; linarith
    · right; intro h0; exact h ⟨hn, by linarith⟩
  have ho : ∀ᶠ y in nhds x, ¬ (0 ≤ g y ∧ f y = 0) := by
    rcases lt_or_ge (g x) 0 with hn | hn
    · exact (lt_near hL hg (constT hL 0) hn).mono fun y hy hh => absurd hh.1 (not_le.2 hy)
    · have hf0 : f x ≠ 0 := fun h0 => h ⟨hn, h0⟩
      exact (hf.1.continuousAt.eventually_ne hf0).mono fun y hy hh => hy hh.2
  obtain ⟨f', s, kf, ks, rfl⟩ := out hf
  obtain ⟨g', t, kg, kt, rfl⟩ := out hg
  have hd := ((Jvp.hasFDerivAt_atan2 kf.neg kg.neg h').add_const Real.pi).mul_const (180 / Real.pi)
  have he : (fun y => np.fmod (np.arctan2 (f y) (g y) * (180.0 / np.pi) + 360.0) 360.0) =ᶠ[nhds x]
      fun y => (atan2R (-f y) (-g y) + Real.pi) * (180 / Real.pi) :=
    ho.mono fun y hy => by
      show fmodR (atan2R (f y) (g y) * (180.0 / np.pi) + 360.0) 360.0 = _
      rw [er, e360]; exact compass _ _ hy
  have h0 : f x * f x + g x * g x ≠ 0 := by
    intro h0
    have h1 := mul_self_nonneg (f x)
    have h2 := mul_self_nonneg (g x)
    have hf0 : f x = 0 := mul_self_eq_zero.1 (by linarith)
    have hg0 : g x = 0 := mul_self_eq_zero.1 (by linarith)
    exact h ⟨hg0.ge, hf0⟩
  have hv := he.eq_of_nhds
  have kr : Good Lin x (fun _ : E => (180.0 / np.pi : ℝ)) (180.0 / Jet.const Real.pi) :=
    divT hL (sciT hL _ _ _) (constT hL Real.pi) Real.pi_ne_zero
  obtain ⟨hr1, hr2⟩ := kr.2
  rw [fderiv_fun_const] at hr2
  generalize hR : (180.0 / Jet.const Real.pi : Jet T) = R at hr1 hr2
  obtain ⟨rp, rt⟩ := R
  obtain rfl : rp = val (180.0 / np.pi) := hr1
  have ka := arctan2Lin hL (a := f x) (c := g x) ks kt h0
  have key := hL.add (hL.add (hL.add (hL.smul (180.0 / np.pi) ka)
    (hL.smul (atan2R (f x) (g x)) hr2)) hL.zero)
    (hL.smul (-(if 0 ≤ (atan2R (f x) (g x) * (180.0 / np.pi) + 360.0) / 360.0 then
      (⌊(atan2R (f x) (g x) * (180.0 / np.pi) + 360.0) / 360.0⌋ : ℝ) else
      (⌈(atan2R (f x) (g x) * (180.0 / np.pi) + 360.0) / 360.0⌉ : ℝ))) hL.zero)
  have ev : (val (atan2R (f x) (g x) * (180.0 / np.pi) + 360.0) / val 360.0 : NR) =
      val ((atan2R (f x) (g x) * (180.0 / np.pi) + 360.0) / 360.0) := val_div _ _ (by norm_num)
  refine congr (of (hd.congr_fderiv ?_) ?_ (f' := _) (by
    show Lin _ (Tan.add (Tan.add (Tan.add (Tan.smul (val (180.0 / np.pi)) _) (Tan.smul
      (val (atan2R (f x) (g x))) rt)) Tan.zero) (Tan.smul (-NR.map _
        (val (atan2R (f x) (g x) * (180.0 / np.pi) + 360.0) / val 360.0)) Tan.zero))
    rw [ev, map_val, val_neg]
    exact key)) he
  · rw [er]
    ext; simp [pow_two]
    ring
  · show npNR.fmod (val (atan2R (f x) (g x) * (180.0 / np.pi) + 360.0)) (val 360.0) = _
    rw [Defined.b_fmod (by norm_num)]
    exact congrArg val hv

/-- The fourth power of the positive part is smooth; the weights of a tie do not matter there. -/
theorem posPow4T (w : ℝ) {F : NR → NR → NR} (hF : ∀ a c, F (val a) (val c) = val (max a c))
    (hf : Good Lin x f A) :
    Good Lin x (fun y => np.maximum (f y) 0.0 ^ 4) (Jet.pick w max F A 0.0 ^ 4) := by
  have e0 : (0.0 : ℝ) = 0 := by norm_num
  by_cases h : f x = 0
  · obtain ⟨f', s, kf, ks, rfl⟩ := out hf
    have hd : HasDerivAt (fun a : ℝ => max a 0.0 ^ 4) 0 (f x) := by
      rw [h, hasDerivAt_iff_isLittleO]
      simp only [e0, max_self, sub_zero, smul_zero]
      have : (fun a : ℝ => a ^ 4) =o[nhds 0] fun a => a :=
        Asymptotics.isLittleO_pow_id (by norm_num)
      refine Asymptotics.IsBigO.trans_isLittleO (Asymptotics.IsBigO.of_bound 1 ?_) this
      refine Filter.Eventually.of_forall fun a => ?_
      rw [one_mul]
      norm_num
      rcases le_total a 0 with ha | ha
      · rw [max_eq_right ha, abs_zero, zero_pow (by norm_num)]; positivity
      · rw [max_eq_left ha]
    have key := hL.smul ((4 : ℕ) * max (f x) 0.0 ^ 3) (hL.add
      (hL.smul (Jet.weight w (f x) (max (f x) 0.0) 0.0) ks)
      (hL.smul (1 - Jet.weight w (f x) (max (f x) 0.0) 0.0) hL.zero))
    refine of ((hd.comp_hasFDerivAt x kf).congr_fderiv ?_) ?_ (f' := _) (by
      show Lin _ (Tan.smul (val ((4 : ℕ) : ℝ) * (F (val (f x)) (val 0.0)) ^ 3) _)
      rw [hF, val_pow _ 3 (by norm_num), val_mul]
      exact key)
    · rw [h, e0]; simp
    · show (F (val (f x)) (val 0.0)) ^ 4 = _
      rw [hF, val_pow _ 4 (by norm_num)]; rfl
  · refine powT hL (maxT hL w hF hf (sciT hL _ _ _) (Or.inl ?_)) 4 (by norm_num)
    show f x ≠ 0.0
    rw [e0]; exact h

theorem clipJ (w : ℝ) {d : E → ℝ} {D : Jet T} {F G : NR → NR → NR}
    (hF : ∀ a c, F (val a) (val c) = val (max a c)) (hG : ∀ a c, G (val a) (val c) = val (min a c))
    (hd : Good Lin x d D) (h1 : Clear d x (-25)) (h2 : Clear d x 15) :
    Good Lin x (fun y => np.clip (d y) (-25.0) 15.0)
      (Jet.pick w min G (Jet.pick w max F D (-25.0)) 15.0) := by
  refine minT hL w hG (maxT hL w hF hd (negT hL (sciT hL _ _ _)) ?_) (sciT hL _ _ _) ?_
  · rcases h1 with h1 | h1
    · left; norm_num; exact h1
    · right; exact h1.mono fun y hy => by norm_num; exact hy
  · rcases h2 with h2 | h2
    · left
      show max (d x) (-25.0) ≠ 15.0
      intro e
      rcases max_choice (d x) (-25.0) with h | h <;> rw [h] at e
      · exact h2 (by rw [e]; norm_num)
      · norm_num at e
    · right
      exact h2.mono fun y hy => by
        show max (d y) (-25.0) = 15.0
        rw [hy]; norm_num

theorem clipC (w : ℝ) {d : E → ℝ} {D : Jet T} {F G : NR → NR → NR}
    (hF : ∀ a c, F (val a) (val c) = val (max a c)) (hG : ∀ a c, G (val a) (val c) = val (min a c))
    (hd : Good Lin x d D) (h1 : Clear d x (-25)) (h2 : Clear d x 15) :
    Good Lin x (fun y => np.clip (d y) (-25.0) 15.0)
      (Jet.pick w max F (-25.0) (Jet.pick w min G D 15.0)) := by
  have e1 : (-25.0 : ℝ) = -25 := by norm_num
  have e2 : (15.0 : ℝ) = 15 := by norm_num
  have hfun : (fun y => np.clip (d y) (-25.0) 15.0) = fun y => max (-25.0) (min (d y) 15.0) := by
    funext y
    show min (max (d y) (-25.0)) 15.0 = _
    rw [e1, e2]
    rcases le_total (d y) (-25) with h | h <;> rcases le_total (d y) 15 with h' | h'
    · rw [max_eq_right h, min_eq_left h', max_eq_left h]; norm_num
    · linarith
    · rw [max_eq_left h, min_eq_left h', max_eq_right h]
    · rw [max_eq_left h, min_eq_right h']; norm_num
  rw [hfun]
  refine maxT hL w hF (negT hL (sciT hL _ _ _)) (minT hL w hG hd (sciT hL _ _ _) ?_) ?_
  · rcases h2 with h2 | h2
    · left; norm_num; exact h2
    · right; exact h2.mono fun y hy => by norm_num; exact hy
  · rcases h1 with h1 | h1
    · left
      show (-25.0 : ℝ) ≠ min (d x) 15.0
      intro e
      rcases min_choice (d x) 15.0 with h | h <;> rw [h] at e
      · exact h1 (by rw [← e]; norm_num)
      · norm_num at e
    · right
      exact h1.mono fun y hy => by
        show (-25.0 : ℝ) = min (d y) 15.0
        rw [hy]; norm_num

theorem interpGoT {s : E → ℝ} {S : Jet T} (hs : Good Lin x s S) :
    ∀ (xs fs : List ℝ) (x0 f0 : ℝ), (x0 :: xs).Pairwise (· < ·) → (∀ᶠ y in nhds x, x0 ≤ s y) →
      (∀ c ∈ xs, Clear s x c) →
      Good Lin x (fun y => interpGo (s y) x0 f0 xs fs)
        (Jet.interpGo S (Jet.const x0) (Jet.const f0) (xs.map Jet.const) (fs.map Jet.const))
  | [], _, x0, f0, _, _, _ => by
    simp only [List.map_nil, interpGo]; exact constT hL f0
  | x1 :: xs, [], x0, f0, _, _, _ => by
    simp only [List.map_nil, interpGo]; exact constT hL f0
  | x1 :: xs, f1 :: fs, x0, f0, ho, h0, hc => by
    have h01 : x0 < x1 := (List.pairwise_cons.1 ho).1 x1 (by simp)
    have k : ∀ c : ℝ, Good Lin x (fun _ : E => c) (Jet.const c) := constT hL
    have lt1 := ltB_iff hL hs (k x1)
    have eq1 := eqB_iff hL hs (k x1)
    have hne : ¬ Jet.eqB (Jet.const x1 : Jet T) (Jet.const x0) = true := fun hh =>
      absurd ((eqB_iff hL (k x1) (k x0)).1 hh) h01.ne'
    have seg := addT hL (k f0) (mulT hL (divT hL (subT hL hs (k x0))
      (subT hL (k x1) (k x0)) (sub_pos.2 h01).ne') (subT hL (k f1) (k f0)))
    simp only [List.map_cons, interpGo, Jet.interpGo]
    by_cases hlt : s x < x1
    · rw [if_pos (show (Jet.ltB S (Jet.const x1) || ((xs.map (Jet.const (T := T))).isEmpty &&
        Jet.eqB S (Jet.const x1))) = true by rw [lt1.2 hlt]; rfl), if_neg hne]
      refine congr seg ((lt_near hL hs (k x1) hlt).mono fun y hy => ?_)
      show (if s y < x1 then _ else _) = _
      rw [if_pos hy]; ring
    · have hge : ∀ᶠ y in nhds x, x1 ≤ s y := by
        rcases hc x1 (by simp) with hh | hh
        · exact (lt_near hL (k x1) hs (lt_of_le_of_ne (not_lt.1 hlt) (Ne.symm hh))).mono
            fun y hy => hy.le
        · exact hh.mono fun y hy => hy.ge
      have hnl : ¬ Jet.ltB S (Jet.const x1) = true := fun hh => hlt (lt1.1 hh)
      have hfun : (fun y => if s y < x1 then f0 + (f1 - f0) / (x1 - x0) * (s y - x0)
          else interpGo (s y) x1 f1 xs fs) =ᶠ[nhds x] fun y => interpGo (s y) x1 f1 xs fs :=
        hge.mono fun y hy => if_neg (not_lt.2 hy)
      by_cases hl : xs = [] ∧ s x = x1
      · obtain ⟨rfl, he⟩ := hl
        have hev : ∀ᶠ y in nhds x, s y = x1 := by
          rcases hc x1 (by simp) with hh | hh
          · exact absurd he hh
          · exact hh
        rw [if_pos (show (Jet.ltB S (Jet.const x1) || ((([] : List ℝ).map
          (Jet.const (T := T))).isEmpty && Jet.eqB S (Jet.const x1))) = true by
            rw [eq1.2 he]; simp), if_neg hne]
        refine congr seg ((hfun.and hev).mono fun y hy => ?_)
        rw [hy.1]
        simp only [hy.2]
        have : x1 - x0 ≠ 0 := (sub_pos.2 h01).ne'
        simp only [interpGo]
        field_simp
        ring
      · have hcond : ¬ (Jet.ltB S (Jet.const x1) || ((xs.map (Jet.const (T := T))).isEmpty &&
            Jet.eqB S (Jet.const x1))) = true := by
          intro hh
          rw [Bool.or_eq_true, Bool.and_eq_true] at hh
          rcases hh with hh | hh
          · exact hnl hh
          · exact hl ⟨by simpa using hh.1, eq1.1 hh.2⟩
        rw [if_neg hcond]
        exact congr (interpGoT hs xs fs x1 f1 (List.pairwise_cons.1 ho).2 hge
          fun c hcm => hc c (by simp [hcm])) hfun

theorem interpT {s : E → ℝ} {S : Jet T} (hs : Good Lin x s S) (x0 f0 : ℝ) (xs fs : List ℝ)
    (ho : (x0 :: xs).Pairwise (· < ·)) (hc : ∀ c ∈ x0 :: xs, Clear s x c) :
    Good Lin x (fun y => np.interp (s y) (x0 :: xs) (f0 :: fs))
      (Jet.interp S ((x0 :: xs).map Jet.const) ((f0 :: fs).map Jet.const)) := by
  have k : ∀ c : ℝ, Good Lin x (fun _ : E => c) (Jet.const c) := constT hL
  have lt0 := ltB_iff hL hs (k x0)
  show Good Lin x (fun y => if s y < x0 then f0 else interpGo (s y) x0 f0 xs fs)
    (if Jet.ltB S (Jet.const x0) = true then Jet.const f0 else Jet.interpGo S (Jet.const x0)
      (Jet.const f0) (xs.map Jet.const) (fs.map Jet.const))
  by_cases hlt : s x < x0
  · rw [if_pos (lt0.2 hlt)]
    exact congr (k f0) ((lt_near hL hs (k x0) hlt).mono fun y hy => if_pos hy)
  · rw [if_neg fun hh => hlt (lt0.1 hh)]
    have hge : ∀ᶠ y in nhds x, x0 ≤ s y := by
      rcases hc x0 (by simp) with hh | hh
      · exact (lt_near hL (k x0) hs (lt_of_le_of_ne (not_lt.1 hlt) (Ne.symm hh))).mono
          fun y hy => hy.le
      · exact hh.mono fun y hy => hy.ge
    exact congr (interpGoT hL hs xs fs x0 f0 ho hge fun c hcm => hc c (by simp [hcm]))
      (hge.mono fun y hy => if_neg (not_lt.2 hy))

/-- Within the table CasADi's interpolant agrees. -/
theorem interpC {s : E → ℝ} {S : Jet T} (hs : Good Lin x s S) (x0 f0 x1 f1 x2 f2 x3 f3 : ℝ)
    (h01 : x0 < x1) (h12 : x1 < x2) (h23 : x2 < x3) (c1 : Clear s x x1) (c2 : Clear s x x2)
    (hr : x0 < s x ∧ s x < x3) :
    Good Lin x (fun y => np.interp (s y) [x0, x1, x2, x3] [f0, f1, f2, f3])
      (Jet.interpCa S [Jet.const x0, Jet.const x1, Jet.const x2, Jet.const x3]
        [Jet.const f0, Jet.const f1, Jet.const f2, Jet.const f3]) := by
  have k : ∀ c : ℝ, Good Lin x (fun _ : E => c) (Jet.const c) := constT hL
  have seg : ∀ a b p q : ℝ, a < b → Good Lin x (fun y => p + (s y - a) / (b - a) * (q - p))
      (Jet.const p + (S - Jet.const a) / (Jet.const b - Jet.const a) *
        (Jet.const q - Jet.const p)) := fun a b p q hab =>
    addT hL (k p) (mulT hL (divT hL (subT hL hs (k a)) (subT hL (k b) (k a)) (sub_pos.2 hab).ne')
      (subT hL (k q) (k p)))
  have lo := lt_near hL (k x0) hs hr.1
  have hi := lt_near hL hs (k x3) hr.2
  have ge : ∀ c, Clear s x c → ¬ s x < c → ∀ᶠ y in nhds x, c ≤ s y := by
    intro c hc hn
    rcases hc with hh | hh
    · exact (lt_near hL (k c) hs (lt_of_le_of_ne (not_lt.1 hn) (Ne.symm hh))).mono fun y hy => hy.le
    · exact hh.mono fun y hy => hy.ge
  have lt1 := ltB_iff hL hs (k x1)
  have lt2 := ltB_iff hL hs (k x2)
  simp only [Jet.interpCa]
  by_cases hlt1 : s x < x1
  · rw [if_pos (lt1.2 hlt1)]
    refine congr (seg x0 x1 f0 f1 h01) ((lo.and (lt_near hL hs (k x1) hlt1)).mono fun y hy => ?_)
    show (if s y < x0 then f0 else if s y < x1 then _ else _) = _
    rw [if_neg (not_lt.2 hy.1.le), if_pos hy.2]; ring
  · rw [if_neg fun hh => hlt1 (lt1.1 hh)]
    have g1 := ge x1 c1 hlt1
    by_cases hlt2 : s x < x2
    · rw [if_pos (lt2.2 hlt2)]
      refine congr (seg x1 x2 f1 f2 h12) ((lo.and (g1.and (lt_near hL hs (k x2) hlt2))).mono
        fun y hy => ?_)
      show (if s y < x0 then f0 else if s y < x1 then _ else if s y < x2 then _ else _) = _
      rw [if_neg (not_lt.2 hy.1.le), if_neg (not_lt.2 hy.2.1), if_pos hy.2.2]; ring
    · rw [if_neg fun hh => hlt2 (lt2.1 hh)]
      have g2 := ge x2 c2 hlt2
      refine congr (seg x2 x3 f2 f3 h23) ((lo.and (g1.and (g2.and hi))).mono fun y hy => ?_)
      show (if s y < x0 then f0 else if s y < x1 then _ else if s y < x2 then _ else
        if s y < x3 then _ else _) = _
      rw [if_neg (not_lt.2 hy.1.le), if_neg (not_lt.2 hy.2.1), if_neg (not_lt.2 hy.2.2.1),
        if_pos hy.2.2.2]; ring

end Verif.AD.Jets

namespace Verif.AD
open Verif.NR Verif.Spec

variable {E : Type} [NormedAddCommGroup E] [NormedSpace ℝ E]

/-- JAX on numbers with partial derivatives. -/
theorem laws_jax {T : Type} [Tan T] {Lin : (E →L[ℝ] ℝ) → T → Prop} (hL : Jets.IsLin Lin) (x : E) :
    Laws (x := x) (Mode.mk (Jet T) (jaxJet T) Jet.const (Jets.Good Lin x) True) where
  diff h := h.1
  congr := Jets.congr
  const := Jets.constT hL
  sci := Jets.sciT hL
  pi := Jets.constT hL Real.pi
  add := Jets.addT hL
  sub := Jets.subT hL
  mul := Jets.mulT hL
  neg := Jets.negT hL
  pow := Jets.powT hL
  div := Jets.divT hL
  sqrt := Jets.sqrtJ hL
  exp := Jets.expT hL
  log := Jets.logT hL
  sin := Jets.sinT hL
  cos := Jets.cosT hL
  arcsin := Jets.arcsinT hL
  power := Jets.powerJ hL
  arctan2 := Jets.arctan2T hL
  abs := Jets.absT hL
  max := Jets.maxT hL _ fun _ _ => rfl
  clip := Jets.clipJ hL _ (fun _ _ => rfl) (fun _ _ => rfl)
  select ha hc hp hq h := (Jets.whereT hL ha hc hp hq h).1
  posPow4 := Jets.posPow4T hL _ fun _ _ => rfl
  compass := Jets.compassT hL
  interp hs x0 f0 x1 f1 x2 f2 x3 f3 h01 h12 h23 c0 c1 c2 c3 _ := by
    refine Jets.interpT hL hs x0 f0 [x1, x2, x3] [f1, f2, f3] ?_ ?_
    · simp only [List.pairwise_cons, List.mem_cons, List.not_mem_nil, or_false, forall_eq_or_imp,
        forall_eq, false_imp_iff, implies_true, List.Pairwise.nil, and_true]
      exact ⟨⟨h01, h01.trans h12, h01.trans (h12.trans h23)⟩, ⟨h12, h12.trans h23⟩, h23⟩
    · simp only [List.mem_cons, List.not_mem_nil, or_false, forall_eq_or_imp, forall_eq]
      exact ⟨c0, c1, c2, c3⟩

/-- CasADi on numbers with partial derivatives. -/
theorem laws_casadi {T : Type} [Tan T] {Lin : (E →L[ℝ] ℝ) → T → Prop} (hL : Jets.IsLin Lin) (w : ℝ)
    (x : E) :
    Laws (x := x) (Mode.mk (Jet T) (casadiJet w T) Jet.const (Jets.Good Lin x) False) where
  diff h := h.1
  congr := Jets.congr
  const := Jets.constT hL
  sci := Jets.sciT hL
  pi := Jets.constT hL Real.pi
  add := Jets.addT hL
  sub := Jets.subT hL
  mul := Jets.mulT hL
  neg := Jets.negT hL
  pow := Jets.powT hL
  div := Jets.divT hL
  sqrt := Jets.sqrtC hL
  exp := Jets.expT hL
  log := Jets.logT hL
  sin := Jets.sinT hL
  cos := Jets.cosT hL
  arcsin := Jets.arcsinT hL
  power := Jets.powerC hL
  arctan2 := Jets.arctan2T hL
  abs := Jets.absT hL
  max := Jets.maxT hL _ fun _ _ => rfl
  clip := Jets.clipC hL _ (fun _ _ => rfl) (fun _ _ => rfl)
  select ha hc hp hq h := (Jets.whereT hL ha hc hp hq h).2
  posPow4 := Jets.posPow4T hL _ fun _ _ => rfl
  compass := Jets.compassT hL
  interp hs x0 f0 x1 f1 x2 f2 x3 f3 h01 h12 h23 _ c1 c2 _ hr :=
    Jets.interpC hL hs x0 f0 x1 f1 x2 f2 x3 f3 h01 h12 h23 c1 c2 (hr.resolve_left fun h => h)

instance (w : ℝ) (x v : E) : Laws (casadiForward w x v) := laws_casadi (Jets.isLin_forward v) w x

variable {ι : Type} [Fintype ι] [DecidableEq ι]

instance (x : ι → ℝ) : Laws (jaxReverse x) := laws_jax Jets.isLin_reverse x
instance (w : ℝ) (x : ι → ℝ) : Laws (casadiReverse w x) := laws_casadi Jets.isLin_reverse w x

theorem laws {x : ι → ℝ} {M : Mode x} (h : Autodiff x M) : Laws M := by
  cases h <;> infer_instance

end Verif.AD
