import Verif.Lemmas.Autodiff
import Verif.Lemmas.AutodiffGeo

/-! JAX in forward mode obeys the laws; where it has no finite tangent. -/

namespace Verif.AD.Jvp
open Verif.NR Verif.Spec Verif.Aero Verif.Geo

variable {E : Type} [NormedAddCommGroup E] [NormedSpace ℝ E] {f g d : E → ℝ} {x v : E}
  {F G D : Dual}

theorem clipT (hd : ExactJvp d x v D) (h1 : Clear d x (-25)) (h2 : Clear d x 15) :
    ExactJvp (fun y => np.clip (d y) (-25.0) 15.0) x v (jaxDual.clip D (-25.0) 15.0) := by
  refine minT (maxT hd (negT (sciT _ _ _)) ?_) (sciT _ _ _) ?_
  · rcases h1 with h1 | h1
    · left; norm_num; exact h1
    · right; exact h1.mono fun y hy => by norm_num; exact hy
  · rcases h2 with h2 | h2
    · left
      show max (d x) (-25.0) ≠ 15.0
      intro e
      rcases max_choice (d x) (-25.0) with h | h <;> rw [h] at e
      · exact h2 (by rw [e]; norm_num)
      · norm_num at e
    · right
      exact h2.mono fun y hy => by
        show max (d y) (-25.0) = 15.0
        rw [hy]; norm_num

theorem NoTangent.mul_left {X Y : Dual} (h : NoTangent X) : NoTangent (X * Y) := by
  show X.t * Y.p + X.p * Y.t = nan
  rw [show X.t = nan from h, nan_mul, nan_add]
theorem NoTangent.mul_right {X Y : Dual} (h : NoTangent X) : NoTangent (Y * X) := by
  show Y.t * X.p + Y.p * X.t = nan
  rw [show X.t = nan from h, mul_nan, add_nan]
theorem NoTangent.arcsin {X : Dual} (h : NoTangent X) : NoTangent (jaxDual.arcsin X) := by
  show X.t * _ = nan
  rw [show X.t = nan from h, nan_mul]

theorem arcsin_no (hf : ExactJvp f x v F) (h0 : f x = 1) : NoTangent (jaxDual.arcsin F) := by
  obtain ⟨f', -, rfl⟩ := out hf
  show (val (f' v) : NR) * (val 1 / npNR.sqrt (val 1 - val (f x) * val (f x))) = nan
  rw [h0, val_mul, val_sub, mul_one, sub_self, Defined.b_sqrt le_rfl, Real.sqrt_zero]
  have : (val 1 : NR) / val 0 = nan := if_pos rfl
  rw [this, mul_nan]

/-- The square root has no finite slope at zero. -/
theorem sqrt_no {f : E → ℝ} {F : Dual} (hf : ExactJvp f x v F) (h0 : f x = 0) :
    NoTangent (jaxDual.sqrt F) := by
  obtain ⟨f', -, rfl⟩ := out hf
  show (NR.val (f' v) : NR) * (NR.val 0.5 / npNR.sqrt (NR.val (f x))) = NR.nan
  rw [h0, Defined.b_sqrt le_rfl, Real.sqrt_zero]
  have : (NR.val 0.5 : NR) / NR.val 0 = NR.nan := if_pos rfl
  rw [this, NR.mul_nan]

/-- The compass angle of a varying vector, away from north. -/
theorem compassT (hf : ExactJvp f x v F) (hg : ExactJvp g x v G) (h : ¬ (0 ≤ g x ∧ f x = 0)) :
    ExactJvp (fun y => np.fmod (np.arctan2 (f y) (g y) * rad2deg np + 360.0) 360.0) x v
      (jaxDual.fmod (jaxDual.arctan2 F G * rad2deg jaxDual + 360.0) 360.0) := by
  have e360 : (360.0 : ℝ) = 360 := by norm_num
  have er : rad2deg np = 180 / Real.pi := by
    simp only [rad2deg, np]; norm_num
  have h' : 0 < -g x ∨ -f x ≠ 0 := by
    rcases lt_or_ge (g x) 0 with hn | hn
    · left; linarith
    · right; intro h0; exact h ⟨hn, by linarith⟩
  have ho : ∀ᶠ y in nhds x, ¬ (0 ≤ g y ∧ f y = 0) := by
    rcases lt_or_ge (g x) 0 with hn | hn
    · exact (lt_near hg (constT 0) hn).mono fun y hy hh => absurd hh.1 (not_le.2 hy)
    · have hf0 : f x ≠ 0 := fun h0 => h ⟨hn, h0⟩
      exact (hf.1.continuousAt.eventually_ne hf0).mono fun y hy hh => hy hh.2
  obtain ⟨f', kf, rfl⟩ := out hf
  obtain ⟨g', kg, rfl⟩ := out hg
  have hd := ((hasFDerivAt_atan2 kf.neg kg.neg h').add_const Real.pi).mul_const (180 / Real.pi)
  have he : (fun y => np.fmod (np.arctan2 (f y) (g y) * rad2deg np + 360.0) 360.0) =ᶠ[nhds x]
      fun y => (atan2R (-f y) (-g y) + Real.pi) * (180 / Real.pi) :=
    ho.mono fun y hy => by
      show fmodR (atan2R (f y) (g y) * rad2deg np + 360.0) 360.0 = _
      rw [er, e360]; exact compass _ _ hy
  refine congr (of hd ?_) he
  have h0 : f x * f x + g x * g x ≠ 0 := by
    intro h0
    have h1 := mul_self_nonneg (f x)
    have h2 := mul_self_nonneg (g x)
    have hf0 : f x = 0 := mul_self_eq_zero.1 (by linarith)
    have hg0 : g x = 0 := mul_self_eq_zero.1 (by linarith)
    exact h ⟨hg0.ge, hf0⟩
  have ed : rad2deg jaxDual = ⟨val (rad2deg np), val 0⟩ := by
    have : ExactJvp (fun _ : E => rad2deg np) x v (rad2deg jaxDual) :=
      divT (sciT _ _ _ : ExactJvp (fun _ : E => (180.0 : ℝ)) x v 180.0) (constT Real.pi)
        Real.pi_ne_zero
    refine Dual.ext this.2.1 ?_
    rw [this.2.2]; simp
  have e1 : jaxDual.arctan2 (⟨val (f x), val (f' v)⟩ : Dual) ⟨val (g x), val (g' v)⟩ =
      ⟨val (atan2R (f x) (g x)), val (f' v * (g x / (f x * f x + g x * g x)) +
        g' v * -(f x / (f x * f x + g x * g x)))⟩ := by
    refine Dual.ext rfl ?_
    show (val (f' v) : NR) * (val (g x) / (val (f x) * val (f x) + val (g x) * val (g x))) +
      val (g' v) * -(val (f x) / (val (f x) * val (f x) + val (g x) * val (g x))) = _
    simp only [val_mul, val_add]
    rw [val_div _ _ h0, val_div _ _ h0]
    simp only [val_mul, val_add, val_neg]
  rw [e1, ed]
  have hv := he.eq_of_nhds
  refine Dual.ext ?_ ?_
  · show npNR.fmod (val (atan2R (f x) (g x) * rad2deg np + 360.0)) (val 360.0) = _
    rw [Defined.b_fmod (by norm_num)]
    exact congrArg val hv
  · show (val _ : NR) + -val 0 * NR.map _ (val (atan2R (f x) (g x) * rad2deg np + 360.0) /
      val 360.0) = _
    rw [val_div _ _ (by norm_num), map_val, val_neg, val_mul, val_add]
    congr 1
    rw [er]
    simp [pow_two]
    ring

/-- The fourth power of the positive part is smooth; JAX's tie rule does not matter there. -/
theorem posPow4T (hf : ExactJvp f x v F) :
    ExactJvp (fun y => np.maximum (f y) 0.0 ^ 4) x v (jaxDual.maximum F 0.0 ^ 4) := by
  have e0 : (0.0 : ℝ) = 0 := by norm_num
  by_cases h : f x = 0
  · obtain ⟨f', kf, rfl⟩ := out hf
    have hd : HasDerivAt (fun a : ℝ => max a 0.0 ^ 4) 0 (f x) := by
      rw [h, hasDerivAt_iff_isLittleO]
      simp only [e0, max_self, sub_zero, smul_zero]
      have : (fun a : ℝ => a ^ 4) =o[nhds 0] fun a => a :=
        Asymptotics.isLittleO_pow_id (by norm_num)
      refine Asymptotics.IsBigO.trans_isLittleO (Asymptotics.IsBigO.of_bound 1 ?_) this
      refine Filter.Eventually.of_forall fun a => ?_
      rw [one_mul]
      norm_num
      rcases le_total a 0 with ha | ha
      · rw [max_eq_right ha, abs_zero, zero_pow (by norm_num)]; positivity
      · rw [max_eq_left ha]
    refine of (hd.comp_hasFDerivAt x kf) ?_
    have e1 : jaxDual.maximum (⟨val (f x), val (f' v)⟩ : Dual) 0.0 =
        ⟨val (max (f x) 0.0), val (f' v * Dual.balanced (f x) (max (f x) 0.0) 0.0 +
          0 * Dual.balanced 0.0 (max (f x) 0.0) (f x))⟩ := rfl
    rw [e1]
    refine Dual.ext (val_pow _ 4 (by norm_num)) ?_
    show (val _ : NR) * (val ((4 : ℕ) : ℝ) * (val (max (f x) 0.0) : NR) ^ 3) = _
    rw [val_pow _ 3 (by norm_num), h, e0]
    simp
  · refine powT (maxT hf (sciT _ _ _) (Or.inl ?_)) 4 (by norm_num)
    show f x ≠ 0.0
    rw [e0]; exact h

theorem interpGoT {s : E → ℝ} {S : Dual} (hs : ExactJvp s x v S) :
    ∀ (xs fs : List ℝ) (x0 f0 : ℝ), (x0 :: xs).Pairwise (· < ·) → (∀ᶠ y in nhds x, x0 ≤ s y) →
      (∀ c ∈ xs, Clear s x c) →
      ExactJvp (fun y => interpGo (s y) x0 f0 xs fs) x v
        (Dual.interpGo S (Dual.const x0) (Dual.const f0) (xs.map Dual.const) (fs.map Dual.const))
  | [], _, x0, f0, _, _, _ => by
    simp only [List.map_nil, interpGo]; exact constT f0
  | x1 :: xs, [], x0, f0, _, _, _ => by
    simp only [List.map_nil, interpGo]; exact constT f0
  | x1 :: xs, f1 :: fs, x0, f0, ho, h0, hc => by
    have h01 : x0 < x1 := (List.pairwise_cons.1 ho).1 x1 (by simp)
    have lt1 := ltB_iff hs (constT (E := E) (x := x) (v := v) x1)
    have eq1 := eqB_iff hs (constT (E := E) (x := x) (v := v) x1)
    have hne : ¬ Dual.eqB (Dual.const x1) (Dual.const x0) = true := fun hh =>
      absurd ((eqB_iff (constT (E := E) (x := x) (v := v) x1) (constT x0)).1 hh) h01.ne'
    have seg := addT (constT (E := E) (x := x) (v := v) f0) (mulT (divT (subT hs (constT x0))
      (subT (constT x1) (constT x0)) (sub_pos.2 h01).ne') (subT (constT f1) (constT f0)))
    simp only [List.map_cons, interpGo, Dual.interpGo]
    by_cases hlt : s x < x1
    · rw [if_pos (show (Dual.ltB S (Dual.const x1) || ((xs.map Dual.const).isEmpty &&
        Dual.eqB S (Dual.const x1))) = true by rw [lt1.2 hlt]; rfl), if_neg hne]
      refine congr seg ((lt_near hs (constT x1) hlt).mono fun y hy => ?_)
      show (if s y < x1 then _ else _) = _
      rw [if_pos hy]; ring
    · have hge : ∀ᶠ y in nhds x, x1 ≤ s y := by
        rcases hc x1 (by simp) with hh | hh
        · exact (lt_near (constT x1) hs (lt_of_le_of_ne (not_lt.1 hlt) (Ne.symm hh))).mono
            fun y hy => hy.le
        · exact hh.mono fun y hy => hy.ge
      have hnl : ¬ Dual.ltB S (Dual.const x1) = true := fun hh => hlt (lt1.1 hh)
      have hfun : (fun y => if s y < x1 then f0 + (f1 - f0) / (x1 - x0) * (s y - x0)
          else interpGo (s y) x1 f1 xs fs) =ᶠ[nhds x] fun y => interpGo (s y) x1 f1 xs fs :=
        hge.mono fun y hy => if_neg (not_lt.2 hy)
      by_cases hl : xs = [] ∧ s x = x1
      · obtain ⟨rfl, he⟩ := hl
        have hev : ∀ᶠ y in nhds x, s y = x1 := by
          rcases hc x1 (by simp) with hh | hh
          · exact absurd he hh
          · exact hh
        rw [if_pos (show (Dual.ltB S (Dual.const x1) || ((([] : List ℝ).map Dual.const).isEmpty &&
          Dual.eqB S (Dual.const x1))) = true by rw [eq1.2 he]; simp), if_neg hne]
        refine congr seg ((hfun.and hev).mono fun y hy => ?_)
        rw [hy.1]
        simp only [hy.2]
        have : x1 - x0 ≠ 0 := (sub_pos.2 h01).ne'
        simp only [interpGo]
        field_simp
        ring
      · have hcond : ¬ (Dual.ltB S (Dual.const x1) || ((xs.map Dual.const).isEmpty &&
            Dual.eqB S (Dual.const x1))) = true := by
          intro hh
          rw [Bool.or_eq_true, Bool.and_eq_true] at hh
          rcases hh with hh | hh
          · exact hnl hh
          · exact hl ⟨by simpa using hh.1, eq1.1 hh.2⟩
        rw [if_neg hcond]
        exact congr (interpGoT hs xs fs x1 f1 (List.pairwise_cons.1 ho).2 hge
          fun c hcm => hc c (by simp [hcm])) hfun

theorem interpT {s : E → ℝ} {S : Dual} (hs : ExactJvp s x v S) (x0 f0 : ℝ) (xs fs : List ℝ)
    (ho : (x0 :: xs).Pairwise (· < ·)) (hc : ∀ c ∈ x0 :: xs, Clear s x c) :
    ExactJvp (fun y => np.interp (s y) (x0 :: xs) (f0 :: fs)) x v
      (jaxDual.interp S ((x0 :: xs).map Dual.const) ((f0 :: fs).map Dual.const)) := by
  have lt0 := ltB_iff hs (constT (E := E) (x := x) (v := v) x0)
  show ExactJvp (fun y => if s y < x0 then f0 else interpGo (s y) x0 f0 xs fs) x v
    (if Dual.ltB S (Dual.const x0) = true then Dual.const f0 else Dual.interpGo S (Dual.const x0)
      (Dual.const f0) (xs.map Dual.const) (fs.map Dual.const))
  by_cases hlt : s x < x0
  · rw [if_pos (lt0.2 hlt)]
    exact congr (constT f0) ((lt_near hs (constT x0) hlt).mono fun y hy => if_pos hy)
  · rw [if_neg fun hh => hlt (lt0.1 hh)]
    have hge : ∀ᶠ y in nhds x, x0 ≤ s y := by
      rcases hc x0 (by simp) with hh | hh
      · exact (lt_near (constT x0) hs (lt_of_le_of_ne (not_lt.1 hlt) (Ne.symm hh))).mono
          fun y hy => hy.le
      · exact hh.mono fun y hy => hy.ge
    exact congr (interpGoT hs xs fs x0 f0 ho hge fun c hcm => hc c (by simp [hcm]))
      (hge.mono fun y hy => if_neg (not_lt.2 hy))

end Verif.AD.Jvp

namespace Verif.AD
open Verif.NR Verif.Spec Verif.Aero Verif.Geo

variable {E : Type} [NormedAddCommGroup E] [NormedSpace ℝ E]

/-- JAX in forward mode. -/
instance (x v : E) : Laws (jaxForward x v) where
  diff h := h.1
  congr := Jvp.congr
  const := Jvp.constT
  sci := Jvp.sciT
  pi := Jvp.constT Real.pi
  add := Jvp.addT
  sub := Jvp.subT
  mul := Jvp.mulT
  neg := Jvp.negT
  pow := Jvp.powT
  div := Jvp.divT
  sqrt := Jvp.sqrtT
  exp := Jvp.expT
  log := Jvp.logT
  sin := Jvp.sinT
  cos := Jvp.cosT
  arcsin := Jvp.arcsinT
  power := Jvp.powerT
  arctan2 := Jvp.arctan2T
  abs := Jvp.absT
  max := Jvp.maxT
  clip := Jvp.clipT
  select ha hc hp hq := Jvp.whereT ha hc (fun _ => hp) (fun _ => hq)
  posPow4 := Jvp.posPow4T
  compass := Jvp.compassT
  interp hs x0 f0 x1 f1 x2 f2 x3 f3 h01 h12 h23 c0 c1 c2 c3 _ := by
    refine Jvp.interpT hs x0 f0 [x1, x2, x3] [f1, f2, f3] ?_ ?_
    · simp only [List.pairwise_cons, List.mem_cons, List.not_mem_nil, or_false, forall_eq_or_imp,
        forall_eq, false_imp_iff, implies_true, List.Pairwise.nil, and_true]
      exact ⟨⟨h01, h01.trans h12, h01.trans (h12.trans h23)⟩, ⟨h12, h12.trans h23⟩, h23⟩
    · simp only [List.mem_cons, List.not_mem_nil, or_false, forall_eq_or_imp, forall_eq]
      exact ⟨c0, c1, c2, c3⟩

variable {a l c m u h d : E → ℝ} {x v : E} {A L C M U H D : Dual}

theorem cas2tas_no (hu : ExactJvp u x v U) (hh : ExactJvp h x v H) (hS : ClipT d x (jaxForward x v) D)
    (h11 : Clear h x 11000) (h0 : u x = 0) : NoTangent (cas2tas jaxDual U H D) := by
  obtain ⟨g, G, tg, e1, -, e3⟩ := cas2tas_arg (v := jaxForward x v) hu hh hS h11
  have e1 : cas2tas jaxDual U H D = jaxDual.sqrt G := e1
  rw [e1]
  exact Jvp.sqrt_no tg (e3 h0)

theorem tas2cas_no (hu : ExactJvp u x v U) (hh : ExactJvp h x v H) (hS : ClipT d x (jaxForward x v) D)
    (h11 : Clear h x 11000) (h0 : u x = 0) : NoTangent (tas2cas jaxDual U H D) := by
  obtain ⟨g, G, tg, e1, -, e3⟩ := tas2cas_arg (v := jaxForward x v) hu hh hS h11
  have e1 : tas2cas jaxDual U H D = jaxDual.sqrt G := e1
  rw [e1]
  exact Jvp.sqrt_no tg (e3 h0)

theorem distance_no (ha : ExactJvp a x v A) (hl : ExactJvp l x v L) (hc : ExactJvp c x v C)
    (hm : ExactJvp m x v M)
    (h1 : globe (a x) (l x) = globe (c x) (m x) ∨ globe (a x) (l x) = -globe (c x) (m x)) :
    NoTangent (distance jaxDual A L C M H) := by
  obtain ⟨q, Q, tq, e1, -, e3⟩ := havT (v := jaxForward x v) (h := fun _ => 0) (H := H) ha hl hc hm
  have e3 : distance jaxDual A L C M H = 2.0 * jaxDual.arcsin (jaxDual.sqrt Q) * (rEarth + H) := e3
  rw [e3]
  refine Jvp.NoTangent.mul_left (Jvp.NoTangent.mul_right ?_)
  rcases h1 with h1 | h1
  · refine Jvp.NoTangent.arcsin (Jvp.sqrt_no tq ?_)
    rw [e1, h1, real_inner_self_eq_norm_sq, norm_globe]; norm_num
  · have hq : q x = 1 := by
      rw [e1, h1, inner_neg_left, real_inner_self_eq_norm_sq, norm_globe]; norm_num
    refine Jvp.arcsin_no (Jvp.sqrtT tq (by rw [hq]; norm_num)) ?_
    show Real.sqrt (q x) = 1
    rw [hq, Real.sqrt_one]

end Verif.AD
