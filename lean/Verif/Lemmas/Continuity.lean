import Verif.Lemmas.Drag
import Verif.Lemmas.Fuel
import Verif.Lemmas.Thrust
import Verif.Model.Emission
import Verif.Model.Geo

/-! Joint continuity of the numeric functions, in composable form. -/

namespace Verif.Cont
open Verif.Aero Verif.Spec Real

theorem shiftC : Continuous shift := by
  have : shift = fun d => min (max d (-25.0)) 15.0 := by
    funext d; rw [← clip_shift]; simp only [np, clipR]
  rw [this]; fun_prop

section on
variable {X : Type} [TopologicalSpace X] {s : Set X} {v h d : X → ℝ}

theorem temperatureC (hh : ContinuousOn h s) (hd : ContinuousOn d s) :
    ContinuousOn (fun x => temperature np (h x) (d x)) s := by
  have e : ∀ x, temperature np (h x) (d x) =
      max (288.15 + shift (d x) + (-0.0065) * h x) (216.65 + shift (d x)) := by
    intro x
    simp only [temperature, atmos, clip_shift]
    simp only [np, T0, beta]
  simp only [e]
  have := shiftC.comp_continuousOn hd
  exact ((continuousOn_const.add this).add (continuousOn_const.mul hh)).sup
    (continuousOn_const.add this)

theorem densityC (hh : ContinuousOn h s) (hd : ContinuousOn d s) :
    ContinuousOn (fun x => density np (h x) (d x)) s := by
  have hs := shiftC.comp_continuousOn hd
  have hT := temperatureC hh hd
  simp only [temperature_eq] at hT
  simp only [density_eq]
  refine ContinuousOn.mul (continuousOn_const.mul (ContinuousOn.rpow_const
    (hT.div (continuousOn_const.add hs) fun x _ => (T0s_pos _).ne') fun _ _ => Or.inr (by norm_num)))
    (continuous_exp.comp_continuousOn ?_)
  exact (((continuousOn_const.sup (hh.sub continuousOn_const))).neg).div_const _

theorem pressureC (hh : ContinuousOn h s) (hd : ContinuousOn d s) :
    ContinuousOn (fun x => pressure np (h x) (d x)) s := by
  simp only [pressure_eq]
  exact ((densityC hh hd).mul continuousOn_const).mul (temperatureC hh hd)

theorem vsoundC (hh : ContinuousOn h s) (hd : ContinuousOn d s) :
    ContinuousOn (fun x => vsound np (h x) (d x)) s := by
  have hT := temperatureC hh hd
  simp only [temperature_eq] at hT
  simp only [vsound_eq]
  exact (continuousOn_const.mul hT).sqrt

theorem tas2machC (hv : ContinuousOn v s) (hh : ContinuousOn h s) (hd : ContinuousOn d s) :
    ContinuousOn (fun x => tas2mach np (v x) (h x) (d x)) s :=
  hv.div (vsoundC hh hd) fun _ _ => (vsound_pos _ _).ne'

theorem mach2tasC (hv : ContinuousOn v s) (hh : ContinuousOn h s) (hd : ContinuousOn d s) :
    ContinuousOn (fun x => mach2tas np (v x) (h x) (d x)) s := hv.mul (vsoundC hh hd)

theorem eas2tasC (hv : ContinuousOn v s) (hh : ContinuousOn h s) (hd : ContinuousOn d s) :
    ContinuousOn (fun x => eas2tas np (v x) (h x) (d x)) s :=
  hv.mul (continuousOn_const.div (densityC hh hd) fun _ _ => (density_pos _ _).ne').sqrt

theorem tas2easC (hv : ContinuousOn v s) (hh : ContinuousOn h s) (hd : ContinuousOn d s) :
    ContinuousOn (fun x => tas2eas np (v x) (h x) (d x)) s :=
  hv.mul ((densityC hh hd).div_const _).sqrt

theorem cas2tasC (hv : ContinuousOn v s) (hh : ContinuousOn h s) (hd : ContinuousOn d s) :
    ContinuousOn (fun x => cas2tas np (v x) (h x) (d x)) s := by
  have hp := pressureC hh hd
  have hr := densityC hh hd
  refine ContinuousOn.sqrt (((continuousOn_const.mul hp).div hr fun _ _ => (density_pos _ _).ne').mul
    ((ContinuousOn.rpow_const (continuousOn_const.add (ContinuousOn.div ?_ hp
      fun _ _ => (pressure_pos _ _).ne')) fun _ _ => Or.inr (by norm_num)).sub continuousOn_const))
  refine continuousOn_const.mul (ContinuousOn.sub (ContinuousOn.rpow_const
    ?_ fun _ _ => Or.inr (by norm_num)) continuousOn_const)
  exact continuousOn_const.add (((continuousOn_const.mul hv).mul hv).div_const _)

theorem tas2casC (hv : ContinuousOn v s) (hh : ContinuousOn h s) (hd : ContinuousOn d s) :
    ContinuousOn (fun x => tas2cas np (v x) (h x) (d x)) s := by
  have hp := pressureC hh hd
  have hr := densityC hh hd
  refine ContinuousOn.sqrt (continuousOn_const.mul
    ((ContinuousOn.rpow_const (ContinuousOn.add (ContinuousOn.div_const ?_ _) continuousOn_const)
      fun _ _ => Or.inr (by norm_num)).sub continuousOn_const))
  refine hp.mul (ContinuousOn.sub (ContinuousOn.rpow_const
    ?_ fun _ _ => Or.inr (by norm_num)) continuousOn_const)
  exact continuousOn_const.add (((hr.mul hv).mul hv).div (continuousOn_const.mul hp)
    fun _ _ => (mul_pos (by norm_num) (pressure_pos _ _)).ne')

theorem mach2casC (hv : ContinuousOn v s) (hh : ContinuousOn h s) (hd : ContinuousOn d s) :
    ContinuousOn (fun x => mach2cas np (v x) (h x) (d x)) s := tas2casC (mach2tasC hv hh hd) hh hd

theorem cas2machC (hv : ContinuousOn v s) (hh : ContinuousOn h s) (hd : ContinuousOn d s) :
    ContinuousOn (fun x => cas2mach np (v x) (h x) (d x)) s := tas2machC (cas2tasC hv hh hd) hh hd

theorem crossoverC (hv : ContinuousOn v s) (hh : ContinuousOn h s) (hd : ContinuousOn d s) :
    ContinuousOn (fun x => crossoverAlt np (v x) (h x) (d x)) s := by
  refine ContinuousOn.mul ((continuousOn_const.add hd).div_const _) (ContinuousOn.sub
    (ContinuousOn.rpow_const (ContinuousOn.div ?_ ?_ ?_) fun _ _ => Or.inr ?_) continuousOn_const)
  · refine ContinuousOn.sub (ContinuousOn.rpow_const ?_ fun _ _ => Or.inr (by norm_num))
      continuousOn_const
    exact (continuousOn_const.mul ((hv.div_const _).pow 2)).add continuousOn_const
  · refine ContinuousOn.sub (ContinuousOn.rpow_const ?_ fun _ _ => Or.inr (by norm_num))
      continuousOn_const
    exact (continuousOn_const.mul ((hh.sup continuousOn_const).pow 2)).add continuousOn_const
  · intro x _
    have hm : (0 : ℝ) < max (h x) 1e-4 := lt_max_of_lt_right (by norm_num)
    have : (1 : ℝ) < (0.2 * max (h x) 1e-4 ^ 2 + 1.0) ^ (3.5 : ℝ) :=
      one_lt_rpow (by norm_num) (by norm_num)
    show (0.2 * max (h x) 1e-4 ^ 2 + 1.0) ^ (3.5 : ℝ) - 1.0 ≠ 0
    norm_num at this ⊢; linarith
  · norm_num [R, beta, g0]

theorem cosAtanC {w : X → ℝ} (hw : ContinuousOn w s) (hv : ContinuousOn v s)
    (hne : ∀ x ∈ s, v x ≠ 0 ∨ w x ≠ 0) : ContinuousOn (fun x => cos (atan2R (w x) (v x))) s := by
  have : ContinuousOn (fun x => v x / sqrt (v x ^ 2 + w x ^ 2)) s := by
    refine hv.div ((hv.pow 2).add (hw.pow 2)).sqrt fun x hx => ?_
    refine (sqrt_pos.2 ?_).ne'
    rcases hne x hx with h | h
    · have := sq_pos_of_ne_zero h; positivity
    · have := sq_pos_of_ne_zero h; positivity
  exact this.congr fun x hx => Drag.cos_atan2_eq _ _ (hne x hx)

theorem sinAtanC {w : X → ℝ} (hw : ContinuousOn w s) (hv : ContinuousOn v s)
    (hne : ∀ x ∈ s, v x ≠ 0 ∨ w x ≠ 0) : ContinuousOn (fun x => sin (atan2R (w x) (v x))) s := by
  have hp : ∀ x ∈ s, 0 < v x ^ 2 + w x ^ 2 := by
    intro x hx
    rcases hne x hx with h | h
    · have := sq_pos_of_ne_zero h; positivity
    · have := sq_pos_of_ne_zero h; positivity
  have : ContinuousOn (fun x => w x / sqrt (v x ^ 2 + w x ^ 2)) s :=
    hw.div ((hv.pow 2).add (hw.pow 2)).sqrt fun x hx => (sqrt_pos.2 (hp x hx)).ne'
  refine this.congr fun x hx => ?_
  show sin _ = _
  rw [eq_div_iff (sqrt_pos.2 (hp x hx)).ne']
  exact (Geo.cos_atan2 _ _).2

theorem qSC (ac : Drag.Airframe ℝ) {t a : X → ℝ} (ht : ContinuousOn t s) (ha : ContinuousOn a s)
    (hd : ContinuousOn d s) : ContinuousOn (fun x => Drag.qS ac (t x) (a x) (d x)) s := by
  unfold Drag.qS
  exact (((continuousOn_const.mul (densityC (ha.mul continuousOn_const) hd)).mul
    ((ht.mul continuousOn_const).pow 2)).mul continuousOn_const).sup continuousOn_const

theorem liftC {m t w : X → ℝ} (hm : ContinuousOn m s) (ht : ContinuousOn t s)
    (hw : ContinuousOn w s) (hne : ∀ x ∈ s, t x ≠ 0 ∨ w x ≠ 0) :
    ContinuousOn (fun x => Drag.lift (m x) (t x) (w x)) s := by
  unfold Drag.lift
  refine (hm.mul continuousOn_const).mul (cosAtanC (hw.mul continuousOn_const)
    (ht.mul continuousOn_const) fun x hx => ?_)
  rcases hne x hx with h | h
  · exact Or.inl (mul_ne_zero h (by norm_num))
  · exact Or.inr (mul_ne_zero h (by norm_num))

theorem calcDragC (ac : Drag.Airframe ℝ) {m t a c k w : X → ℝ} (hm : ContinuousOn m s)
    (ht : ContinuousOn t s) (ha : ContinuousOn a s) (hc : ContinuousOn c s)
    (hk : ContinuousOn k s) (hw : ContinuousOn w s) (hd : ContinuousOn d s)
    (hne : ∀ x ∈ s, t x ≠ 0 ∨ w x ≠ 0) :
    ContinuousOn (fun x => Drag.calcDrag np ac (m x) (t x) (a x) (c x) (k x) (w x) (d x)) s := by
  have hq := qSC ac ht ha hd
  simp only [Drag.calcDrag, Drag.cl_eq]
  exact (hc.add (hk.mul (((liftC hm ht hw hne).div hq fun x _ => (Drag.qS_pos _ _ _ _).ne').pow 2))).mul
    hq

theorem cleanC (ac : Drag.Airframe ℝ) (pol : Drag.Polar ℝ) (wave : Bool) {m t a w : X → ℝ}
    (hm : ContinuousOn m s) (ht : ContinuousOn t s) (ha : ContinuousOn a s)
    (hw : ContinuousOn w s) (hd : ContinuousOn d s)
    (hne : ∀ x ∈ s, t x ≠ 0 ∨ (wave = false ∧ w x ≠ 0)) :
    ContinuousOn (fun x => Drag.clean np ac pol wave (m x) (t x) (a x) (w x) (d x)) s := by
  have hne' : ∀ x ∈ s, t x ≠ 0 ∨ w x ≠ 0 := fun x hx => (hne x hx).imp_right And.right
  refine calcDragC ac hm ht ha (continuousOn_const.add ?_) continuousOn_const hw hd hne'
  cases wave with
  | false => exact continuousOn_const
  | true =>
    have ht0 : ∀ x ∈ s, t x ≠ 0 ∨ (0.0 : ℝ) ≠ 0 := fun x hx =>
      Or.inl ((hne x hx).resolve_right fun h => by cases h.1)
    show ContinuousOn (fun x => Drag.waveDrag np ac (m x) (t x) (a x) (d x)) s
    unfold Drag.waveDrag
    refine continuousOn_const.mul (ContinuousOn.pow (ContinuousOn.sup (ContinuousOn.sub
      (tas2machC (ht.mul continuousOn_const) (ha.mul continuousOn_const) hd) ?_)
      continuousOn_const) 4)
    unfold Drag.machCrit
    have hl : ContinuousOn (fun x => (Drag.cl np ac (m x) (t x) (a x) 0.0 (d x)).1) s :=
      (liftC hm ht continuousOn_const ht0).div (qSC ac ht ha hd) fun x _ => (Drag.qS_pos _ _ _ _).ne'
    exact (continuousOn_const.sub ((continuousOn_const.mul hl).div_const _)).sub continuousOn_const

theorem flapCdC (pol : Drag.Polar ℝ) {f : X → ℝ} (hf : ContinuousOn f s) :
    ContinuousOn (fun x => Drag.flapCd np pol (f x)) s :=
  continuousOn_const.mul ((continuous_sin.comp_continuousOn
    ((hf.mul continuousOn_const).div_const _)).pow 2)

theorem flapKC (ac : Drag.Airframe ℝ) (pol : Drag.Polar ℝ) (hk : 0 < pol.k) (hA : 0 < ac.area)
    {f : X → ℝ} (hf : ContinuousOn f s) (h0 : ∀ x ∈ s, 0 ≤ f x) :
    ContinuousOn (fun x => Drag.flapK np ac pol (f x)) s := by
  unfold Drag.flapK
  have hc : ContinuousOn (fun x => if ac.rear = true then 0.0046 * f x else 0.0026 * f x) s := by
    split_ifs
    · exact continuousOn_const.mul hf
    · exact continuousOn_const.mul hf
  refine continuousOn_const.div (continuousOn_const.add (continuousOn_const.mul hc)) fun x hx => ?_
  have h1 : 0 < (1.0 : ℝ) / pol.k := div_pos (by norm_num) hk
  have h2 : 0 ≤ (if ac.rear = true then 0.0046 * f x else 0.0026 * f x) := by
    have := h0 x hx
    split_ifs <;> positivity
  have h3 : 0 ≤ np.pi * (ac.span ^ 2 / ac.area) := by
    have : 0 < np.pi := pi_pos
    positivity
  exact (add_pos_of_pos_of_nonneg h1 (mul_nonneg h3 h2)).ne'

theorem noncleanC (ac : Drag.Airframe ℝ) (pol : Drag.Polar ℝ) (hk : 0 < pol.k) (hA : 0 < ac.area)
    (gear : Bool) {m t a f w : X → ℝ}
    (hm : ContinuousOn m s) (ht : ContinuousOn t s) (ha : ContinuousOn a s)
    (hf : ContinuousOn f s) (hw : ContinuousOn w s) (hd : ContinuousOn d s)
    (h0 : ∀ x ∈ s, 0 ≤ f x) (hne : ∀ x ∈ s, t x ≠ 0 ∨ w x ≠ 0) :
    ContinuousOn (fun x => Drag.nonclean np ac pol (m x) (t x) (a x) (f x) (w x) (d x) gear) s :=
  calcDragC ac hm ht ha ((continuousOn_const.add (flapCdC pol hf)).add continuousOn_const)
    (flapKC ac pol hk hA hf h0) hw hd hne

theorem takeoffRatioC (e : Thrust.Params ℝ) :
    Continuous fun p : ℝ × ℝ => Thrust.takeoffRatio np e p.1 p.2 := by
  unfold Thrust.takeoffRatio
  generalize (0.377 * (1.0 + e.bpr) /
    np.sqrt ((1.0 + 0.82 * e.bpr) * (0.0606 * e.bpr + 0.6337)) : ℝ) = c1
  generalize (0.23 + 0.19 * np.sqrt e.bpr : ℝ) = c2
  fun_prop

theorem takeoffC (e : Thrust.Params ℝ) {t a : X → ℝ} (ht : ContinuousOn t s)
    (ha : ContinuousOn a s) (hd : ContinuousOn d s) :
    ContinuousOn (fun x => Thrust.takeoff np e (t x) (a x) (d x)) s := by
  have hM : ContinuousOn (fun x => tas2mach np (t x * kts) 0.0 (d x)) s :=
    tas2machC (ht.mul continuousOn_const) continuousOn_const hd
  have hP : ContinuousOn (fun x => pressure np (a x * ft) (d x) / p0) s :=
    (pressureC (ha.mul continuousOn_const) hd).div_const _
  have h := (takeoffRatioC e).comp_continuousOn (hM.prodMk hP)
  exact (h.mul continuousOn_const).mul continuousOn_const

theorem pratioC (e : Thrust.Params ℝ) {a : X → ℝ} (ha : ContinuousOn a s)
    (hd : ContinuousOn d s) : ContinuousOn (fun x => Thrust.pratio e (a x) (d x)) s :=
  (pressureC (ha.mul continuousOn_const) hd).div (pressureC continuousOn_const hd)
    fun _ _ => (pressure_pos _ _).ne'

theorem vratioC (e : Thrust.Params ℝ) (hM : 0 < e.cruiseMach) {t a : X → ℝ}
    (ht : ContinuousOn t s) (ha : ContinuousOn a s) (hd : ContinuousOn d s) :
    ContinuousOn (fun x => Thrust.vratio e (t x) (a x) (d x)) s :=
  (tas2casC ((continuousOn_const.sup ht).mul continuousOn_const) (ha.mul continuousOn_const) hd).div
    (mach2casC continuousOn_const continuousOn_const hd)
    fun _ _ => (Thrust.tas2cas_pos (mul_pos hM (vsound_pos _ _)) _ _).ne'

theorem mratioC (e : Thrust.Params ℝ) {t a : X → ℝ}
    (ht : ContinuousOn t s) (ha : ContinuousOn a s) (hd : ContinuousOn d s) :
    ContinuousOn (fun x => Thrust.mratio e (t x) (a x) (d x)) s :=
  (tas2machC ((continuousOn_const.sup ht).mul continuousOn_const) (ha.mul continuousOn_const)
    hd).div_const _

theorem mratio_pos (e : Thrust.Params ℝ) (hM : 0 < e.cruiseMach) (t a d : ℝ) :
    0 < Thrust.mratio e t a d :=
  div_pos (div_pos (mul_pos (lt_max_of_lt_left (by norm_num)) (by norm_num)) (vsound_pos _ _)) hM

theorem seg3C (e : Thrust.Params ℝ) (hM : 0 < e.cruiseMach) {t a : X → ℝ}
    (ht : ContinuousOn t s) (ha : ContinuousOn a s) (hd : ContinuousOn d s) :
    ContinuousOn (fun x => Thrust.seg3 e (t x) (a x) (d x)) s := by
  unfold Thrust.seg3 Thrust.dfunc
  exact ((((continuousOn_const.mul (mratioC e ht ha hd)).add continuousOn_const).mul
    ((pratioC e ha hd).log fun _ _ => (Thrust.pratio_pos _ _ _).ne')).add
    ((mratioC e ht ha hd).rpow_const fun _ _ => Or.inl (mratio_pos e hM _ _ _).ne'))

theorem seg2C (e : Thrust.Params ℝ) (hM : 0 < e.cruiseMach) {t a r : X → ℝ}
    (ht : ContinuousOn t s) (ha : ContinuousOn a s) (hr : ContinuousOn r s)
    (hd : ContinuousOn d s) :
    ContinuousOn (fun x => Thrust.seg2 e (t x) (a x) (r x) (d x)) s := by
  unfold Thrust.seg2 Thrust.nfunc
  have hv := vratioC e hM ht ha hd
  exact (hv.rpow_const fun _ _ => Or.inl (Thrust.vratio_pos e hM _ _ _).ne').mul
    ((pratioC e ha hd).rpow ((continuousOn_const.mul hv).add
      ((continuousOn_const.mul hr.abs).add continuousOn_const))
      fun _ _ => Or.inl (Thrust.pratio_pos _ _ _).ne')

theorem seg1C (e : Thrust.Params ℝ) (hM : 0 < e.cruiseMach) {t a r : X → ℝ}
    (ht : ContinuousOn t s) (ha : ContinuousOn a s) (hr : ContinuousOn r s)
    (hd : ContinuousOn d s) :
    ContinuousOn (fun x => Thrust.seg1 e (t x) (a x) (r x) (d x)) s := by
  unfold Thrust.seg1 Thrust.nfunc
  have hv := vratioC e hM ht ha hd
  have hm : ContinuousOn (fun x => Thrust.mfunc (Thrust.vratio e (t x) (a x) (d x)) |r x|) s := by
    unfold Thrust.mfunc
    exact (((continuousOn_const.mul hv).sub (continuousOn_const.mul (hr.abs.pow 2))).add
      (continuousOn_const.mul hr.abs)).add continuousOn_const
  exact (hm.mul (pratioC e ha hd)).add (((hv.rpow_const
      fun _ _ => Or.inl (Thrust.vratio_pos e hM _ _ _).ne').mul
    ((pratioC e continuousOn_const hd).rpow ((continuousOn_const.mul hv).add
      ((continuousOn_const.mul hr.abs).add continuousOn_const))
      fun _ _ => Or.inl (Thrust.pratio_pos _ _ _).ne')).sub
    (hm.mul (pratioC e continuousOn_const hd)))

theorem limiterC : Continuous (Fuel.limiter np) := by
  have : Fuel.limiter np = fun r => (Fuel.sp (50 * (r - 0.03)) - Fuel.sp (45 * (r - 1.2))) /
      Fuel.sp 50 + 0.03 := by funext r; exact Fuel.limiter_eq r
  rw [this]
  have hs : Continuous Fuel.sp := continuous_iff_continuousAt.2 fun y =>
    (Fuel.hasDerivAt_sp y).continuousAt
  have h1 : Continuous fun r : ℝ => Fuel.sp (50 * (r - 0.03)) := hs.comp (by fun_prop)
  have h2 : Continuous fun r : ℝ => Fuel.sp (45 * (r - 1.2)) := hs.comp (by fun_prop)
  exact ((h1.sub h2).div_const _).add continuous_const

theorem atThrustC (f : Fuel.Params ℝ) : Continuous (Fuel.atThrust np f) := by
  have h : Continuous (Fuel.funcFuel np f) := by
    unfold Fuel.funcFuel
    simp only [np]
    fun_prop
  have hl : Continuous fun T => Fuel.limiter np (T / f.number / f.maxThrust) :=
    limiterC.comp (by fun_prop)
  exact (h.comp hl).mul continuous_const

theorem enrouteC (f : Fuel.Params ℝ) (ac : Drag.Airframe ℝ) (pol : Drag.Polar ℝ) (wave lim : Bool)
    {m t a w c : X → ℝ}
    (hm : ContinuousOn m s) (ht : ContinuousOn t s) (ha : ContinuousOn a s)
    (hw : ContinuousOn w s) (hc : ContinuousOn c s) (hd : ContinuousOn d s)
    (hne : ∀ x ∈ s, t x ≠ 0 ∨ (wave = false ∧ w x ≠ 0)) :
    ContinuousOn (fun x => Fuel.enroute np f ac pol wave (m x) (t x) (a x) (w x) (c x) (d x) lim)
      s := by
  refine (atThrustC f).comp_continuousOn ?_
  simp only [Fuel.enrouteThrust_eq]
  refine ((cleanC ac pol wave hm ht ha hw hd hne).add ((hm.mul continuousOn_const).mul
    (sinAtanC (hw.mul continuousOn_const) (ht.mul continuousOn_const) fun x hx => ?_))).add
    (hm.mul hc)
  rcases hne x hx with h | h
  · exact Or.inl (mul_ne_zero h (by norm_num))
  · exact Or.inr (mul_ne_zero h.2 (by norm_num))

end on

theorem interpGoC (xs fs : List ℝ) : ∀ x0 f0, (x0 :: xs).Pairwise (· < ·) →
    Continuous (fun x => interpGo (max x x0) x0 f0 xs fs) ∧ interpGo x0 x0 f0 xs fs = f0 := by
  induction xs generalizing fs with
  | nil => intro x0 f0 _; simp only [interpGo]; exact ⟨continuous_const, trivial⟩
  | cons x1 xs ih =>
    intro x0 f0 hp
    cases fs with
    | nil => simp only [interpGo]; exact ⟨continuous_const, trivial⟩
    | cons f1 fs =>
      have h01 : x0 < x1 := (List.pairwise_cons.1 hp).1 _ (List.mem_cons_self ..)
      obtain ⟨hc, h1⟩ := ih fs x1 f1 (List.pairwise_cons.1 hp).2
      constructor
      · have e : (fun x => interpGo (max x x0) x0 f0 (x1 :: xs) (f1 :: fs)) = fun x =>
            if x1 ≤ x then interpGo (max x x1) x1 f1 xs fs
            else f0 + (f1 - f0) / (x1 - x0) * (max x x0 - x0) := by
          funext x
          rw [interpGo]
          by_cases h : x1 ≤ x
          · rw [if_pos h, max_eq_left (h01.le.trans h), if_neg (not_lt.2 h), max_eq_left h]
          · rw [if_neg h, if_pos (max_lt (not_le.1 h) h01)]
        rw [e]
        refine Continuous.if_le hc (by fun_prop) continuous_const continuous_id ?_
        intro x hx
        subst hx
        rw [max_self, h1, max_eq_left h01.le]
        have : x1 - x0 ≠ 0 := (sub_pos.2 h01).ne'
        field_simp
        ring
      · rw [interpGo, if_pos h01]; ring

/-- `np.interp` is continuous for increasing abscissae. -/
theorem interpC (xs fs : List ℝ) (h : xs.Pairwise (· < ·)) :
    Continuous fun x => interpR x xs fs := by
  cases xs with
  | nil => simp only [interpR]; exact continuous_const
  | cons x0 xs =>
    cases fs with
    | nil => simp only [interpR]; exact continuous_const
    | cons f0 fs =>
      obtain ⟨hc, h0⟩ := interpGoC xs fs x0 f0 h
      have e : (fun x => interpR x (x0 :: xs) (f0 :: fs)) = fun x =>
          interpGo (max x x0) x0 f0 xs fs := by
        funext x
        rw [interpR]
        split_ifs with hx
        · rw [max_eq_right hx.le, h0]
        · rw [max_eq_left (not_lt.1 hx)]
      rw [e]; exact hc

section emission
variable {X : Type} [TopologicalSpace X] {s : Set X} {c t a d : X → ℝ}

theorem fl2slC (e : Emission.Params ℝ) (hc : ContinuousOn c s) (ht : ContinuousOn t s)
    (ha : ContinuousOn a s) (hd : ContinuousOn d s) (hs : ∀ x ∈ s, a x < 145442) :
    ContinuousOn (fun x => (Emission.fl2sl np e (c x) (t x) (a x) (d x)).1) s ∧
    ContinuousOn (fun x => (Emission.fl2sl np e (c x) (t x) (a x) (d x)).2) s ∧
    ∀ x ∈ s, 0 < (Emission.fl2sl np e (c x) (t x) (a x) (d x)).2 := by
  have hM : ContinuousOn (fun x => tas2mach np (t x * kts) (a x * ft) (d x)) s :=
    tas2machC (ht.mul continuousOn_const) (ha.mul continuousOn_const) hd
  have hT : ContinuousOn (fun x => temperature np (a x * ft) (d x)) s :=
    temperatureC (ha.mul continuousOn_const) hd
  have hT0 : ∀ x, 0 < temperature np (a x * ft) (d x) := fun x => by
    rw [temperature_eq]; exact temp_pos _ _
  have hb : ContinuousOn (fun x => exp (0.2 * tas2mach np (t x * kts) (a x * ft) (d x) ^ 2)) s :=
    continuous_exp.comp_continuousOn (continuousOn_const.mul (hM.pow 2))
  have hθ : ContinuousOn (fun x => temperature np (a x * ft) (d x) / 288.15 /
      exp (0.2 * tas2mach np (t x * kts) (a x * ft) (d x) ^ 2)) s :=
    (hT.div_const _).div hb fun _ _ => (exp_pos _).ne'
  have hθ0 : ∀ x, 0 < temperature np (a x * ft) (d x) / 288.15 /
      exp (0.2 * tas2mach np (t x * kts) (a x * ft) (d x) ^ 2) := fun x =>
    div_pos (div_pos (hT0 x) (by norm_num)) (exp_pos _)
  have hB : ∀ x ∈ s, (0 : ℝ) < 1.0 - 0.0019812 * a x / 288.15 := by
    intro x hx
    have := hs x hx
    have h2 : 0.0019812 * a x / 288.15 < 1 := by rw [div_lt_one (by norm_num)]; linarith
    norm_num at h2 ⊢; linarith
  have hδ : ContinuousOn (fun x => (1.0 - 0.0019812 * a x / 288.15) ^ (5.255876 : ℝ) /
      exp (0.2 * tas2mach np (t x * kts) (a x * ft) (d x) ^ 2) ^ (3.5 : ℝ)) s :=
    ((continuousOn_const.sub ((continuousOn_const.mul ha).div_const _)).rpow_const
      fun _ _ => Or.inr (by norm_num)).div (hb.rpow_const fun _ _ => Or.inr (by norm_num))
      fun _ _ => (rpow_pos_of_pos (exp_pos _) _).ne'
  have hδ0 : ∀ x ∈ s, 0 < (1.0 - 0.0019812 * a x / 288.15) ^ (5.255876 : ℝ) /
      exp (0.2 * tas2mach np (t x * kts) (a x * ft) (d x) ^ 2) ^ (3.5 : ℝ) := fun x hx =>
    div_pos (rpow_pos_of_pos (hB x hx) _) (rpow_pos_of_pos (exp_pos _) _)
  refine ⟨?_, ?_, ?_⟩
  · exact (((hc.div_const _).mul (hθ.rpow_const fun _ _ => Or.inr (by norm_num))).div hδ
      fun x hx => (hδ0 x hx).ne').mul hb
  · exact (hθ.rpow_const fun _ _ => Or.inr (by norm_num)).div
      (hδ.rpow_const fun _ _ => Or.inr (by norm_num))
      fun x hx => (rpow_pos_of_pos (hδ0 x hx) _).ne'
  · intro x hx
    exact div_pos (rpow_pos_of_pos (hθ0 x) _) (rpow_pos_of_pos (hδ0 x hx) _)

theorem ltoC (e : Emission.Params ℝ) (ei : Fin 4 → ℝ) (hff : StrictMono e.ff) :
    Continuous (Emission.lto np e ei) := by
  have h01 : e.ff 0 < e.ff 1 := hff (by decide)
  have h12 : e.ff 1 < e.ff 2 := hff (by decide)
  have h23 : e.ff 2 < e.ff 3 := hff (by decide)
  show Continuous fun x => interpR x [e.ff 0, e.ff 1, e.ff 2, e.ff 3] [ei 0, ei 1, ei 2, ei 3]
  refine interpC _ _ ?_
  simp only [List.pairwise_cons, List.mem_cons, List.not_mem_nil, or_false, forall_eq_or_imp,
    forall_eq, false_imp_iff, implies_true, List.Pairwise.nil, and_true]
  exact ⟨⟨h01, h01.trans h12, (h01.trans h12).trans h23⟩, ⟨h12, h12.trans h23⟩, h23⟩

end emission
end Verif.Cont
