import Verif.Lemmas.AutodiffAero
import Verif.Lemmas.Drag
import Verif.Lemmas.Emission

/-! Derivatives of drag, thrust, fuel flow and emissions. -/

namespace Verif.AD
open Verif.NR Verif.Spec Verif.Aero

variable {E : Type} [NormedAddCommGroup E] [NormedSpace ℝ E] {h d u m w f : E → ℝ} {x : E} {v : Mode x} [Laws v]
  {H D U M W F : v.N}

theorem ftT (hh : Ex h x v H) : Ex (fun y => h y * ft) x v (H * ft) :=
  mulT hh (sciT _ _ _)
theorem ktsT (hh : Ex h x v H) : Ex (fun y => h y * kts) x v (H * kts) :=
  mulT hh (sciT _ _ _)
theorem fpmT (hh : Ex h x v H) : Ex (fun y => h y * fpm) x v (H * fpm) :=
  mulT hh (sciT _ _ _)

theorem Clear.ft (c : Clear (fun y => h y * 0.3048) x 11000) :
    Clear (fun y => h y * Aero.ft) x 11000 := c

/-! ## Drag -/

/-- Dynamic pressure times wing area before the lower bound. -/
noncomputable def qS0 (ac : Drag.Airframe ℝ) (tas alt dT : ℝ) : ℝ :=
  0.5 * density np (alt * 0.3048) dT * (tas * 0.514444) ^ 2 * ac.area

theorem gamT (hu : Ex u x v U) (hw : Ex w x v W) (h0 : 0 < u x ∨ w x ≠ 0) :
    Ex (fun y => np.arctan2 (w y * fpm) (u y * kts)) x v
      (v.b.arctan2 (W * fpm) (U * kts)) :=
  arctan2T (fpmT hw) (ktsT hu) (h0.imp (fun h => mul_pos h (by norm_num [kts]))
    fun h => mul_ne_zero h (by norm_num [fpm]))

theorem clT (ac : Drag.Airframe ℝ) (hm : Ex m x v M) (hu : Ex u x v U)
    (hh : Ex h x v H) (hw : Ex w x v W) (hS : ClipT d x v D)
    (h11 : Clear (fun y => h y * 0.3048) x 11000) (h0 : 0 < u x ∨ w x ≠ 0)
    (hq : Clear (fun y => qS0 ac (u y) (h y) (d y)) x 0.001) :
    Ex (fun y => (Drag.cl np ac (m y) (u y) (h y) (w y) (d y)).1) x v
      (Drag.cl v.b (Rec.airframe v.k ac) M U H W D).1 ∧
    Ex (fun y => (Drag.cl np ac (m y) (u y) (h y) (w y) (d y)).2) x v
      (Drag.cl v.b (Rec.airframe v.k ac) M U H W D).2 := by
  have tr := (atmosT (ftT hh) hS (Clear.ft h11)).2.1
  have tq := mulT (mulT (mulT (sciT _ _ _ : Ex (fun _ : E => (0.5 : ℝ)) x v 0.5) tr)
    (powT (ktsT hu) 2 two_ne_zero)) (constT ac.area)
  have tL := mulT (mulT hm (sciT _ _ _ : Ex (fun _ : E => (g0 : ℝ)) x v g0))
    (cosT (gamT hu hw h0))
  have e3 : (1e-3 : ℝ) = 0.001 := by norm_num
  have tm := maxT tq (sciT _ _ _ : Ex (fun _ : E => (1e-3 : ℝ)) x v 1e-3) (by
    rcases hq with hq | hq
    · left
      show qS0 ac (u x) (h x) (d x) ≠ 1e-3
      rw [e3]; exact hq
    · right
      exact hq.mono fun y hy => by
        show qS0 ac (u y) (h y) (d y) = 1e-3
        rw [e3]; exact hy)
  have hpos : (0 : ℝ) < max (qS0 ac (u x) (h x) (d x)) 1e-3 := lt_max_of_lt_right (by norm_num)
  exact ⟨divT tL tm hpos.ne', tm⟩

theorem calcDragT (ac : Drag.Airframe ℝ) {c0 k : E → ℝ} {C0 K : v.N} (hc : Ex c0 x v C0)
    (hk : Ex k x v K) (hm : Ex m x v M) (hu : Ex u x v U)
    (hh : Ex h x v H) (hw : Ex w x v W) (hS : ClipT d x v D)
    (h11 : Clear (fun y => h y * 0.3048) x 11000) (h0 : 0 < u x ∨ w x ≠ 0)
    (hq : Clear (fun y => qS0 ac (u y) (h y) (d y)) x 0.001) :
    Ex (fun y => Drag.calcDrag np ac (m y) (u y) (h y) (c0 y) (k y) (w y) (d y)) x v
      (Drag.calcDrag v.b (Rec.airframe v.k ac) M U H C0 K W D) := by
  obtain ⟨t1, t2⟩ := clT ac hm hu hh hw hS h11 h0 hq
  exact mulT (addT hc (mulT hk (powT t1 2 two_ne_zero))) t2

theorem machCritT (ac : Drag.Airframe ℝ) (hs : Real.cos (ac.sweep * Real.pi / 180) ≠ 0)
    (hf : Ex f x v F) : Ex (fun y => Drag.machCrit np ac (f y)) x v
      (Drag.machCrit v.b (Rec.airframe v.k ac) F) := by
  have tc := cosT (divT (mulT (constT ac.sweep) (piT))
    (sciT (v := v) _ _ _ : Ex (fun _ : E => (180.0 : ℝ)) x v 180.0) (by norm_num))
  have e : (180.0 : ℝ) = 180 := by norm_num
  have h0 : np.cos (ac.sweep * Real.pi / 180.0) ≠ 0 := by rw [e]; exact hs
  have tt : Ex (fun _ : E => ac.tc.getD 0.12) x v ((Rec.airframe v.k ac).tc.getD 0.12) := by
    unfold Rec.airframe
    cases ac.tc with
    | none => exact sciT _ _ _
    | some t => exact constT t
  exact subT (subT (subT (divT (sciT _ _ _ : Ex (fun _ : E => (0.95 : ℝ)) x v 0.95) tc h0)
    (divT tt (powT tc 2 (by norm_num)) (pow_ne_zero 2 h0)))
    (divT (mulT (sciT _ _ _ : Ex (fun _ : E => (0.1 : ℝ)) x v 0.1) hf)
      (powT tc 3 (by norm_num)) (pow_ne_zero 3 h0)))
    (sciT _ _ _ : Ex (fun _ : E => (0.108 : ℝ)) x v 0.108)

theorem waveT (ac : Drag.Airframe ℝ) (hs : Real.cos (ac.sweep * Real.pi / 180) ≠ 0)
    (hm : Ex m x v M) (hu : Ex u x v U)
    (hh : Ex h x v H) (hS : ClipT d x v D)
    (h11 : Clear (fun y => h y * 0.3048) x 11000) (h0 : 0 < u x)
    (hq : Clear (fun y => qS0 ac (u y) (h y) (d y)) x 0.001) :
    Ex (fun y => Drag.waveDrag np ac (m y) (u y) (h y) (d y)) x v
      (Drag.waveDrag v.b (Rec.airframe v.k ac) M U H D) := by
  have tl := (clT ac hm hu hh (sciT _ _ _ : Ex (fun _ : E => (0.0 : ℝ)) x v 0.0) hS h11
    (Or.inl h0) hq).1
  have tm := subT (tas2machT (ktsT hu) (ftT hh) hS (Clear.ft h11)) (machCritT ac hs tl)
  exact mulT (sciT _ _ _ : Ex (fun _ : E => (20.0 : ℝ)) x v 20.0) (posPow4T tm)

theorem cleanT (ac : Drag.Airframe ℝ) (pol : Drag.Polar ℝ) (wave : Bool)
    (hs : wave = true → Real.cos (ac.sweep * Real.pi / 180) ≠ 0)
    (hm : Ex m x v M) (hu : Ex u x v U)
    (hh : Ex h x v H) (hw : Ex w x v W) (hS : ClipT d x v D)
    (h11 : Clear (fun y => h y * 0.3048) x 11000) (h0 : 0 < u x)
    (hq : Clear (fun y => qS0 ac (u y) (h y) (d y)) x 0.001) :
    Ex (fun y => Drag.clean np ac pol wave (m y) (u y) (h y) (w y) (d y)) x v
      (Drag.clean v.b (Rec.airframe v.k ac) (Rec.polar v.k pol) wave M U H W D) := by
  cases wave with
  | false =>
    exact calcDragT ac (addT (constT pol.cd0)
      (sciT _ _ _ : Ex (fun _ : E => (0.0 : ℝ)) x v 0.0)) (constT pol.k) hm hu hh hw hS h11
      (Or.inl h0) hq
  | true =>
    exact calcDragT ac (addT (constT pol.cd0) (waveT ac (hs rfl) hm hu hh hS h11 h0 hq))
      (constT pol.k) hm hu hh hw hS h11 (Or.inl h0) hq

theorem noncleanT (ac : Drag.Airframe ℝ) (pol : Drag.Polar ℝ) (gear : Bool)
    (hk : 0 < pol.k) (hA : 0 < ac.area) (hcf : 0 < pol.cfc) (hmt : 0 < ac.mtow)
    (hm : Ex m x v M) (hu : Ex u x v U)
    (hh : Ex h x v H) (hf : Ex f x v F) (hw : Ex w x v W) (hS : ClipT d x v D)
    (h11 : Clear (fun y => h y * 0.3048) x 11000) (h0 : 0 < u x) (hf0 : 0 ≤ f x)
    (hq : Clear (fun y => qS0 ac (u y) (h y) (d y)) x 0.001) :
    Ex (fun y => Drag.nonclean np ac pol (m y) (u y) (h y) (f y) (w y) (d y) gear) x v
      (Drag.nonclean v.b (Rec.airframe v.k ac) (Rec.polar v.k pol) M U H F W D gear) := by
  have tfc : Ex (fun y => Drag.flapCd np pol (f y)) x v
      (Drag.flapCd v.b (Rec.polar v.k pol) F) :=
    mulT (mulT (mulT (constT pol.lambdaF) (powerT (constT pol.cfc)
      (sciT _ _ _ : Ex (fun _ : E => (1.38 : ℝ)) x v 1.38) hcf)) (constT pol.sfs))
      (powT (sinT (divT (mulT hf (piT))
        (sciT _ _ _ : Ex (fun _ : E => (180.0 : ℝ)) x v 180.0) (by norm_num))) 2 two_ne_zero)
  have tg : Ex (fun _ : E => Drag.gearCd np ac) x v
      (Drag.gearCd v.b (Rec.airframe v.k ac)) :=
    mulT (mulT (divT (mulT (constT ac.mtow) (sciT _ _ _ : Ex (fun _ : E => (g0 : ℝ)) x v g0))
      (constT ac.area) hA.ne') (sciT _ _ _ : Ex (fun _ : E => (3.16e-5 : ℝ)) x v 3.16e-5))
      (powerT (constT ac.mtow) (negT (sciT _ _ _)) hmt)
  have tgear : Ex (fun _ : E => if gear then Drag.gearCd np ac else 0.0) x v
      (if gear then Drag.gearCd v.b (Rec.airframe v.k ac) else 0.0) := by
    cases gear with
    | false => exact sciT _ _ _
    | true => exact tg
  have td : Ex (fun y => if ac.rear then 0.0046 * f y else 0.0026 * f y) x v
      (if (Rec.airframe v.k ac).rear then 0.0046 * F else 0.0026 * F) := by
    show Ex _ x v (if ac.rear then 0.0046 * F else 0.0026 * F)
    cases ac.rear with
    | false => exact mulT (sciT _ _ _) hf
    | true => exact mulT (sciT _ _ _) hf
  have hd0 : (0 : ℝ) ≤ if ac.rear then 0.0046 * f x else 0.0026 * f x := by
    split <;> positivity
  have t1 : Ex (fun _ : E => (1.0 : ℝ)) x v 1.0 := sciT _ _ _
  have tk : Ex (fun y => Drag.flapK np ac pol (f y)) x v
      (Drag.flapK v.b (Rec.airframe v.k ac) (Rec.polar v.k pol) F) := by
    refine divT t1 (addT (divT t1 (constT pol.k) hk.ne') (mulT (mulT (piT)
      (divT (powT (constT ac.span) 2 two_ne_zero) (constT ac.area) hA.ne')) td)) ?_
    have : (0 : ℝ) < 1.0 / pol.k := by positivity
    have h2 : 0 ≤ Real.pi * (ac.span ^ 2 / ac.area) *
        (if ac.rear then 0.0046 * f x else 0.0026 * f x) :=
      mul_nonneg (by have := Real.pi_pos; positivity) hd0
    exact (add_pos_of_pos_of_nonneg this h2).ne'
  exact calcDragT ac (addT (addT (constT pol.cd0) tfc) tgear) tk hm hu hh hw hS h11 (Or.inl h0) hq

/-! ## Thrust -/

theorem takeoffT (e : Thrust.Params ℝ) (hb : 0 < e.bpr) (hu : Ex u x v U)
    (hh : Ex h x v H) (hS : ClipT d x v D)
    (h11 : Clear (fun y => h y * 0.3048) x 11000) :
    Ex (fun y => Thrust.takeoff np e (u y) (h y) (d y)) x v
      (Thrust.takeoff v.b (Rec.thrust v.k e) U H D) := by
  have tm := tas2machT (ktsT hu) (sciT _ _ _ : Ex (fun _ : E => (0.0 : ℝ)) x v 0.0) hS
    (Clear.const _ _)
  have tp := divT (atmosT (ftT hh) hS (Clear.ft h11)).1
    (sciT _ _ _ : Ex (fun _ : E => (p0 : ℝ)) x v p0) (by norm_num [p0])
  have tb := constT (v := v) e.bpr
  have t1 : Ex (fun _ : E => (1.0 : ℝ)) x v 1.0 := sciT _ _ _
  have tG := addT (mulT (sciT _ _ _ : Ex (fun _ : E => (0.0606 : ℝ)) x v 0.0606) tb)
    (sciT _ _ _ : Ex (fun _ : E => (0.6337 : ℝ)) x v 0.6337)
  have tA := addT (addT (mulT (negT (sciT _ _ _) :
      Ex (fun _ : E => (-0.4327 : ℝ)) x v (-0.4327)) (powT tp 2 two_ne_zero))
    (mulT (sciT _ _ _ : Ex (fun _ : E => (1.3855 : ℝ)) x v 1.3855) tp))
    (sciT _ _ _ : Ex (fun _ : E => (0.0472 : ℝ)) x v 0.0472)
  have tZ := addT (subT (mulT (sciT _ _ _ : Ex (fun _ : E => (0.9106 : ℝ)) x v 0.9106)
      (powT tp 3 (by norm_num)))
    (mulT (sciT _ _ _ : Ex (fun _ : E => (1.7736 : ℝ)) x v 1.7736) (powT tp 2 two_ne_zero)))
    (mulT (sciT _ _ _ : Ex (fun _ : E => (1.8697 : ℝ)) x v 1.8697) tp)
  have tX := addT (subT (mulT (sciT _ _ _ : Ex (fun _ : E => (0.1377 : ℝ)) x v 0.1377)
      (powT tp 3 (by norm_num)))
    (mulT (sciT _ _ _ : Ex (fun _ : E => (0.4374 : ℝ)) x v 0.4374) (powT tp 2 two_ne_zero)))
    (mulT (sciT _ _ _ : Ex (fun _ : E => (1.3003 : ℝ)) x v 1.3003) tp)
  have hpos : 0 < (1.0 + 0.82 * e.bpr) * (0.0606 * e.bpr + 0.6337) := by positivity
  have ts := sqrtT (mulT (addT t1 (mulT (sciT _ _ _ :
    Ex (fun _ : E => (0.82 : ℝ)) x v 0.82) tb)) tG) hpos
  have tr := addT (subT tA (mulT (mulT (divT (mulT (sciT _ _ _ :
      Ex (fun _ : E => (0.377 : ℝ)) x v 0.377) (addT t1 tb)) ts (Real.sqrt_pos.2 hpos).ne')
      tZ) tm))
    (mulT (mulT (addT (sciT _ _ _ : Ex (fun _ : E => (0.23 : ℝ)) x v 0.23)
      (mulT (sciT _ _ _ : Ex (fun _ : E => (0.19 : ℝ)) x v 0.19) (sqrtT tb hb))) tX)
      (powT tm 2 two_ne_zero))
  exact mulT (mulT tr (constT e.maxThrust)) (constT e.number)

theorem climbT (e : Thrust.Params ℝ) (hM : 0 < e.cruiseMach) (hF : e.cruiseThrust * e.number ≠ 0)
    (hu : Ex u x v U) (hh : Ex h x v H) (hw : Ex w x v W) (hS : ClipT d x v D)
    (h11 : Clear (fun y => h y * 0.3048) x 11000) (hu0 : Clear u x 10) (hw0 : Clear w x 0)
    (h10 : Clear h x 10000) (h30 : Clear h x 30000) :
    Ex (fun y => Thrust.climb np e (u y) (h y) (w y) (d y)) x v
      (Thrust.climb v.b (Rec.thrust v.k e) U H W D) := by
  have ta := absT hw hw0
  have e10 : (10.0 : ℝ) = 10 := by norm_num
  have tu := maxT (sciT _ _ _ : Ex (fun _ : E => (10.0 : ℝ)) x v 10.0) hu (by
    rcases hu0 with hu0 | hu0
    · left; rw [e10]; exact hu0.symm
    · right; exact hu0.mono fun y hy => by rw [hy, e10])
  have hup : (0 : ℝ) < max 10.0 (u x) := lt_max_of_lt_left (by norm_num)
  have hupk : (0 : ℝ) < max 10.0 (u x) * kts := mul_pos hup (by norm_num [kts])
  have c11 := Clear.ft h11
  have tma := tas2machT (ktsT tu) (ftT hh) hS c11
  have tvc := tas2casT (ktsT tu) (ftT hh) hS c11 hupk.ne'
  have tP := (atmosT (ftT hh) hS c11).1
  have tP10 := (atmosT (ftT (sciT _ _ _ : Ex (fun _ : E => (10000.0 : ℝ)) x v 10000.0)) hS
    (Clear.const _ _)).1
  have tca := ftT (constT (v := v) e.cruiseAlt)
  have tPc := (atmosT tca hS (Clear.const _ _)).1
  have tF := mulT (constT (v := v) e.cruiseThrust) (constT e.number)
  have tcm := constT (v := v) e.cruiseMach
  have tvr := mach2casT tcm tca hS (Clear.const _ _) hM.ne'
  have tmr := divT tma tcm hM.ne'
  have tvv := divT tvc tvr (Thrust.tas2cas_pos (mul_pos hM (vsound_pos _ _)) _ _).ne'
  have pmr : 0 < tas2mach np (max 10.0 (u x) * kts) (h x * ft) (d x) / e.cruiseMach :=
    div_pos (div_pos hupk (vsound_pos _ _)) hM
  have pvv : 0 < tas2cas np (max 10.0 (u x) * kts) (h x * ft) (d x) /
      mach2cas np e.cruiseMach (e.cruiseAlt * ft) (d x) :=
    div_pos (Thrust.tas2cas_pos hupk _ _)
      (Thrust.tas2cas_pos (mul_pos hM (vsound_pos _ _)) _ _)
  have tpr := divT tP tPc (pressure_pos _ _).ne'
  have tp10 := divT tP10 tPc (pressure_pos _ _).ne'
  have td := addT (mulT (negT (sciT _ _ _) :
      Ex (fun _ : E => (-0.4204 : ℝ)) x v (-0.4204)) tmr)
    (sciT _ _ _ : Ex (fun _ : E => (1.0824 : ℝ)) x v 1.0824)
  have tb := powerT tmr (negT (sciT _ _ _) : Ex (fun _ : E => (-0.11 : ℝ)) x v (-0.11)) pmr
  have t3 := addT (mulT td (logT tpr (div_pos (pressure_pos _ _) (pressure_pos _ _)))) tb
  have taa := powerT tvv (negT (sciT _ _ _) : Ex (fun _ : E => (-0.1 : ℝ)) x v (-0.1)) pvv
  have tn := addT (mulT (sciT _ _ _ : Ex (fun _ : E => (2.667e-05 : ℝ)) x v 2.667e-05) ta)
    (sciT _ _ _ : Ex (fun _ : E => (0.8633 : ℝ)) x v 0.8633)
  have tex := addT (mulT (negT (sciT _ _ _) :
    Ex (fun _ : E => (-0.355 : ℝ)) x v (-0.355)) tvv) tn
  have t2 := mulT taa (powerT tpr tex (div_pos (pressure_pos _ _) (pressure_pos _ _)))
  have tF10 := mulT (mulT tF taa) (powerT tp10 tex (div_pos (pressure_pos _ _) (pressure_pos _ _)))
  have tmf := addT (addT (subT (mulT (negT (sciT _ _ _) :
      Ex (fun _ : E => (-1.2043e-1 : ℝ)) x v (-1.2043e-1)) tvv)
    (mulT (sciT _ _ _ : Ex (fun _ : E => (8.8889e-9 : ℝ)) x v 8.8889e-9)
      (powT ta 2 two_ne_zero)))
    (mulT (sciT _ _ _ : Ex (fun _ : E => (2.4444e-5 : ℝ)) x v 2.4444e-5) ta))
    (sciT _ _ _ : Ex (fun _ : E => (4.7379e-1 : ℝ)) x v 4.7379e-1)
  have t1 := addT (mulT tmf tpr) (subT (divT tF10 tF hF) (mulT tmf tp10))
  have e1 : (10000.0 : ℝ) = 10000 := by norm_num
  have e3 : (30000.0 : ℝ) = 30000 := by norm_num
  exact mulT (whereT hh (sciT _ _ _ : Ex (fun _ : E => (30000.0 : ℝ)) x v 30000.0)
    t3 (whereT hh
      (sciT _ _ _ : Ex (fun _ : E => (10000.0 : ℝ)) x v 10000.0)
      t2 t1 (by rw [e1]; exact h10)) (by rw [e3]; exact h30)) tF

/-! ## Fuel flow -/

theorem atThrustT (p : Fuel.Params ℝ) (h1 : 0 < p.c1) (h2 : p.c2 ≠ 0) (hn : p.number ≠ 0)
    (hT : p.maxThrust ≠ 0) (hf : Ex f x v F) :
    Ex (fun y => Fuel.atThrust np p (f y)) x v (Fuel.atThrust v.b (Rec.fuel v.k p) F) := by
  have tr := divT (divT hf (constT p.number) hn) (constT p.maxThrust) hT
  have t1 : Ex (fun _ : E => (1.0 : ℝ)) x v 1.0 := sciT _ _ _
  have t003 : Ex (fun _ : E => (0.03 : ℝ)) x v 0.03 := sciT _ _ _
  have t50 : Ex (fun _ : E => (50.0 : ℝ)) x v 50.0 := sciT _ _ _
  have pe : ∀ a : ℝ, 0 < 1.0 + np.exp a := fun a => by
    have := Real.exp_pos a
    show (0 : ℝ) < 1.0 + Real.exp a
    norm_num; linarith
  have tl := addT (divT (subT (logT (addT t1 (expT (mulT t50 (subT tr t003)))) (pe _))
    (logT (addT t1 (expT (mulT (sciT _ _ _ : Ex (fun _ : E => (45.0 : ℝ)) x v 45.0)
      (subT tr (sciT _ _ _ : Ex (fun _ : E => (1.2 : ℝ)) x v 1.2))))) (pe _)))
    (logT (addT t1 (expT t50)) (pe _)) (by
      have : 0 < Real.log (1.0 + Real.exp 50.0) :=
        Real.log_pos (by have := Real.exp_pos 50.0; norm_num at this ⊢; exact this)
      exact this.ne')) t003
  have tc2 := constT (v := v) p.c2
  exact mulT (mulT (constT p.scale) (subT (constT p.c1) (expT (mulT (negT tc2)
    (subT (mulT tl (expT (mulT (constT p.c3) tl))) (divT (logT (constT p.c1) h1) tc2 h2))))))
    (constT p.number)

theorem enrouteT (p : Fuel.Params ℝ) (h1 : 0 < p.c1) (h2 : p.c2 ≠ 0) (hn : p.number ≠ 0)
    (hT : p.maxThrust ≠ 0) (ac : Drag.Airframe ℝ) (pol : Drag.Polar ℝ) (wave lim : Bool)
    (hs : wave = true → Real.cos (ac.sweep * Real.pi / 180) ≠ 0)
    (hm : Ex m x v M) (hu : Ex u x v U)
    (hh : Ex h x v H) (hw : Ex w x v W) (hf : Ex f x v F) (hS : ClipT d x v D)
    (h11 : Clear (fun y => h y * 0.3048) x 11000) (h0 : 0 < u x)
    (hq : Clear (fun y => qS0 ac (u y) (h y) (d y)) x 0.001) :
    Ex (fun y => Fuel.enroute np p ac pol wave (m y) (u y) (h y) (w y) (f y) (d y) lim) x v
      (Fuel.enroute v.b (Rec.fuel v.k p) (Rec.airframe v.k ac) (Rec.polar v.k pol) wave M U H W F D lim) := by
  refine atThrustT p h1 h2 hn hT ?_
  exact addT (addT (cleanT ac pol wave hs hm hu hh hw hS h11 h0 hq)
    (mulT (mulT hm (sciT _ _ _ : Ex (fun _ : E => (9.81 : ℝ)) x v 9.81))
      (sinT (gamT hu hw (Or.inl h0))))) (mulT hm hf)

/-! ## Emissions -/

theorem ltoT (e : Emission.Params ℝ) (ei : Fin 4 → ℝ) (hff : StrictMono e.ff) {s : E → ℝ}
    {S : v.N} (hs : Ex s x v S) (hc : ∀ k, Clear s x (e.ff k))
    (hr : v.holdsEnds ∨ e.ff 0 < s x ∧ s x < e.ff 3) :
    Ex (fun y => Emission.lto np e ei (s y)) x v
      (Emission.lto v.b (Rec.emission v.k e) (fun k => v.k (ei k)) S) :=
  Laws.interp hs (e.ff 0) (ei 0) (e.ff 1) (ei 1) (e.ff 2) (ei 2) (e.ff 3) (ei 3)
    (hff (by decide)) (hff (by decide)) (hff (by decide)) (hc 0) (hc 1) (hc 2) (hc 3) hr

theorem fl2slT (e : Emission.Params ℝ) (hn : e.number ≠ 0) (hf : Ex f x v F)
    (hu : Ex u x v U) (hh : Ex h x v H) (hS : ClipT d x v D)
    (h11 : Clear (fun y => h y * 0.3048) x 11000) (ha : 0.0019812 * h x < 288.15) :
    Ex (fun y => (Emission.fl2sl np e (f y) (u y) (h y) (d y)).1) x v
      (Emission.fl2sl v.b (Rec.emission v.k e) F U H D).1 ∧
    Ex (fun y => (Emission.fl2sl np e (f y) (u y) (h y) (d y)).2) x v
      (Emission.fl2sl v.b (Rec.emission v.k e) F U H D).2 ∧
    0 < (Emission.fl2sl np e (f x) (u x) (h x) (d x)).2 := by
  have tM := tas2machT (ktsT hu) (ftT hh) hS (Clear.ft h11)
  have tb := expT (mulT (sciT _ _ _ : Ex (fun _ : E => (0.2 : ℝ)) x v 0.2)
    (powT tM 2 two_ne_zero))
  have t288 : Ex (fun _ : E => (288.15 : ℝ)) x v 288.15 := sciT _ _ _
  have pb : ∀ a, 0 < np.exp a := fun a => Real.exp_pos a
  have tth := divT (divT (atmosT (ftT hh) hS (Clear.ft h11)).2.2 t288 (by norm_num)) tb (pb _).ne'
  have pth : 0 < temperature np (h x * ft) (d x) / 288.15 /
      np.exp (0.2 * tas2mach np (u x * kts) (h x * ft) (d x) ^ 2) :=
    div_pos (div_pos (by rw [temperature_eq]; exact temp_pos _ _) (by norm_num)) (pb _)
  have pd : 0 < 1.0 - 0.0019812 * h x / 288.15 := by
    have : 0.0019812 * h x / 288.15 < 1 := (div_lt_one (by norm_num)).2 ha
    norm_num at this ⊢; linarith
  have t35 : Ex (fun _ : E => (3.5 : ℝ)) x v 3.5 := sciT _ _ _
  have tnum := powerT (subT (sciT _ _ _ : Ex (fun _ : E => (1.0 : ℝ)) x v 1.0)
    (divT (mulT (sciT _ _ _ : Ex (fun _ : E => (0.0019812 : ℝ)) x v 0.0019812) hh) t288
      (by norm_num))) (sciT _ _ _ : Ex (fun _ : E => (5.255876 : ℝ)) x v 5.255876) pd
  have pp : ∀ a c : ℝ, 0 < a → 0 < np.power a c := fun a c ha => Real.rpow_pos_of_pos ha c
  have tde := divT tnum (powerT tb t35 (pb _)) (pp _ _ (pb _)).ne'
  have pde : 0 < np.power (1.0 - 0.0019812 * h x / 288.15) 5.255876 /
      np.power (np.exp (0.2 * tas2mach np (u x * kts) (h x * ft) (d x) ^ 2)) 3.5 :=
    div_pos (pp _ _ pd) (pp _ _ (pb _))
  have tra := divT (powerT tth (sciT _ _ _ : Ex (fun _ : E => (3.3 : ℝ)) x v 3.3) pth)
    (powerT tde (sciT _ _ _ : Ex (fun _ : E => (1.02 : ℝ)) x v 1.02) pde) (pp _ _ pde).ne'
  have tsl := mulT (divT (mulT (divT hf (constT e.number) hn)
    (powerT tth (sciT _ _ _ : Ex (fun _ : E => (3.8 : ℝ)) x v 3.8) pth)) tde pde.ne') tb
  exact ⟨tsl, tra, div_pos (pp _ _ pth) (pp _ _ pde)⟩

theorem noxT (e : Emission.Params ℝ) (hn : e.number ≠ 0) (hff : StrictMono e.ff)
    (hf : Ex f x v F)
    (hu : Ex u x v U) (hh : Ex h x v H) (hS : ClipT d x v D)
    (h11 : Clear (fun y => h y * 0.3048) x 11000) (ha : 0.0019812 * h x < 288.15)
    (hc : ∀ k, Clear (fun y => (Emission.fl2sl np e (f y) (u y) (h y) (d y)).1) x (e.ff k))
    (hr : v.holdsEnds ∨ e.ff 0 < (Emission.fl2sl np e (f x) (u x) (h x) (d x)).1 ∧
      (Emission.fl2sl np e (f x) (u x) (h x) (d x)).1 < e.ff 3) :
    Ex (fun y => Emission.nox np e (f y) (u y) (h y) (d y)) x v
      (Emission.nox v.b (Rec.emission v.k e) F U H D) := by
  obtain ⟨t1, t2, pr⟩ := fl2slT e hn hf hu hh hS h11 ha
  have tom := mulT (sciT _ _ _ : Ex (fun _ : E => (0.001 : ℝ)) x v 0.001)
    (expT (mulT (negT (sciT _ _ _ : Ex (fun _ : E => (0.0001426 : ℝ)) x v 0.0001426))
      (subT hh (sciT _ _ _ : Ex (fun _ : E => (12900.0 : ℝ)) x v 12900.0))))
  exact mulT (mulT (mulT (ltoT e e.nox hff t1 hc hr)
    (sqrtT (divT (sciT _ _ _ : Ex (fun _ : E => (1.0 : ℝ)) x v 1.0) t2 pr.ne')
      (div_pos (by norm_num) pr)))
    (expT (mulT (negT (sciT _ _ _ : Ex (fun _ : E => (19.0 : ℝ)) x v 19.0))
      (subT tom (sciT _ _ _ : Ex (fun _ : E => (0.00634 : ℝ)) x v 0.00634))))) hf

theorem coT (e : Emission.Params ℝ) (hn : e.number ≠ 0) (hff : StrictMono e.ff)
    (hf : Ex f x v F)
    (hu : Ex u x v U) (hh : Ex h x v H) (hS : ClipT d x v D)
    (h11 : Clear (fun y => h y * 0.3048) x 11000) (ha : 0.0019812 * h x < 288.15)
    (hc : ∀ k, Clear (fun y => (Emission.fl2sl np e (f y) (u y) (h y) (d y)).1) x (e.ff k))
    (hr : v.holdsEnds ∨ e.ff 0 < (Emission.fl2sl np e (f x) (u x) (h x) (d x)).1 ∧
      (Emission.fl2sl np e (f x) (u x) (h x) (d x)).1 < e.ff 3) :
    Ex (fun y => Emission.co np e (f y) (u y) (h y) (d y)) x v
      (Emission.co v.b (Rec.emission v.k e) F U H D) ∧
    Ex (fun y => Emission.hc np e (f y) (u y) (h y) (d y)) x v
      (Emission.hc v.b (Rec.emission v.k e) F U H D) := by
  obtain ⟨t1, t2, -⟩ := fl2slT e hn hf hu hh hS h11 ha
  exact ⟨mulT (mulT (ltoT e e.co hff t1 hc hr) t2) hf, mulT (mulT (ltoT e e.hc hff t1 hc hr) t2) hf⟩

theorem gasT (hf : Ex f x v F) :
    Ex (fun y => Emission.co2 (f y)) x v (Emission.co2 F) ∧
    Ex (fun y => Emission.h2o (f y)) x v (Emission.h2o F) ∧
    Ex (fun y => Emission.soot (f y)) x v (Emission.soot F) ∧
    Ex (fun y => Emission.sox (f y)) x v (Emission.sox F) :=
  ⟨mulT hf (sciT _ _ _), mulT hf (sciT _ _ _), mulT hf (sciT _ _ _), mulT hf (sciT _ _ _)⟩

theorem clip0T : ClipT (fun _ : E => (0.0 : ℝ)) x v (0.0 : v.N) :=
  clipT (sciT _ _ _) (Clear.const _ _) (Clear.const _ _)

theorem fuelTakeoffT {k : E → ℝ} {K : v.N} (p : Fuel.Params ℝ) (h1 : 0 < p.c1) (h2 : p.c2 ≠ 0)
    (hn : p.number ≠ 0) (hT : p.maxThrust ≠ 0) (e : Thrust.Params ℝ) (hb : 0 < e.bpr)
    (hu : Ex u x v U) (hh : Ex h x v H) (hk : Ex k x v K)
    (h11 : Clear (fun y => h y * 0.3048) x 11000) :
    Ex (fun y => Fuel.takeoff np p e (u y) (h y) (k y)) x v
      (Fuel.takeoff v.b (Rec.fuel v.k p) (Rec.thrust v.k e) U H K) :=
  mulT hk (atThrustT p h1 h2 hn hT (takeoffT e hb hu hh clip0T h11))

theorem cruiseT (e : Thrust.Params ℝ) (hM : 0 < e.cruiseMach) (hF : e.cruiseThrust * e.number ≠ 0)
    (hu : Ex u x v U) (hh : Ex h x v H) (hS : ClipT d x v D)
    (h11 : Clear (fun y => h y * 0.3048) x 11000) (hu0 : Clear u x 10)
    (h10 : Clear h x 10000) (h30 : Clear h x 30000) :
    Ex (fun y => Thrust.cruise np e (u y) (h y) (d y)) x v
      (Thrust.cruise v.b (Rec.thrust v.k e) U H D) :=
  climbT e hM hF hu hh (sciT _ _ _ : Ex (fun _ : E => (0.0 : ℝ)) x v 0.0) hS h11 hu0
    (Clear.const _ _) h10 h30

theorem descentIdleT (e : Thrust.Params ℝ) (hb : 0 < e.bpr) (hu : Ex u x v U)
    (hh : Ex h x v H) (hS : ClipT d x v D)
    (h11 : Clear (fun y => h y * 0.3048) x 11000) :
    Ex (fun y => Thrust.descentIdle np e (u y) (h y) (d y)) x v
      (Thrust.descentIdle v.b (Rec.thrust v.k e) U H D) :=
  mulT (sciT _ _ _ : Ex (fun _ : E => (0.07 : ℝ)) x v 0.07) (takeoffT e hb hu hh hS h11)

end Verif.AD
