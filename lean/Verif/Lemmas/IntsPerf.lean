import Verif.Lemmas.Ints
import Verif.Spec.Ints

/-! Drag, thrust, fuel flow and emissions of integer arguments: where the calculation is exact. -/

namespace Verif.INum
open Verif

variable {m t a s d f p c q : INum} {xm xt xa xs xd xf xp xc xq : ℝ} {k : Kd}

section drag
open Drag
variable (A : Airframe ℝ) (P : Polar ℝ)

/-- Records hold doubles. -/
noncomputable abbrev af : Airframe INum := Rec.airframe .flt A
@[inherit_doc af]
noncomputable abbrev pol : Polar INum := Rec.polar .flt P

theorem G.cl (hm : G .any m xm) (ht : G .any t xt) (ha : G .any a xa) (hs : G .any s xs)
    (hd : G .any d xd) :
    G .flt (Drag.cl npInt (af A) m t a s d).1 (Drag.cl np A xm xt xa xs xd).1 ∧
    G .flt (Drag.cl npInt (af A) m t a s d).2 (Drag.cl np A xm xt xa xs xd).2 := by
  have h1 := ht.kts
  have h2 := hs.fpm
  have h3 := ha.ft.density hd
  simp only [Drag.cl, Rec.airframe, Aero.g0]
  constructor <;> exact_steps

theorem G.calcDrag (hm : G .any m xm) (ht : G .any t xt) (ha : G .any a xa) (hs : G .any s xs)
    (hd : G .any d xd) (hc : G .flt c xc) (hq : G .flt q xq) :
    G .flt (Drag.calcDrag npInt (af A) m t a c q s d) (Drag.calcDrag np A xm xt xa xc xq xs xd) := by
  obtain ⟨h1, h2⟩ := G.cl A hm ht ha hs hd
  simp only [Drag.calcDrag]
  exact_steps

theorem G.machCrit (hc : G .flt c xc) :
    G .flt (Drag.machCrit npInt (af A) c) (Drag.machCrit np A xc) := by
  have ht : G .flt ((af A).tc.getD 0.12) (A.tc.getD 0.12) := by
    simp only [Rec.airframe]
    cases A.tc with
    | none => simp only [Option.map_none, Option.getD_none]; exact_steps
    | some x => rfl
  simp only [Drag.machCrit] at ht ⊢
  have hs : G .flt (af A).sweep A.sweep := rfl
  exact_steps

theorem G.waveDrag (hm : G .any m xm) (ht : G .any t xt) (ha : G .any a xa) (hd : G .any d xd) :
    G .flt (Drag.waveDrag npInt (af A) m t a d) (Drag.waveDrag np A xm xt xa xd) := by
  have h1 := ht.kts.tas2mach ha.ft hd
  have h2 := (G.cl A hm ht ha (G.lit 0 true 1).any hd).1
  have h3 := G.machCrit A h2
  simp only [Drag.waveDrag]
  exact_steps

theorem G.clean (hm : G .any m xm) (ht : G .any t xt) (ha : G .any a xa) (hs : G .any s xs)
    (hd : G .any d xd) (wave : Bool) :
    G .flt (Drag.clean npInt (af A) (pol P) wave m t a s d)
      (Drag.clean np A P wave xm xt xa xs xd) := by
  have h1 := G.waveDrag A hm ht ha hd
  refine G.calcDrag A hm ht ha hs hd ?_ rfl
  have h2 : G .flt (pol P).cd0 P.cd0 := rfl
  cases wave
  · simp only [Bool.false_eq_true, if_false]; exact_steps
  · simp only [if_true]; exact_steps

theorem G.nonclean (hm : G .any m xm) (ht : G .any t xt) (ha : G .any a xa) (hf : G .any f xf)
    (hs : G .any s xs) (hd : G .any d xd) (gear : Bool) :
    G .flt (Drag.nonclean npInt (af A) (pol P) m t a f s d gear)
      (Drag.nonclean np A P xm xt xa xf xs xd gear) := by
  have h1 : G .flt (pol P).cd0 P.cd0 := rfl
  have h2 : G .flt (Drag.flapCd npInt (pol P) f) (Drag.flapCd np P xf) := by
    simp only [Drag.flapCd, Rec.polar]; exact_steps
  have h3 : G .flt (Drag.gearCd npInt (af A)) (Drag.gearCd np A) := by
    simp only [Drag.gearCd, Rec.airframe, Aero.g0]; exact_steps
  have h4 : G .flt (Drag.flapK npInt (af A) (pol P) f) (Drag.flapK np A P xf) := by
    simp only [Drag.flapK, Rec.airframe, Rec.polar]
    cases A.rear
    · simp only [Bool.false_eq_true, if_false]; exact_steps
    · simp only [if_true]; exact_steps
  refine G.calcDrag A hm ht ha hs hd ?_ h4
  cases gear
  · simp only [Bool.false_eq_true, if_false]; exact_steps
  · simp only [if_true]; exact_steps

end drag

section thrust
variable (E : Thrust.Params ℝ)

/-- Records hold doubles. -/
noncomputable abbrev thr : Thrust.Params INum := Rec.thrust .flt E

theorem G.takeoff (ht : G .any t xt) (ha : G .any a xa) (hd : G .any d xd) :
    G .flt (Thrust.takeoff npInt (thr E) t a d) (Thrust.takeoff np E xt xa xd) := by
  have h0 : G .flt (Aero.tas2mach npInt (t * Aero.kts) 0.0 d)
      (Aero.tas2mach np (xt * Aero.kts) 0.0 xd) := by
    have h1 := hd.clip
    have h2 := hd.shift
    have h3 := ht.kts
    simp only [Aero.tas2mach, Aero.vsound, Aero.temperature, Aero.atmos, Aero.beta, Aero.gamma,
      Aero.R]
    exact_steps
  have h1 := ha.ft.pressure hd
  simp only [Thrust.takeoff, Thrust.takeoffRatio, Rec.thrust, Aero.p0]
  exact_steps

theorem wrap_of_fits {D : IntType} {n : ℤ} (h : D.Fits n) : D.wrap n = n := by
  obtain ⟨h1, h2⟩ := h
  unfold IntType.wrap
  rw [Int.emod_eq_of_lt (by omega)]
  · ring
  · cases D <;> simp [IntType.lo, IntType.hi, IntType.bits, IntType.signed] at * <;> omega

theorem arg_any (h : Spec.Arg t) : G .any t t.val := by
  refine ⟨?_, rfl⟩
  rintro rfl
  exact h

theorem max_ten (h : Spec.Arg t) : G .any (npInt.maximum 10.0 t) (np.maximum 10.0 t.val) := by
  have e1 : (10.0 : INum) = .py 10 := by
    change (if whole 100 true 1 then _ else _) = _
    rw [if_pos (by decide)]; norm_num
  have e2 : (10.0 : ℝ) = ((10 : ℤ) : ℝ) := by norm_num
  rw [e1, e2]
  cases t with
  | flt x => exact ⟨by simp [npInt, INum.arith], rfl⟩
  | err => exact h.elim
  | py n => exact ⟨by simp [npInt, INum.arith], by simp [npInt, INum.arith, np, val]⟩
  | int D n =>
    have h10 : D.Fits 10 := by cases D <;> decide
    have h : D.Fits n := h
    have hm : D.Fits (max 10 n) := by
      rcases le_total 10 n with h' | h'
      · rwa [max_eq_right h']
      · rwa [max_eq_left h']
    have e : npInt.maximum (.py 10) (.int D n) = .int D (max 10 n) := by
      change (if D.Fits 10 then INum.int D (D.wrap (max 10 n)) else .err) = _
      rw [if_pos h10, wrap_of_fits hm]
    rw [e]
    exact ⟨by simp, by simp [val, np]⟩

section
variable {α : Type} [Add α] [Sub α] [Mul α] [Div α] [Neg α] [OfScientific α] [Pow α ℕ]
/-- `Thrust.climb` with the magnitude of the vertical rate and its square given separately. -/
def climbQ (b : Backend α) (e : Thrust.Params α) (tas alt roc q dT : α) : α :=
  let h := alt * Aero.ft
  let tas := b.maximum 10.0 tas
  let mach := Aero.tas2mach b (tas * Aero.kts) h dT
  let vcas := Aero.tas2cas b (tas * Aero.kts) h dT
  let P := Aero.pressure b h dT
  let P10 := Aero.pressure b (10000.0 * Aero.ft) dT
  let Pcr := Aero.pressure b (e.cruiseAlt * Aero.ft) dT
  let Fcr := e.cruiseThrust * e.number
  let vcas_ref := Aero.mach2cas b e.cruiseMach (e.cruiseAlt * Aero.ft) dT
  let d := Thrust.dfunc (mach / e.cruiseMach)
  let bcoef := b.power (mach / e.cruiseMach) (-0.11)
  let ratio_seg3 := d * b.log (P / Pcr) + bcoef
  let a := b.power (vcas / vcas_ref) (-0.1)
  let n := Thrust.nfunc roc
  let ratio_seg2 := a * b.power (P / Pcr) (-0.355 * (vcas / vcas_ref) + n)
  let F10 := Fcr * a * b.power (P10 / Pcr) (-0.355 * (vcas / vcas_ref) + n)
  let m := -1.2043e-1 * (vcas / vcas_ref) - 8.8889e-9 * q + 2.4444e-5 * roc + 4.7379e-1
  let ratio_seg1 := m * (P / Pcr) + (F10 / Fcr - m * (P10 / Pcr))
  let ratio := b.whereGt alt 30000.0 ratio_seg3 (b.whereGt alt 10000.0 ratio_seg2 ratio_seg1)
  ratio * Fcr
end

theorem G.climbQ (ht : Spec.Arg t) (ha : G .any a xa) (hd : G .any d xd) {r q : INum} {xr xq : ℝ}
    (hr : G .any r xr) (hq : G .any q xq) :
    G .flt (INum.climbQ npInt (thr E) t a r q d) (INum.climbQ np E t.val xa xr xq xd) := by
  have hm := max_ten ht
  have h1 := hm.kts.tas2mach ha.ft hd
  have h2 := hm.kts.tas2cas ha.ft hd
  have h3 := ha.ft.pressure hd
  have h4 := (G.lit 100000 true 1).ft.pressure hd
  have h5 := (G.const E.cruiseAlt).ft.pressure hd
  have h6 := (G.const E.cruiseMach).mach2cas (G.const E.cruiseAlt).ft hd
  have h7 : G .flt (thr E).cruiseMach E.cruiseMach := rfl
  have h8 : G .flt (thr E).cruiseThrust E.cruiseThrust := rfl
  have h9 : G .flt (thr E).number E.number := rfl
  simp only [INum.climbQ, Thrust.dfunc, Thrust.nfunc]
  refine G.mul (k := .flt) (k' := .flt) (G.whereGt ha (G.lit _ _ _) ?_
    (G.whereGt ha (G.lit _ _ _) ?_ ?_)) (h8.mul h9 rfl) rfl
  all_goals exact_steps

theorem climbQ_eq (t a r d q : ℝ) : INum.climbQ np E t a |r| q d = Thrust.climb np E t a r d +
      if a ≤ 10000 then 8.8889e-9 * (r ^ 2 - q) *
        ((Aero.pressure np (a * Aero.ft) d - Aero.pressure np (10000 * Aero.ft) d) /
          Aero.pressure np (E.cruiseAlt * Aero.ft) d) * (E.cruiseThrust * E.number) else 0 := by
  have e1 : (30000.0 : ℝ) = 30000 := by norm_num
  have e2 : (10000.0 : ℝ) = 10000 := by norm_num
  simp only [INum.climbQ, Thrust.climb, Thrust.mfunc, np, sq_abs]
  rw [e1, e2]
  by_cases h : a ≤ 10000
  · have h3 : ¬ a > 30000 := by linarith
    have h4 : ¬ a > 10000 := by linarith
    simp only [h, h3, h4, if_true, if_false]
    ring
  · simp only [h, if_false, if_pos (not_le.1 h), add_zero]

/-- Climb thrust with the vertical rate and its square as they come out. -/
theorem G.climb (ht : Spec.Arg t) (ha : G .any a xa) (hd : G .any d xd) {r : INum} {xr xq : ℝ}
    (hr : G .any (npInt.abs r) |xr|) (hq : G .any (npInt.abs r ^ 2) xq) :
    G .flt (Thrust.climb npInt (thr E) t a r d) (Thrust.climb np E t.val xa xr xd +
      if xa ≤ 10000 then 8.8889e-9 * (xr ^ 2 - xq) *
        ((Aero.pressure np (xa * Aero.ft) xd - Aero.pressure np (10000 * Aero.ft) xd) /
          Aero.pressure np (E.cruiseAlt * Aero.ft) xd) * (E.cruiseThrust * E.number) else 0) := by
  rw [← climbQ_eq]
  exact G.climbQ E ht ha hd hr hq

theorem G.idle (ht : G .any t xt) (ha : G .any a xa) (hd : G .any d xd) :
    G .flt (Thrust.descentIdle npInt (thr E) t a d) (Thrust.descentIdle np E xt xa xd) := by
  have h1 := G.takeoff E ht ha hd
  simp only [Thrust.descentIdle]
  exact_steps

end thrust

section fuel
variable (F : Fuel.Params ℝ)

/-- Records hold doubles. -/
noncomputable abbrev fue : Fuel.Params INum := Rec.fuel .flt F

theorem G.atThrust (ht : G .any t xt) :
    G .flt (Fuel.atThrust npInt (fue F) t) (Fuel.atThrust np F xt) := by
  simp only [Fuel.atThrust, Fuel.funcFuel, Fuel.limiter, Rec.fuel]
  exact_steps

end fuel

section emission
variable (E : Emission.Params ℝ)

/-- Records hold doubles. -/
noncomputable abbrev emi : Emission.Params INum := Rec.emission .flt E

theorem G.fl2sl (hf : G .any f xf) (ht : G .any t xt) (ha : G .any a xa) (hd : G .any d xd) :
    G .flt (Emission.fl2sl npInt (emi E) f t a d).1 (Emission.fl2sl np E xf xt xa xd).1 ∧
    G .flt (Emission.fl2sl npInt (emi E) f t a d).2 (Emission.fl2sl np E xf xt xa xd).2 := by
  have h1 := ht.kts.tas2mach ha.ft hd
  have h2 := ha.ft.temperature hd
  simp only [Emission.fl2sl, Rec.emission]
  constructor <;> exact_steps

theorem G.interp (hf : G k f xf) (u w : Fin 4 → ℝ) :
    G .flt (npInt.interp f [.flt (u 0), .flt (u 1), .flt (u 2), .flt (u 3)]
        [.flt (w 0), .flt (w 1), .flt (w 2), .flt (w 3)])
      (np.interp xf [u 0, u 1, u 2, u 3] [w 0, w 1, w 2, w 3]) := by
  obtain ⟨h, rfl⟩ := hf.any
  have : npInt.interp f [.flt (u 0), .flt (u 1), .flt (u 2), .flt (u 3)]
      [.flt (w 0), .flt (w 1), .flt (w 2), .flt (w 3)] =
      .flt (interpR f.val [u 0, u 1, u 2, u 3] [w 0, w 1, w 2, w 3]) := by
    refine (if_neg ?_).trans rfl
    simpa using fun e => h e.symm
  exact this

theorem G.co (hf : G .any f xf) (ht : G .any t xt) (ha : G .any a xa) (hd : G .any d xd) :
    G .flt (Emission.co npInt (emi E) f t a d) (Emission.co np E xf xt xa xd) := by
  obtain ⟨h1, h2⟩ := G.fl2sl E hf ht ha hd
  have h3 := h1.interp E.ff E.co
  simp only [Emission.co, Emission.lto] at h1 h2 h3 ⊢
  exact ((h3.mul h2 rfl).mul hf rfl)

theorem G.hc (hf : G .any f xf) (ht : G .any t xt) (ha : G .any a xa) (hd : G .any d xd) :
    G .flt (Emission.hc npInt (emi E) f t a d) (Emission.hc np E xf xt xa xd) := by
  obtain ⟨h1, h2⟩ := G.fl2sl E hf ht ha hd
  have h3 := h1.interp E.ff E.hc
  simp only [Emission.hc, Emission.lto] at h1 h2 h3 ⊢
  exact ((h3.mul h2 rfl).mul hf rfl)

/-- NOx, given the value `xq` that `alt - 12900` has. -/
theorem G.nox (hf : G .any f xf) (ht : G .any t xt) (ha : G .any a xa) (hd : G .any d xd)
    (hq : G .any (a - 12900.0) xq) :
    G .flt (Emission.nox npInt (emi E) f t a d) (Emission.nox np E xf xt xa xd *
      Real.exp (19 * (0.001 * (Real.exp (-0.0001426 * (xa - 12900)) -
        Real.exp (-0.0001426 * xq))))) := by
  obtain ⟨h1, h2⟩ := G.fl2sl E hf ht ha hd
  have h3 := h1.interp E.ff E.nox
  have h4 : G .flt (0.001 * npInt.exp (-0.0001426 * (a - 12900.0)))
      (0.001 * np.exp (-0.0001426 * xq)) := by exact_steps
  have h5 : G .flt (Emission.nox npInt (emi E) f t a d)
      (np.interp (Emission.fl2sl np E xf xt xa xd).1 [E.ff 0, E.ff 1, E.ff 2, E.ff 3]
        [E.nox 0, E.nox 1, E.nox 2, E.nox 3] *
        np.sqrt (1.0 / (Emission.fl2sl np E xf xt xa xd).2) *
        np.exp (-19.0 * (0.001 * np.exp (-0.0001426 * xq) - 0.00634)) * xf) := by
    simp only [Emission.nox, Emission.lto]
    have h6 : G .flt (npInt.interp (Emission.fl2sl npInt (emi E) f t a d).1
        [(emi E).ff 0, (emi E).ff 1, (emi E).ff 2, (emi E).ff 3]
        [(emi E).nox 0, (emi E).nox 1, (emi E).nox 2, (emi E).nox 3])
      (np.interp (Emission.fl2sl np E xf xt xa xd).1 [E.ff 0, E.ff 1, E.ff 2, E.ff 3]
        [E.nox 0, E.nox 1, E.nox 2, E.nox 3]) := h3
    exact_steps
  convert h5 using 1
  simp only [Emission.nox, Emission.lto, np]
  have e : Real.exp (-19.0 * (0.001 * Real.exp (-0.0001426 * xq) - 0.00634)) =
      Real.exp (-19.0 * (0.001 * Real.exp (-0.0001426 * (xa - 12900.0)) - 0.00634)) *
      Real.exp (19 * (0.001 * (Real.exp (-0.0001426 * (xa - 12900)) -
        Real.exp (-0.0001426 * xq)))) := by
    rw [← Real.exp_add]
    congr 1
    norm_num
    ring
  rw [e]; ring

end emission

end Verif.INum
