import Verif.Lemmas.Shaped

/-!
# The bodies of the performance methods preserve `Rep`
-/

namespace Verif.Shaped
open Verif.Nd Verif.Decorated Verif.Aero

variable {u : List ℕ} {r : ℕ}
variable {a c d e k : Bool × ℕ} {v w z s m : Nd} {x y q p o : List ℕ → ℝ} {j : Bool}

theorem rep_temperature (hu : u ≠ []) (h : Rep u r a v x) (k : Rep u r c w y) :
    Rep u r ((j, 0) ⊔ a ⊔ c) (temperature (ndBackend j) v w)
      (fun i => temperature np (x i) (y i)) := (rep_atmos hu h k).2.2

theorem rep_pressure (hu : u ≠ []) (h : Rep u r a v x) (k : Rep u r c w y) :
    Rep u r ((j, 0) ⊔ a ⊔ c) (pressure (ndBackend j) v w)
      (fun i => pressure np (x i) (y i)) := (rep_atmos hu h k).1

theorem rep_density (hu : u ≠ []) (h : Rep u r a v x) (k : Rep u r c w y) :
    Rep u r ((j, 0) ⊔ a ⊔ c) (density (ndBackend j) v w)
      (fun i => density np (x i) (y i)) := (rep_atmos hu h k).2.1

theorem rep_tas2mach (hu : u ≠ []) (h : Rep u r a v x) (k : Rep u r c w y)
    (l : Rep u r d z q) :
    Rep u r ((j, 0) ⊔ a ⊔ c ⊔ d) (tas2mach (ndBackend j) v w z)
      (fun i => tas2mach np (x i) (y i) (q i)) := by
  have ht := rep_temperature (j := j) hu k l
  apply Rep.cast
  · unfold tas2mach vsound
    dsimp only [gamma, R]
    rep
  · lvl

theorem rep_mach2tas (hu : u ≠ []) (h : Rep u r a v x) (k : Rep u r c w y)
    (l : Rep u r d z q) :
    Rep u r ((j, 0) ⊔ a ⊔ c ⊔ d) (mach2tas (ndBackend j) v w z)
      (fun i => mach2tas np (x i) (y i) (q i)) := by
  have ht := rep_temperature (j := j) hu k l
  apply Rep.cast
  · unfold mach2tas vsound
    dsimp only [gamma, R]
    rep
  · lvl

theorem rep_tas2cas (hu : u ≠ []) (h : Rep u r a v x) (k : Rep u r c w y)
    (l : Rep u r d z q) :
    Rep u r ((j, 0) ⊔ a ⊔ c ⊔ d) (tas2cas (ndBackend j) v w z)
      (fun i => tas2cas np (x i) (y i) (q i)) := by
  obtain ⟨h1, h2, -⟩ := rep_atmos (j := j) hu k l
  apply Rep.cast
  · unfold tas2cas
    dsimp only [p0, rho0]
    rep
  · lvl

theorem rep_mach2cas (hu : u ≠ []) (h : Rep u r a v x) (k : Rep u r c w y)
    (l : Rep u r d z q) :
    Rep u r ((j, 0) ⊔ a ⊔ c ⊔ d) (mach2cas (ndBackend j) v w z)
      (fun i => mach2cas np (x i) (y i) (q i)) := by
  apply Rep.cast
  · exact rep_tas2cas hu (rep_mach2tas (j := j) hu h k l) k l
  · lvl

/-! ## `drag.py` -/

variable (ac : Drag.Airframe ℝ) (pol : Drag.Polar ℝ)

theorem rep_cl (hu : u ≠ []) (hm : Rep u r a v x) (ht : Rep u r c w y) (hh : Rep u r d z q)
    (hv : Rep u r e s p) (hd : Rep u r k m o) :
    Rep u r ((j, 0) ⊔ a ⊔ c ⊔ d ⊔ e ⊔ k)
      (Drag.cl (ndBackend j) (Rec.airframe scalar ac) v w z s m).1
      (fun i => (Drag.cl np ac (x i) (y i) (q i) (p i) (o i)).1) ∧
    Rep u r ((j, 0) ⊔ c ⊔ d ⊔ k)
      (Drag.cl (ndBackend j) (Rec.airframe scalar ac) v w z s m).2
      (fun i => (Drag.cl np ac (x i) (y i) (q i) (p i) (o i)).2) := by
  have h1 : Rep u r (d ⊔ ⊥) (z * ft) (fun i => q i * ft) := by
    dsimp only [ft]; rep
  have h2 := rep_density (j := j) hu h1 hd
  constructor
  all_goals
    apply Rep.cast
    · unfold Drag.cl
      dsimp only [kts, fpm, g0, Rec.airframe]
      rep
    · lvl

theorem rep_machCrit (hu : u ≠ []) (h : Rep u r a v x) :
    Rep u r ((j, 0) ⊔ a) (Drag.machCrit (ndBackend j) (Rec.airframe scalar ac) v)
      (fun i => Drag.machCrit np ac (x i)) := by
  have h1 : Rep u r ⊥ (((Rec.airframe scalar ac).tc).getD 0.12 : Nd)
      (fun _ => ac.tc.getD 0.12) := by
    dsimp only [Rec.airframe]
    cases ac.tc with
    | none => exact Rep.lit _ _ _
    | some t => exact Rep.scalar _
  have h2 : Rep u r ⊥ (ndBackend j).pi (fun _ => np.pi) := Rep.scalar _
  have h3 : Rep u r ⊥ ((Rec.airframe scalar ac).sweep : Nd) (fun _ => ac.sweep) := Rep.scalar _
  apply Rep.cast
  · unfold Drag.machCrit
    dsimp only
    rep
  · lvl

theorem rep_flapCd (hu : u ≠ []) (h : Rep u r a v x) :
    Rep u r ((j, 0) ⊔ a) (Drag.flapCd (ndBackend j) (Rec.polar scalar pol) v)
      (fun i => Drag.flapCd np pol (x i)) := by
  have h2 : Rep u r ⊥ (ndBackend j).pi (fun _ => np.pi) := Rep.scalar _
  apply Rep.cast
  · unfold Drag.flapCd
    dsimp only [Rec.polar]
    rep
  · lvl

theorem rep_gearCd (hu : u ≠ []) :
    Rep u r (j, 0) (Drag.gearCd (ndBackend j) (Rec.airframe scalar ac))
      (fun _ => Drag.gearCd np ac) := by
  apply Rep.cast
  · unfold Drag.gearCd
    dsimp only [Rec.airframe, g0]
    rep
  · lvl

theorem rep_flapK (hu : u ≠ []) (h : Rep u r a v x) :
    Rep u r a (Drag.flapK (ndBackend j) (Rec.airframe scalar ac) (Rec.polar scalar pol) v)
      (fun i => Drag.flapK np ac pol (x i)) := by
  have h2 : Rep u r ⊥ (ndBackend j).pi (fun _ => np.pi) := Rep.scalar _
  have h3 : Rep u r (⊥ ⊔ a) (if ac.rear then 0.0046 * v else 0.0026 * v)
      (fun i => if ac.rear then 0.0046 * x i else 0.0026 * x i) := by
    cases ac.rear <;> simp only [if_true, if_false, Bool.false_eq_true] <;> rep
  apply Rep.cast
  · unfold Drag.flapK
    dsimp only [Rec.airframe, Rec.polar]
    rep
  · lvl

/-! ## `thrust.py`, `fuel.py` and `emission.py` -/

variable (en : Thrust.Params ℝ) (f : Fuel.Params ℝ) (em : Emission.Params ℝ)

theorem rep_takeoff (hu : u ≠ []) (ht : Rep u r a v x) (hh : Rep u r c w y) (hd : Rep u r d z q) :
    Rep u r ((j, 0) ⊔ a ⊔ c ⊔ d) (Thrust.takeoff (ndBackend j) (Rec.thrust scalar en) v w z)
      (fun i => Thrust.takeoff np en (x i) (y i) (q i)) := by
  have h1 : Rep u r (c ⊔ ⊥) (w * ft) (fun i => y i * ft) := by dsimp only [ft]; rep
  have h2 : Rep u r (a ⊔ ⊥) (v * kts) (fun i => x i * kts) := by dsimp only [kts]; rep
  have h3 := rep_pressure (j := j) hu h1 hd
  have h4 := rep_tas2mach (j := j) hu h2 (Rep.lit 0 true 1) hd
  apply Rep.cast
  · unfold Thrust.takeoff Thrust.takeoffRatio
    dsimp only [Rec.thrust, p0]
    rep
  · lvl

theorem rep_climb (hu : u ≠ []) (ht : Rep u r a v x) (hh : Rep u r c w y) (hr : Rep u r d z q)
    (hd : Rep u r e s p) :
    Rep u r ((j, 0) ⊔ a ⊔ c ⊔ d ⊔ e) (Thrust.climb (ndBackend j) (Rec.thrust scalar en) v w z s)
      (fun i => Thrust.climb np en (x i) (y i) (q i) (p i)) := by
  have h1 : Rep u r (c ⊔ ⊥) (w * ft) (fun i => y i * ft) := by dsimp only [ft]; rep
  have h2 : Rep u r ((j, 0) ⊔ ⊥ ⊔ a ⊔ ⊥) ((ndBackend j).maximum 10.0 v * kts)
      (fun i => np.maximum 10.0 (x i) * kts) := by dsimp only [kts]; rep
  have h3 := rep_pressure (j := j) hu h1 hd
  have h4 := rep_tas2mach (j := j) hu h2 h1 hd
  have h5 := rep_tas2cas (j := j) hu h2 h1 hd
  have h6 : Rep u r (⊥ ⊔ ⊥) (10000.0 * ft) (fun _ => 10000.0 * ft) := by dsimp only [ft]; rep
  have h7 := rep_pressure (j := j) hu h6 hd
  have h8 : Rep u r (⊥ ⊔ ⊥) (Nd.scalar en.cruiseAlt * ft) (fun _ => en.cruiseAlt * ft) := by
    dsimp only [ft]; rep
  have h9 := rep_pressure (j := j) hu h8 hd
  have h10 := rep_mach2cas (j := j) hu (Rep.scalar en.cruiseMach) h8 hd
  apply Rep.cast
  · unfold Thrust.climb Thrust.dfunc Thrust.nfunc Thrust.mfunc
    dsimp only [Rec.thrust]
    rep
  · lvl

theorem rep_atThrust (hu : u ≠ []) (h : Rep u r a v x) :
    Rep u r ((j, 0) ⊔ a) (Fuel.atThrust (ndBackend j) (Rec.fuel scalar f) v)
      (fun i => Fuel.atThrust np f (x i)) := by
  apply Rep.cast
  · unfold Fuel.atThrust Fuel.funcFuel Fuel.limiter
    dsimp only [Rec.fuel]
    rep
  · lvl

theorem rep_fl2sl (hu : u ≠ []) (hf : Rep u r a v x) (ht : Rep u r c w y) (hh : Rep u r d z q)
    (hd : Rep u r e s p) :
    Rep u r ((j, 0) ⊔ a ⊔ c ⊔ d ⊔ e)
      (Emission.fl2sl (ndBackend j) (Rec.emission scalar em) v w z s).1
      (fun i => (Emission.fl2sl np em (x i) (y i) (q i) (p i)).1) ∧
    Rep u r ((j, 0) ⊔ c ⊔ d ⊔ e)
      (Emission.fl2sl (ndBackend j) (Rec.emission scalar em) v w z s).2
      (fun i => (Emission.fl2sl np em (x i) (y i) (q i) (p i)).2) := by
  have h1 : Rep u r (d ⊔ ⊥) (z * ft) (fun i => q i * ft) := by dsimp only [ft]; rep
  have h2 : Rep u r (c ⊔ ⊥) (w * kts) (fun i => y i * kts) := by dsimp only [kts]; rep
  have h3 := rep_temperature (j := j) hu h1 hd
  have h4 := rep_tas2mach (j := j) hu h2 h1 hd
  constructor
  all_goals
    apply Rep.cast
    · unfold Emission.fl2sl
      dsimp only [Rec.emission]
      rep
    · lvl

theorem rep_lto (ei : Fin 4 → ℝ) (h : Rep u r a v x) :
    Rep u r ((j, 0) ⊔ a)
      (Emission.lto (ndBackend j) (Rec.emission scalar em) (fun i => scalar (ei i)) v)
      (fun i => Emission.lto np em ei (x i)) :=
  Rep.interp [em.ff 0, em.ff 1, em.ff 2, em.ff 3] [ei 0, ei 1, ei 2, ei 3] h

theorem rep_nox (hu : u ≠ []) (hf : Rep u r a v x) (ht : Rep u r c w y) (hh : Rep u r d z q)
    (hd : Rep u r e s p) :
    Rep u r ((j, 0) ⊔ a ⊔ c ⊔ d ⊔ e)
      (Emission.nox (ndBackend j) (Rec.emission scalar em) v w z s)
      (fun i => Emission.nox np em (x i) (y i) (q i) (p i)) := by
  obtain ⟨h1, h2⟩ := rep_fl2sl em (j := j) hu hf ht hh hd
  have h3 := rep_lto em (j := j) em.nox h1
  apply Rep.cast
  · unfold Emission.nox
    dsimp only
    rep
  · lvl

theorem rep_co (hu : u ≠ []) (hf : Rep u r a v x) (ht : Rep u r c w y) (hh : Rep u r d z q)
    (hd : Rep u r e s p) :
    Rep u r ((j, 0) ⊔ a ⊔ c ⊔ d ⊔ e)
      (Emission.co (ndBackend j) (Rec.emission scalar em) v w z s)
      (fun i => Emission.co np em (x i) (y i) (q i) (p i)) := by
  obtain ⟨h1, h2⟩ := rep_fl2sl em (j := j) hu hf ht hh hd
  have h3 := rep_lto em (j := j) em.co h1
  apply Rep.cast
  · unfold Emission.co
    dsimp only
    rep
  · lvl

theorem rep_hc (hu : u ≠ []) (hf : Rep u r a v x) (ht : Rep u r c w y) (hh : Rep u r d z q)
    (hd : Rep u r e s p) :
    Rep u r ((j, 0) ⊔ a ⊔ c ⊔ d ⊔ e)
      (Emission.hc (ndBackend j) (Rec.emission scalar em) v w z s)
      (fun i => Emission.hc np em (x i) (y i) (q i) (p i)) := by
  obtain ⟨h1, h2⟩ := rep_fl2sl em (j := j) hu hf ht hh hd
  have h3 := rep_lto em (j := j) em.hc h1
  apply Rep.cast
  · unfold Emission.hc
    dsimp only
    rep
  · lvl

end Verif.Shaped
