import Verif.Lemmas.Construct
import Verif.Props.Finite
import Verif.Props.Fuel

/-!
# C37: every shipped aircraft constructs

Tables transcribed from `/repo/openap/data` (`Verif/Data`), constructors in
`Verif/Model/Construct.lean`.
-/

namespace Verif.Props
open Verif Verif.Data Verif.Registry Verif.Tables Verif.Construct NR Defined

/-- **C37.** For every type code offered by `available_aircraft(use_synonym=True)`, the five
models construct with `use_synonym=True` and the default engine, all from the same records,
no number they read is missing, and the numbers satisfy the hypotheses under which the laws
of drag, thrust, fuel flow and emissions are proved. -/
theorem C37_every_aircraft_constructs :
    ∀ ac ∈ availableAircraft shipped true, ∃ p : FuelParts,
      fuel shipped ac none (some true) false = .ok p ∧
      thrust shipped ac none (some true) false = .ok (p.ac, p.eng) ∧
      (∃ pol, drag shipped ac (some true) = .ok (p.ac, pol) ∧ p.drag = (p.ac, pol)) ∧
      wrap shipped ac (some true) = .ok p.wrap ∧
      emission shipped ac none (some true) = .ok (p.ac, p.eng) ∧
      (∃ e : Thrust.Params ℝ, thrustParams p.ac p.eng = liftThrust e ∧ 0 ≤ e.bpr ∧
        0 < e.maxThrust ∧ 0 < e.number ∧ 0 < e.cruiseMach ∧ 0 < e.cruiseThrust ∧
        30000 < e.cruiseAlt ∧ e.cruiseAlt < 50000) ∧
      (∃ f : Fuel.Params ℝ, fuelParams p = liftFuel f ∧ 0 < f.scale ∧ 0 < f.c1 ∧ 0 < f.c2 ∧
        0 < f.c3 ∧ 0 < f.maxThrust ∧ 0 < f.number) ∧
      0 < (airframe p.ac).area ∧ 0 < (airframe p.ac).span ∧ 0 < (airframe p.ac).mtow ∧
      (0 ≤ (airframe p.ac).sweep ∧ (airframe p.ac).sweep < 90) ∧
      (∀ tc, (airframe p.ac).tc = some tc → 0 < tc) ∧
      0 < (polarParams p.drag.2).cd0 ∧ 0 < (polarParams p.drag.2).k ∧
      0 < (polarParams p.drag.2).lambdaF ∧ 0 < (polarParams p.drag.2).cfc ∧
      0 < (polarParams p.drag.2).sfs ∧
      (0 < real p.eng.ff.idl ∧ real p.eng.ff.idl < real p.eng.ff.app ∧
        real p.eng.ff.app < real p.eng.ff.cout ∧ real p.eng.ff.cout < real p.eng.ff.toff) := by
  intro ac hac
  obtain ⟨p, h1, h2, h3, h4, h5, hu⟩ := check_spec (List.all_eq_true.1 check_shipped ac hac)
  simp only [usable, Bool.and_eq_true, decide_eq_true_eq, Bool.or_eq_true] at hu
  obtain ⟨⟨⟨⟨⟨⟨⟨⟨⟨⟨⟨⟨⟨⟨⟨⟨⟨⟨⟨⟨⟨⟨⟨⟨⟨⟨⟨u1, u2⟩, u3⟩, ub⟩, um⟩, un⟩, umach⟩, ucr⟩, uh⟩, uh'⟩, ua⟩, us⟩, umt⟩, usw⟩,
    utc⟩, uc0⟩, uk⟩, ul⟩, ucf⟩, usf⟩, f1⟩, f2⟩, f3⟩, fs⟩, e0⟩, e1⟩, e2⟩, e3⟩ := hu
  have hmt : ∃ n, p.eng.maxThrust = some n ∧ 0 < n := by
    cases h : p.eng.maxThrust with
    | none => simp [h] at um
    | some n => exact ⟨n, rfl, by simpa [h] using um⟩
  obtain ⟨mt, hmt, hmt0⟩ := hmt
  obtain ⟨bp, hbp⟩ := Option.isSome_iff_exists.1 ub
  refine ⟨p, h1, ?_, ⟨p.drag.2, ?_, ?_⟩, h4, h5, ?_, ?_, real_pos ua, real_pos us, real_pos umt,
    ⟨real_nonneg _, ?_⟩, ?_, real_pos uc0, real_pos uk, real_pos ul, real_pos ucf, real_pos usf,
    real_pos e0, real_lt e1, real_lt e2, real_lt e3⟩
  · rw [h2, ← u1, ← u2]
  · rw [h3, ← u3]
  · rw [← u3]
  · have hb := real_nonneg bp
    have hm := real_pos hmt0
    have halt : 30000 < real p.ac.height / Aero.ft ∧ real p.ac.height / Aero.ft < 50000 := by
      have a1 := real_le uh
      have a2 := real_le uh'
      unfold Aero.ft
      unfold real at a1 a2 ⊢
      constructor
      · rw [lt_div_iff₀ (by norm_num)]
        norm_num at a1 ⊢
        linarith
      · rw [div_lt_iff₀ (by norm_num)]
        norm_num at a2 ⊢
        linarith
    by_cases hc : 0 < p.eng.cruiseMach.getD 0
    · have : ∃ m, p.eng.cruiseMach = some m ∧ 0 < m := by
        cases h : p.eng.cruiseMach with
        | none => simp [h] at hc
        | some n => exact ⟨n, rfl, by simpa [h] using hc⟩
      obtain ⟨cm, hcm, hcm0⟩ := this
      have : ∃ m, p.eng.cruiseThrust = some m ∧ 0 < m := by
        rcases ucr with u | u
        · omega
        · cases h : p.eng.cruiseThrust with
          | none => simp [h] at u
          | some n => exact ⟨n, rfl, by simpa [h] using u⟩
      obtain ⟨ct, hct, hct0⟩ := this
      refine ⟨⟨real p.ac.height / Aero.ft, real bp, real mt, real p.ac.number, real cm, real ct⟩,
        ?_, hb, hm, real_pos un, real_pos hcm0, real_pos hct0, halt⟩
      unfold thrustParams
      rw [if_pos hc, if_pos hc, hbp, hmt, hcm, hct]
      rfl
    · refine ⟨⟨real p.ac.height / Aero.ft, real bp, real mt, real p.ac.number, real p.ac.mach,
        0.2 * real mt + 890⟩, ?_, hb, hm, real_pos un, real_pos umach, by positivity, halt⟩
      simp only [thrustParams, if_neg hc, hbp, hmt, cell, liftThrust, val_sci, val_mul, val_add]
      norm_num
  · refine ⟨⟨scale p.model.2, real p.model.1.c1, real p.model.1.c2, real p.model.1.c3, real mt,
      real p.ac.number⟩, ?_, ?_, real_pos f1, real_pos f2, real_pos f3, real_pos hmt0,
      real_pos un⟩
    · simp only [fuelParams, hmt, cell, liftFuel]
    · rcases h : p.model.2 with _ | ⟨n, _ | d⟩
      · simp [scale]
      · simp only [h, decide_eq_true_eq] at fs
        exact real_pos fs
      · simp only [h, decide_eq_true_eq, Bool.and_eq_true] at fs
        exact div_pos (real_pos fs.1) (real_pos fs.2)
  · have := real_lt usw
    simp only [airframe]
    unfold real at this ⊢
    norm_num at this ⊢
    linarith
  · intro tc h
    simp only [airframe] at h
    cases h' : p.ac.tc with
    | none => simp [h'] at h
    | some n =>
      simp only [h', Option.map_some, Option.some.injEq] at h
      rw [← h]
      exact real_pos (by simpa [h'] using utc)

/-- **C37 (consequence).** For every offered type code and all real inputs, the enroute fuel
flow of the constructed model is a positive number (never NaN) when the mass is positive. -/
theorem C37_fuel_flow_is_a_number :
    ∀ ac ∈ availableAircraft shipped true, ∃ p : FuelParts,
      fuel shipped ac none (some true) false = .ok p ∧
      ∀ (m v h vs acc dT : ℝ) (wave lim : Bool), ∃ ff : ℝ, 0 < ff ∧
        Fuel.enroute npNR (fuelParams p) (liftAirframe (airframe p.ac))
          (liftPolar (polarParams p.drag.2)) wave (val m) (val v) (val h) (val vs) (val acc)
          (val dT) lim = val ff := by
  intro ac hac
  obtain ⟨p, h1, -, -, -, -, -, ⟨f, hf, fs, f1, f2, f3, fm, fn⟩, -, -, -, ⟨hs0, hs1⟩, -⟩ :=
    C37_every_aircraft_constructs ac hac
  refine ⟨p, h1, fun m v h vs acc dT wave lim => ?_⟩
  have hs : wave = true → Real.cos ((airframe p.ac).sweep * Real.pi / 180) ≠ 0 := by
    intro _
    refine (Real.cos_pos_of_mem_Ioo ⟨?_, ?_⟩).ne'
    · have := Real.pi_pos
      have : 0 ≤ (airframe p.ac).sweep * Real.pi / 180 := by positivity
      linarith [Real.pi_pos]
    · have := Real.pi_pos
      nlinarith
  rw [hf, enroute_def f f1 f2.ne' fn.ne' fm.ne' (airframe p.ac) (polarParams p.drag.2) wave hs]
  refine ⟨_, ?_, rfl⟩
  simp only [Fuel.enroute]
  exact (C28_fuel_bounded f fs f1 f2 fn _).1

/-- The hypothesis is met by 59 type codes, for example `a320` and the synonym `a306`. -/
example : (availableAircraft shipped true).length = 59 ∧
    [97, 51, 50, 48] ∈ availableAircraft shipped true ∧
    [97, 51, 48, 54] ∈ availableAircraft shipped true := by decide +kernel

/-- **C37 (without synonyms).** Of the 37 aircraft files, `FuelFlow` constructs without the
`use_synonym` argument exactly for the types with a drag polar file of their own, and with
`use_synonym=False` exactly for those that also have a kinematic table of their own. -/
theorem C37_without_synonyms :
    ∀ ac ∈ availableAircraft shipped false,
      ((∃ p, fuel shipped ac none none false = .ok p) ↔ ac ∈ shipped.polars.map (·.1)) ∧
      ((∃ p, fuel shipped ac none (some false) false = .ok p) ↔
        ac ∈ shipped.polars.map (·.1) ∧ ac ∈ shipped.wrap.map (·.1)) := by
  have key : ∀ x : Except PyError FuelParts, (∃ p, x = .ok p) ↔ Except.isOk' x = true := by
    intro x
    cases x <;> simp [Except.isOk']
  simp only [key]
  decide +kernel

/-- Both cases occur: 26 and 16 of 37. -/
example : ((availableAircraft shipped false).filter
      (fun ac => Except.isOk' (fuel shipped ac none none false))).length = 26 ∧
    ((availableAircraft shipped false).filter
      (fun ac => Except.isOk' (fuel shipped ac none (some false) false))).length = 16 := by
  decide +kernel

/-- **C37 (engine options).** Passing a listed engine option constructs the thrust model with
known by-pass ratio and rated thrust, except for the three options of the A21N that are not
in the engine table: LEAP-1A30, LEAP-1A32 and LEAP-1A33. -/
theorem C37_engine_options :
    ∀ f ∈ shipped.aircraft, ∀ opt ∈ f.2.options,
      (∃ e, thrust shipped f.1 (some opt) none false = .ok (f.2, e) ∧ e.bpr ≠ none ∧
        e.maxThrust ≠ none) ∨
      (thrust shipped f.1 (some opt) none false = .error .valueError ∧
        f.1 = [97, 50, 49, 110] ∧
        opt ∈ [[76, 69, 65, 80, 45, 49, 65, 51, 48], [76, 69, 65, 80, 45, 49, 65, 51, 50],
          [76, 69, 65, 80, 45, 49, 65, 51, 51]]) := by
  have key : ∀ (a : AircraftRow) (x : Except PyError (AircraftRow × EngineRow)) (q : Prop),
      ((∃ e, x = .ok (a, e) ∧ e.bpr ≠ none ∧ e.maxThrust ≠ none) ∨ (x = .error .valueError ∧ q)) ↔
      (match x with
        | .ok y => y.1 = a ∧ y.2.bpr ≠ none ∧ y.2.maxThrust ≠ none
        | .error e => e = .valueError ∧ q) := by
    intro a x q
    rcases x with e | ⟨y1, y2⟩
    · simp
    · simp only [Except.ok.injEq, Prod.mk.injEq, reduceCtorEq, false_and, or_false]
      constructor
      · rintro ⟨e, ⟨rfl, rfl⟩, h⟩; exact ⟨rfl, h⟩
      · rintro ⟨rfl, h⟩; exact ⟨y2, ⟨rfl, rfl⟩, h⟩
  have dec : ∀ (a : AircraftRow) (x : Except PyError (AircraftRow × EngineRow)) (q : Prop)
      [Decidable q], (match x with
        | .ok y => y.1 = a ∧ y.2.bpr ≠ none ∧ y.2.maxThrust ≠ none
        | .error e => e = .valueError ∧ q) ↔
      (match x with
        | .ok y => decide (y.1 = a) && y.2.bpr.isSome && y.2.maxThrust.isSome
        | .error e => decide (e = .valueError) && decide q) = true := by
    intro a x q _
    rcases x with e | ⟨y1, y2⟩
    · simp
    · simp [Option.isSome_iff_ne_none, and_assoc]
  simp only [key]
  simp only [dec]
  decide +kernel

end Verif.Props
