import Verif.Lemmas.RangeFuel
import Verif.Props.Construct

/-!
# C140: the fuel that `from_range` counts for a distance
-/

namespace Verif.Props
open Verif Verif.Data Verif.Registry Verif.Tables Verif.Construct Verif.Aero Verif.Feasible

/-- Fuel in kg that `FuelFlow.enroute` gives for flying `metres` at mass `m` in level cruise at the
height and Mach number of the aircraft file, in the standard atmosphere. -/
noncomputable def cruiseBurn (p : FuelParts) (F : Fuel.Params ℝ) (metres m : ℝ) : ℝ :=
  let v := mach2tas np (real p.ac.mach) (real p.ac.height) 0
  Fuel.enroute np F (airframe p.ac) (polarParams p.drag.2) false m (v / 0.514444)
    (real p.ac.height / 0.3048) 0 0 0 true * (metres / v)

private theorem burn_cases {lo hi : List Str} {u : ℤ} (hu : 0 < u)
    (hall : RangeFuel.allSorted lo hi u = true) {ac : Str}
    (hac : ac ∈ availableAircraft shipped true) :
    ∃ p F, fuel shipped ac none (some true) false = .ok p ∧ fuelParams p = Defined.liftFuel F ∧
      ∀ R, p.ac.range = some R → ∀ d, 0.2 * real R ≤ d → d ≤ real R →
        ∃ M, Mass.fromRange shipped ac d 0 false true = .ok M ∧
        (ac ∈ lo → ∀ m, real p.ac.oew ≤ m → M - real p.ac.oew < cruiseBurn p F (d * u) m) ∧
        (ac ∉ lo → ac ∈ hi → ∀ m, 0 ≤ m → m ≤ real p.ac.mtow →
          cruiseBurn p F (d * u) m < M - real p.ac.oew) ∧
        (ac ∉ lo → ac ∉ hi → cruiseBurn p F (d * u) (real p.ac.oew) < M - real p.ac.oew ∧
          M - real p.ac.oew < cruiseBurn p F (d * u) (real p.ac.mtow)) := by
  obtain ⟨p, h1, -, ⟨pol, -, h2'⟩, -, h5, -, ⟨F, hF, f1, f2, f3, f4, f5, f6⟩, -, -, -, -, -, h0, hk, -⟩ :=
    C37_every_aircraft_constructs ac hac
  refine ⟨p, F, h1, hF, ?_⟩
  intro R hR d hd1 hd2
  have hs := List.all_eq_true.1 hall ac hac
  rw [h1] at hs
  have ha : aircraft shipped ac true = .ok p.ac := by
    unfold emission at h5
    simp only [Option.getD_some] at h5
    rcases e1 : aircraft shipped ac true with e | a
    · rw [e1] at h5; cases h5
    · rw [e1] at h5
      simp only [bind, Except.bind, pure, Except.pure] at h5
      split at h5
      · cases h5
      · injection h5 with h5
        injection h5 with h5
        rw [h5]
  have hv : mach2tas np (real p.ac.mach) (real p.ac.height) 0 / 0.514444 * 0.514444 =
      mach2tas np (real p.ac.mach) (real p.ac.height) 0 := by field_simp
  have := RangeFuel.sorted_spec hu hs hR hF ⟨f1, f2, f3, f4.le, f5, f6⟩ h0 hk true rfl rfl hd1 hd2 ha
  rw [hv] at this
  exact this

/-- **C140, nautical miles.** For every offered type with a range in its file (all but the CRJ-900)
and every distance from 20 % to 100 % of that number: read in nautical miles, as documented, the fuel
in `from_range`'s mass (which is empty weight and fuel when the load factor is 0) is
* for 39 codes less than level cruise burns over the distance at any mass from the empty weight up,
* for A310, A318 and A319 more than it burns at any mass up to MTOW,
* for the other 15 more than at the empty weight and less than at MTOW. -/
theorem C140_nautical_miles {ac : Str} (hac : ac ∈ availableAircraft shipped true) :
    ∃ p F, fuel shipped ac none (some true) false = .ok p ∧ fuelParams p = Defined.liftFuel F ∧
      ∀ R, p.ac.range = some R → ∀ d, 0.2 * real R ≤ d → d ≤ real R →
      ∃ M, Mass.fromRange shipped ac d 0 false true = .ok M ∧
      let short := ["a320", "a332", "a343", "a359", "a388", "b37m", "b38m", "b39m", "b3xm", "b739",
        "b744", "b748", "b752", "b763", "b772", "b773", "b77w", "b788", "b789", "c550", "e170", "e190",
        "e195", "e75l", "glf6", "a124", "a306", "b762", "b77l", "c25a", "c525", "c56x", "e290", "glf5",
        "gl5t", "lj45", "md11", "pc24", "su95"].map fun s : String => s.toList.map Char.toNat
      let full := ["a318", "a319", "a310"].map fun s : String => s.toList.map Char.toNat
      (ac ∈ short → ∀ m, real p.ac.oew ≤ m → M - real p.ac.oew < cruiseBurn p F (d * 1852) m) ∧
      (ac ∈ full → ∀ m, 0 ≤ m → m ≤ real p.ac.mtow →
        cruiseBurn p F (d * 1852) m < M - real p.ac.oew) ∧
      (ac ∉ short → ac ∉ full → cruiseBurn p F (d * 1852) (real p.ac.oew) < M - real p.ac.oew ∧
        M - real p.ac.oew < cruiseBurn p F (d * 1852) (real p.ac.mtow)) := by
  obtain ⟨p, F, h1, h2, h⟩ := burn_cases (by norm_num) RangeFuel.shipped_nm hac
  refine ⟨p, F, h1, h2, fun R hR d hd1 hd2 => ?_⟩
  obtain ⟨M, hM, k1, k2, k3⟩ := h R hR d hd1 hd2
  push_cast at k1 k2 k3
  refine ⟨M, hM, k1, fun hf => k2 ?_ hf, k3⟩
  have : ∀ s ∈ names RangeFuel.fullNm, s ∉ names RangeFuel.shortNm := by decide
  exact this ac hf

/-- **C140, kilometres.** The same with the distance read in kilometres, the unit the numbers in the
files make sense in: 6 codes are short of fuel at any mass, 29 have enough at any mass up to MTOW, the
other 22 at the empty weight but not at MTOW. -/
theorem C140_kilometres {ac : Str} (hac : ac ∈ availableAircraft shipped true) :
    ∃ p F, fuel shipped ac none (some true) false = .ok p ∧ fuelParams p = Defined.liftFuel F ∧
      ∀ R, p.ac.range = some R → ∀ d, 0.2 * real R ≤ d → d ≤ real R →
      ∃ M, Mass.fromRange shipped ac d 0 false true = .ok M ∧
      let short := ["b763", "c550", "b762", "c25a", "c525", "c56x"].map
        fun s : String => s.toList.map Char.toNat
      let full := ["a19n", "a20n", "a21n", "a318", "a319", "a320", "a321", "a332", "a333", "b38m",
        "b3xm", "b734", "b737", "b738", "b739", "b788", "e145", "e190", "e195", "e75l", "a310", "at72",
        "at75", "at76", "b733", "b735", "crj2", "e290", "su95"].map
        fun s : String => s.toList.map Char.toNat
      (ac ∈ short → ∀ m, real p.ac.oew ≤ m → M - real p.ac.oew < cruiseBurn p F (d * 1000) m) ∧
      (ac ∈ full → ∀ m, 0 ≤ m → m ≤ real p.ac.mtow →
        cruiseBurn p F (d * 1000) m < M - real p.ac.oew) ∧
      (ac ∉ short → ac ∉ full → cruiseBurn p F (d * 1000) (real p.ac.oew) < M - real p.ac.oew ∧
        M - real p.ac.oew < cruiseBurn p F (d * 1000) (real p.ac.mtow)) := by
  obtain ⟨p, F, h1, h2, h⟩ := burn_cases (by norm_num) RangeFuel.shipped_km hac
  refine ⟨p, F, h1, h2, fun R hR d hd1 hd2 => ?_⟩
  obtain ⟨M, hM, k1, k2, k3⟩ := h R hR d hd1 hd2
  push_cast at k1 k2 k3
  refine ⟨M, hM, k1, fun hf => k2 ?_ hf, k3⟩
  have : ∀ s ∈ names RangeFuel.fullKm, s ∉ names RangeFuel.shortKm := by decide
  exact this ac hf

/-- **C140, CRJ-900.** Of the offered codes only `crj9` has no range: `from_range` raises `KeyError`
for it, whatever the distance. -/
theorem C140_no_range {ac : Str} (hac : ac ∈ availableAircraft shipped true) (d lf : ℝ)
    (fraction : Bool) : Mass.fromRange shipped ac d lf fraction true = .error .keyError ↔
      ac = "crj9".toList.map Char.toNat := by
  have key : (availableAircraft shipped true).all (fun ac =>
      match aircraft shipped ac true with
      | .ok a => a.range.isNone == (ac == "crj9".toList.map Char.toNat)
      | _ => false) = true := by decide +kernel
  have h := List.all_eq_true.1 key ac hac
  unfold Mass.fromRange
  rcases e1 : aircraft shipped ac true with e | a
  · rw [e1] at h; cases h
  · rw [e1] at h
    dsimp only at h ⊢
    rw [beq_iff_eq] at h
    rcases e2 : a.range with _ | r
    · rw [e2] at h
      simpa using h.symm
    · rw [e2] at h
      simp only [Option.isNone_some] at h
      simpa using h.symm

/-- The A320 is offered; 3000 nautical miles are between 20 % and 100 % of its range of 5000. -/
example : (availableAircraft shipped true).contains ("a320".toList.map Char.toNat) = true ∧
    (match aircraft shipped ("a320".toList.map Char.toNat) true with
      | .ok a => a.range == some 50000000000000000000
      | _ => false) = true ∧ (0.2 * 5000 ≤ (3000 : ℝ) ∧ (3000 : ℝ) ≤ 5000) :=
  ⟨by decide +kernel, by decide +kernel, by norm_num⟩

end Verif.Props
