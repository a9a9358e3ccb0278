import Verif.Lemmas.EnvelopeFlight
import Verif.Props.Gen
import Verif.Props.GenParams

/-!
# C136: generated flights and the operating limits of the aircraft
-/

namespace Verif.Props
open Verif Verif.Gen Verif.Aero Verif.Tables Verif.Kinematic Verif.Registry
open Verif.Data (shipped)

variable {G : Type} {R : Rng G}

/-- **C136.** On a schedule of the usual order, without noise, no row of a climb has a calibrated
airspeed above the constant CAS (within 0.001 %) or a Mach number above the constant Mach (within
0.02 %): not during the acceleration, not between the steps, not after levelling off. -/
theorem C136_climb {f f' : FlightGen G} {kw : Kw} {fr : ClimbFrame} (hn : f.noise = false)
    (h : ClimbReturns R f kw fr f') (hP : fr.params.Valid) (hO : fr.params.Ordered) :
    ∀ x ∈ fr.rows, tas2cas np x.v x.h 0 ≤ 1.00001 * fr.params.vcas ∧
      tas2mach np x.v x.h 0 ≤ 1.0002 * fr.params.mach := by
  have hX := (C114_climb h).1.hMach
  obtain ⟨P, g, ss, h1, h2, rfl, -⟩ := climbReturns_iff.1 h
  rw [Gen.addNoise_off hn]
  intro y hy
  simp only [List.map_map, List.mem_map, Function.comp] at hy
  obtain ⟨x, hm, rfl⟩ := hy
  exact (climb_within hP hO hX h2 x hm).within

/-- **C136.** The same of a descent. -/
theorem C136_descent {f f' : FlightGen G} {kw : Kw} {fr : DescentFrame} (hn : f.noise = false)
    (h : DescentReturns R f kw fr f') (hP : fr.params.Valid) (hO : fr.params.Ordered) :
    ∀ x ∈ fr.rows, tas2cas np x.v x.h 0 ≤ 1.00001 * fr.params.vcas ∧
      tas2mach np x.v x.h 0 ≤ 1.0002 * fr.params.mach := by
  have hX := (C114_descent h).1.hMach
  obtain ⟨P, g, ss, h1, h2, rfl, -⟩ := descentReturns_iff.1 h
  rw [Gen.addNoise_off hn]
  intro y hy
  simp only [List.mem_map] at hy
  obtain ⟨x, hm, rfl⟩ := hy
  exact (descent_within hP hO hX h2 x hm).within

/-- **C136, shipped tables.** For every offered type code but five, every row of a climb, cruise,
descent or complete flight with default speeds and altitude and steps of at most 10 s is within the
maximum operating Mach number, the maximum operating speed and the ceiling that the file of the
aircraft states. -/
theorem C136_shipped {ac : Str} (hac : ac ∈ availableAircraft shipped true)
    (hj : ∀ s ∈ ["c550", "c25a", "c525", "c56x", "pc24"], ac ≠ s.toList.map Char.toNat)
    (seed : G) :
    ∃ f a, Gen.init shipped ac seed true = .ok f ∧ Registry.aircraft shipped ac true = .ok a ∧
      ∀ (g : G) (kw : Kw), kw.Default →
        (∀ fr f', ClimbReturns R { f with rng := g } kw fr f' →
          ∀ x ∈ fr.rows, InLimits a x.v x.h) ∧
        (∀ fr f', DescentReturns R { f with rng := g } kw fr f' →
          ∀ x ∈ fr.rows, InLimits a x.v x.h) ∧
        (∀ fr f', CruiseReturns R { f with rng := g } kw fr f' →
          ∀ x ∈ fr.rows, InLimits a x.v x.h) ∧
        ∀ rows f', CompleteReturns R { f with rng := g } kw rows f' →
          ∀ x ∈ rows, InLimits a x.v x.h := by
  have hj' : ac ∉ smallJets := by
    intro h
    obtain ⟨s, hs, e⟩ := List.mem_map.1 h
    exact hj s hs e.symm
  obtain ⟨f, a, h1, h2, h3, h4, h5, h6⟩ := init_limits hac hj' seed
  refine ⟨f, a, h1, h2, ?_⟩
  intro g kw hk
  have hr : kw.random.getD false = false := by
    have := hk.random
    rcases hq : kw.random with _ | _ | _ <;> simp_all
  refine ⟨fun fr f' h => ?_, fun fr f' h => ?_, fun fr f' h => ?_, fun rows f' h => ?_⟩
  · exact climb_limits (f := { f with rng := g }) h3 h4 h6 h5 hr hk.casCl (Or.inl hk.machCl)
      (Or.inl hk.altCr) hk.dt h
  · exact descent_limits (f := { f with rng := g }) h3 h4 h6 h5 hr hk.casDe (Or.inl hk.machDe)
      (Or.inl hk.altCr) hk.dt h
  · exact cruise_limits (f := { f with rng := g }) h3 h4 h6 h5 hr hk.machCr hk.altCr h
  · exact complete_limits (f := { f with rng := g }) h3 h4 h6 h5 hk h

/-- **C136, the other five.** The Cessna and Pilatus jets `c550`, `c25a`, `c525`, `c56x` and `pc24`
have the file of a jet limited to Mach 0.70 and 270 kt but fly on the table of a larger aircraft:
with default speeds every row of the cruise and the first row of the descent are at Mach 0.74 or
more, and climb and descent are flown at a constant CAS above 271 kt. -/
theorem C136_small_jets {s : String} (hs : s ∈ ["c550", "c25a", "c525", "c56x", "pc24"])
    (seed : G) :
    s.toList.map Char.toNat ∈ availableAircraft shipped true ∧
    ∃ f a, Gen.init shipped (s.toList.map Char.toNat) seed true = .ok f ∧
      Registry.aircraft shipped (s.toList.map Char.toNat) true = .ok a ∧
      a.mmo.map real = some 0.7 ∧ a.vmo.map real = some 270 ∧
      ∀ (g : G) (kw : Kw), kw.Default →
        (∀ fr f', CruiseReturns R { f with rng := g } kw fr f' →
          fr.rows ≠ [] ∧ ∀ x ∈ fr.rows, 0.74 ≤ tas2mach np x.v x.h 0) ∧
        (∀ fr f', DescentReturns R { f with rng := g } kw fr f' →
          271 * 0.514444 < fr.params.vcas ∧
          ∃ x, fr.rows.head? = some x ∧ 0.74 ≤ tas2mach np x.v x.h 0) ∧
        (∀ fr f', ClimbReturns R { f with rng := g } kw fr f' →
          271 * 0.514444 < fr.params.vcas) := by
  have hac : s.toList.map Char.toNat ∈ smallJets := List.mem_map_of_mem hs
  generalize s.toList.map Char.toNat = ac at *
  obtain ⟨f, a, hav, i1, i2, h2, h3, k1, k2, k4, k5, k7, k8⟩ := init_jets hac seed
  refine ⟨hav, f, a, i1, i2, ?_⟩
  have up : ∀ {z : ℤ}, 7400 ≤ z → 0.74 ≤ wreal z := by
    intro z hz
    have := wreal_ge hz
    norm_num at *
    linarith
  have up' : ∀ {z : ℤ}, 1395000 ≤ z → 271 * 0.514444 < wreal z := by
    intro z hz
    have := wreal_ge hz
    norm_num at *
    linarith
  have hk : (0:ℝ) < kts := by unfold kts; norm_num
  refine ⟨?_, ?_, ?_⟩
  · rw [k1]; simp [real]; norm_num
  · rw [k2]; simp [real]; norm_num
  · intro g kw hd
    have hr : kw.random.getD false = false := by
      have := hd.random
      rcases hq : kw.random with _ | _ | _ <;> simp_all
    refine ⟨fun fr f' h => ⟨?_, ?_⟩, fun fr f' h => ?_, fun fr f' h => ?_⟩
    · obtain ⟨P, g', ss, -, t, rfl, -⟩ := cruiseReturns_iff.1 h
      rw [Gen.addNoise_off (by exact h3)]
      simpa using trace_ne_nil t
    · obtain ⟨-, -, -, -, -, rows⟩ := cruise_rows (f := { f with rng := g }) h2 h3 hr hd.machCr hd.altCr h
      intro x hx
      rw [(rows x hx).2, tas2mach_mach2tas]
      exact up k5
    · obtain ⟨P, g', ss, h1, t, rfl, -⟩ := descentReturns_iff.1 h
      obtain ⟨-, -, -, e4, e5, -⟩ := descent_default (f := { f with rng := g }) h2 hr hd.casDe h1
      rw [hd.machDe] at e5
      constructor
      · show _ < P.vcas
        rw [e4, div_mul_cancel₀ _ hk.ne']
        exact up' k8
      · rw [Gen.addNoise_off (by exact h3)]
        refine ⟨derive (descentInit P), by simp [trace_head t], ?_⟩
        show 0.74 ≤ tas2mach np (mach2tas np P.mach P.hCr 0) P.hCr 0
        rw [tas2mach_mach2tas, e5]
        exact up k4
    · obtain ⟨P, g', ss, h1, -, rfl, -⟩ := climbReturns_iff.1 h
      obtain ⟨-, -, -, e4, -⟩ := climb_default (f := { f with rng := g }) h2 hr hd.casCl h1
      show _ < P.vcas
      rw [e4]
      refine (up' k7).trans_le ?_
      rw [← div_le_iff₀ hk]
      exact le_max_left _ _

/-- The default arguments, a time step of 4 s and a long range meet the hypothesis; such a climb of
the A320 returns and is within its limits. -/
example (hR : R.Unit) (seed : G) : (({ dt := some 4, rangeCr := some 2000000 } : Kw).Default) ∧
    ∃ f a fr f', Gen.init shipped ("a320".toList.map Char.toNat) seed true = .ok f ∧
      Registry.aircraft shipped ("a320".toList.map Char.toNat) true = .ok a ∧
      a.mmo.map real = some 0.82 ∧
      ClimbReturns R f { dt := some 4 } fr f' ∧ ∀ x ∈ fr.rows, InLimits a x.v x.h := by
  have hac : "a320".toList.map Char.toNat ∈ availableAircraft shipped true := by decide +kernel
  have d : ∀ r, (({ dt := some 4, rangeCr := r } : Kw).Default) := fun r =>
    ⟨by simp, rfl, rfl, rfl, rfl, rfl, rfl, by
      intro d hd
      obtain rfl : 4 = d := by simpa using hd
      norm_num⟩
  refine ⟨d _, ?_⟩
  obtain ⟨f, a, h1, h2, h3⟩ := C136_shipped (R := R) hac (by decide) seed
  obtain ⟨f', h1', h4⟩ := C50_climb_shipped (R := R) _ hac seed hR
  obtain rfl : f = f' := by rw [h1] at h1'; simpa using h1'
  obtain ⟨fr, f'', h5⟩ := h4 f (Or.inl rfl) f.rng { dt := some 4 } (by
    intro d hd
    obtain rfl : 4 = d := by simpa using hd
    norm_num) (by simp)
  have hm : (match Registry.aircraft shipped ("a320".toList.map Char.toNat) true with
    | .ok a => a.mmo
    | .error _ => none) = some 8200000000000000 := by decide +kernel
  rw [h2] at hm
  refine ⟨f, a, fr, f'', h1, h2, ?_, h5, (h3 f.rng _ (d none)).1 fr f'' h5⟩
  have hm : a.mmo = some 8200000000000000 := hm
  rw [hm]
  simp [real]
  norm_num

end Verif.Props
