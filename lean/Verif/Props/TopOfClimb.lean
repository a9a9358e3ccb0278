import Verif.Lemmas.TopOfClimb
import Verif.Props.Construct

/-!
# C143: climb thrust at the end of the default climb
-/

namespace Verif.Props
open Verif Verif.Data Verif.Registry Verif.Tables Verif.Construct Verif.Aero Verif.Kinematic
open Verif.Feasible (names)

/-- **C143.** Take any offered type code, its `Thrust` with the default engine, its `Drag` and its
`WRAP`, and fly where the default generated climb ends: at the mean cruise altitude, the climb Mach
number and the climb rate at constant Mach of the table, in the standard atmosphere. A steady climb
needs the clean drag and the component of the weight along the path. For five business jets the
climb thrust is more than that at every mass up to MTOW. For eight codes it is less at every mass
from the empty weight on, so that no flight of the type can follow the generated climb to its end.
For every other code there is a mass between the empty weight and MTOW up to which, and only up to
which, it can. -/
theorem C143_top_of_climb {ac : Str} (hac : ac ∈ availableAircraft shipped true) :
    ∃ a e p P w rm rh rv, thrust shipped ac none (some true) false = .ok (a, e) ∧
      drag shipped ac (some true) = .ok (a, p) ∧ thrustParams a e = Defined.liftThrust P ∧
      wrap shipped ac (some true) = .ok w ∧ getVar w climbConstMach = .ok rm ∧
      getVar w cruiseAlt = .ok rh ∧ getVar w climbVsConmach = .ok rv ∧
      ∀ mach h rate tas alt vs, mach = wreal rm.opt → h = wreal rh.opt * 1000 →
        rate = wreal rv.opt → tas = mach2tas np mach h 0 / 0.514444 → alt = h / 0.3048 →
        vs = rate / 0.00508 → ∀ need : ℝ → ℝ,
        (∀ m, need m = Drag.clean np (airframe a) (polarParams p) false m tas alt vs 0 +
          m * 9.80665 * (rate / Real.sqrt (mach2tas np mach h 0 ^ 2 + rate ^ 2))) →
      ((∃ s ∈ ["gl5t", "glf5", "glf6", "lj45", "pc24"], ac = s.toList.map Char.toNat) →
        ∀ m, 0 ≤ m → m ≤ real a.mtow → need m < Thrust.climb np P tas alt vs 0) ∧
      ((∃ s ∈ ["a359", "b773", "b788", "c25a", "c525", "c550", "c56x", "md11"],
          ac = s.toList.map Char.toNat) →
        ∀ m, real a.oew ≤ m → Thrust.climb np P tas alt vs 0 < need m) ∧
      ((∀ s ∈ ["a359", "b773", "b788", "c25a", "c525", "c550", "c56x", "md11", "gl5t", "glf5",
          "glf6", "lj45", "pc24"], ac ≠ s.toList.map Char.toNat) →
        ∃ l, real a.oew < l ∧ l < real a.mtow ∧
          ∀ m, 0 ≤ m → (need m ≤ Thrust.climb np P tas alt vs 0 ↔ m ≤ l)) := by
  obtain ⟨q, -, h1, ⟨p, h2, h2'⟩, h3, -, ⟨P, hP, -, -, p3, p4, p5, -⟩, -, hS, -, -, -, -, -, hk, -⟩ :=
    C37_every_aircraft_constructs ac hac
  have hb := List.all_eq_true.1 TopOfClimb.shipped_climbs ac hac
  rw [h1, h2, h3] at hb
  rw [h2'] at hk
  simp only at hb
  unfold TopOfClimb.climbsAt at hb
  split at hb
  · next rm rh rv e1 e2 e3 =>
    refine ⟨q.ac, q.eng, p, P, q.wrap, rm, rh, rv, h1, h2, hP, h3, e1, e2, e3, ?_⟩
    rintro mach h rate tas alt vs rfl rfl rfl ht ha hv need hn
    obtain ⟨need', e, w1, w2, w3⟩ := TopOfClimb.climbs_spec hb hP p4 (mul_pos p5 p3) hk hS ht ha hv
    obtain rfl : need = need' := funext fun m => (hn m).trans (e m)
    have mem : ∀ l : List String, (∃ s ∈ l, ac = s.toList.map Char.toNat) → ac ∈ names l := by
      rintro l ⟨s, hs, rfl⟩
      exact List.mem_map.2 ⟨s, hs, rfl⟩
    have nmem : ∀ l : List String, ac ∈ names l → ∃ s ∈ l, ac = s.toList.map Char.toNat := by
      intro l h
      obtain ⟨s, hs, rfl⟩ := List.mem_map.1 h
      exact ⟨s, hs, rfl⟩
    have disj : ∀ s ∈ TopOfClimb.strong, s.toList.map Char.toNat ∉ names TopOfClimb.weak := by decide
    refine ⟨fun h => w2 ?_ (mem TopOfClimb.strong h), fun h => w1 (mem TopOfClimb.weak h),
      fun h => w3 ?_ ?_⟩
    · obtain ⟨s, hs, rfl⟩ := h
      exact disj s hs
    · intro k
      obtain ⟨s, hs, e⟩ := nmem _ k
      exact h s (List.mem_append_left (bs := TopOfClimb.strong) hs) e
    · intro k
      obtain ⟨s, hs, e⟩ := nmem _ k
      exact h s (List.mem_append_right (as := TopOfClimb.weak) hs) e
  · cases hb

/-- The three cases occur: the A320, the A350 and the Gulfstream V are offered. -/
example : ["a320", "a359", "glf5"].all (fun s =>
    (availableAircraft shipped true).contains (s.toList.map Char.toNat)) = true := by decide +kernel

end Verif.Props
