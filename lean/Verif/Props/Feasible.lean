import Verif.Lemmas.Feasible
import Verif.Props.Construct

/-!
# C138: cruise thrust against cruise drag
-/

namespace Verif.Props
open Verif Verif.Data Verif.Registry Verif.Tables Verif.Construct Verif.Aero Verif.Feasible

/-- **C138.** Take any offered type code, its `Thrust` with the default engine and its `Drag`, and
the cruise height and Mach number of its aircraft file, in the standard atmosphere. The cruise
thrust exceeds the clean drag at every mass up to MTOW, except for 24 codes: for 20, mostly
long-range types, it does so up to the maximum landing weight but is below the drag from MTOW on;
for the Citation family it is below the drag at every mass from the empty weight on. -/
theorem C138_cruise_balance {ac : Str} (hac : ac ∈ availableAircraft shipped true) :
    ∃ a e p P, thrust shipped ac none (some true) false = .ok (a, e) ∧
      drag shipped ac (some true) = .ok (a, p) ∧ thrustParams a e = Defined.liftThrust P ∧
      ∀ tas alt, tas = mach2tas np (real a.mach) (real a.height) 0 / 0.514444 →
        alt = real a.height / 0.3048 →
      ((∀ s ∈ ["c550", "c25a", "c525", "c56x", "a124", "a306", "a321", "a332", "a333", "a343", "a359",
            "a388", "b38m", "b39m", "b3xm", "b744", "b748", "b772", "b773", "b77l", "b77w", "b788",
            "b789", "md11"], ac ≠ s.toList.map Char.toNat) →
        ∀ m, 0 ≤ m → m ≤ real a.mtow →
          Drag.clean np (airframe a) (polarParams p) false m tas alt 0 0 <
            Thrust.cruise np P tas alt 0) ∧
      ((∃ s ∈ ["a124", "a306", "a321", "a332", "a333", "a343", "a359", "a388", "b38m", "b39m", "b3xm",
            "b744", "b748", "b772", "b773", "b77l", "b77w", "b788", "b789", "md11"],
          ac = s.toList.map Char.toNat) →
        (∀ m, 0 ≤ m → m ≤ real a.mlw →
          Drag.clean np (airframe a) (polarParams p) false m tas alt 0 0 <
            Thrust.cruise np P tas alt 0) ∧
        ∀ m, real a.mtow ≤ m → Thrust.cruise np P tas alt 0 <
          Drag.clean np (airframe a) (polarParams p) false m tas alt 0 0) ∧
      ((∃ s ∈ ["c550", "c25a", "c525", "c56x"], ac = s.toList.map Char.toNat) →
        ∀ m, real a.oew ≤ m → Thrust.cruise np P tas alt 0 <
          Drag.clean np (airframe a) (polarParams p) false m tas alt 0 0) := by
  obtain ⟨q, -, h1, ⟨p, h2, h2'⟩, -, -, ⟨P, hP, -, -, p3, p4, p5, -⟩, -, -, -, -, -, -, -, hk, -⟩ :=
    C37_every_aircraft_constructs ac hac
  refine ⟨q.ac, q.eng, p, P, h1, h2, hP, ?_⟩
  intro tas alt ht ha
  have hb := List.all_eq_true.1 shipped_balanced ac hac
  rw [h1, h2] at hb
  rw [h2'] at hk
  obtain ⟨w1, w2, w3⟩ := balanced_spec hb hP p4 (mul_pos p5 p3) hk ht ha
  have mem : ∀ l : List String, (∃ s ∈ l, ac = s.toList.map Char.toNat) → ac ∈ names l := by
    rintro l ⟨s, hs, rfl⟩
    exact List.mem_map.2 ⟨s, hs, rfl⟩
  have nmem : ∀ l : List String, ac ∈ names l → ∃ s ∈ l, ac = s.toList.map Char.toNat := by
    intro l h
    obtain ⟨s, hs, rfl⟩ := List.mem_map.1 h
    exact ⟨s, hs, rfl⟩
  have disj : ∀ s ∈ heavy, s.toList.map Char.toNat ∉ names weak := by decide
  refine ⟨fun h => w3 ?_ ?_, fun h => w2 ?_ (mem heavy h), fun h => w1 (mem weak h)⟩
  · intro k
    obtain ⟨s, hs, e⟩ := nmem _ k
    exact h s (List.mem_append_left (bs := heavy) hs) e
  · intro k
    obtain ⟨s, hs, e⟩ := nmem _ k
    exact h s (List.mem_append_right (as := weak) hs) e
  · obtain ⟨s, hs, rfl⟩ := h
    exact disj s hs

/-- The three cases occur: the A320, the A321 and the Citation II are offered. -/
example : ["a320", "a321", "c550"].all (fun s =>
    (availableAircraft shipped true).contains (s.toList.map Char.toNat)) = true := by decide +kernel

end Verif.Props
