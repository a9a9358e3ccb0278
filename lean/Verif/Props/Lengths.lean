import Verif.Lemmas.LengthsPerf

/-!
# C133: vectors of different lengths

The decorated methods on numbers and vectors of NumPy or JAX (`j = false` and `true`), the decorator
applied at every call.
-/

namespace Verif.Props
open Verif Verif.Nd Verif.Decorated Verif.Spec Verif.Lengths

variable (j : Bool) (ac : Drag.Airframe ℝ) (pol : Drag.Polar ℝ) (en : Thrust.Params ℝ)
  (f : Fuel.Params ℝ) (em : Emission.Params ℝ)
variable {A B C D E F G : Arg}

/-- **C133, drag.** The flag for the landing gear is a number or has one element. -/
theorem C133_drag (wave : Bool) (hA : Flat A.val) (hB : Flat B.val) (hC : Flat C.val)
    (hD : Flat D.val) (hE : Flat E.val) (hF : Flat F.val) (hG : Flat G.val)
    (hG' : ∀ n, n ≠ 1 → ¬ HasLength n G.val) :
    Aligned [A.val, B.val, C.val, D.val, E.val] (Decorated.clean (ndBackend j)
      (Rec.airframe scalar ac) (Rec.polar scalar pol) wave A B C D E) ∧
    Aligned [A.val, B.val, C.val, D.val, E.val, F.val] (Decorated.nonclean (ndBackend j)
      (Rec.airframe scalar ac) (Rec.polar scalar pol) A B C D E F G) := by
  have hg : Len ∅ G.val := (len_lens hG).congr (by
    ext n
    simp only [lens, Set.mem_ofPred_eq, Set.mem_empty_iff_false, iff_false, not_and]
    exact hG' n)
  exact ⟨aligned ((len_clean ac pol wave (len_lens hA) (len_lens hB) (len_lens hC) (len_lens hD)
      (len_lens hE)).congr (by all_lengths)),
    aligned ((len_nonclean ac pol (len_lens hA) (len_lens hB) (len_lens hC) (len_lens hD)
      (len_lens hE) (len_lens hF) hg).congr (by all_lengths))⟩

/-- **C133, thrust.** -/
theorem C133_thrust (hA : Flat A.val) (hB : Flat B.val) (hC : Flat C.val) (hD : Flat D.val) :
    Aligned [A.val, B.val, C.val] (thrustTakeoff (ndBackend j) (Rec.thrust scalar en) A B C) ∧
    Aligned [A.val, B.val, C.val, D.val]
      (Decorated.climb (ndBackend j) (Rec.thrust scalar en) A B C D) ∧
    Aligned [A.val, B.val, C.val] (Decorated.cruise (ndBackend j) (Rec.thrust scalar en) A B C) ∧
    Aligned [A.val, B.val, C.val]
      (Decorated.descentIdle (ndBackend j) (Rec.thrust scalar en) A B C) :=
  ⟨aligned ((len_thrustTakeoff en (len_lens hA) (len_lens hB) (len_lens hC)).congr (by all_lengths)),
    aligned ((len_climb en (len_lens hA) (len_lens hB) (len_lens hC) (len_lens hD)).congr
      (by all_lengths)),
    aligned ((len_cruise en (len_lens hA) (len_lens hB) (len_lens hC)).congr (by all_lengths)),
    aligned ((len_descentIdle en (len_lens hA) (len_lens hB) (len_lens hC)).congr (by all_lengths))⟩

/-- **C133, fuel flow.** The flag `limit` may be anything and does not count. -/
theorem C133_fuel (wave : Bool) (hA : Flat A.val) (hB : Flat B.val) (hC : Flat C.val)
    (hD : Flat D.val) (hE : Flat E.val) (hF : Flat F.val) :
    Aligned [A.val] (Decorated.atThrust (ndBackend j) (Rec.fuel scalar f) A) ∧
    Aligned [A.val, B.val, C.val]
      (fuelTakeoff (ndBackend j) (Rec.thrust scalar en) (Rec.fuel scalar f) A B C) ∧
    Aligned [A.val, B.val, C.val, D.val, E.val, F.val] (Decorated.enroute (ndBackend j)
      (Rec.airframe scalar ac) (Rec.polar scalar pol) (Rec.fuel scalar f) wave A B C D E F G) :=
  ⟨aligned ((len_atThrust f (len_lens hA)).congr (by all_lengths)),
    aligned ((len_fuelTakeoff en f (len_lens hA) (len_lens hB) (len_lens hC)).congr (by all_lengths)),
    aligned ((len_enroute ac pol f wave (len_lens hA) (len_lens hB) (len_lens hC) (len_lens hD)
      (len_lens hE) (len_lens hF)).congr (by all_lengths))⟩

/-- **C133, emissions.** -/
theorem C133_emission (hA : Flat A.val) (hB : Flat B.val) (hC : Flat C.val) (hD : Flat D.val) :
    Aligned [A.val] (Decorated.co2 A) ∧ Aligned [A.val] (Decorated.h2o A) ∧
    Aligned [A.val] (Decorated.soot A) ∧ Aligned [A.val] (Decorated.sox A) ∧
    Aligned [A.val, B.val, C.val, D.val]
      (Decorated.nox (ndBackend j) (Rec.emission scalar em) A B C D) ∧
    Aligned [A.val, B.val, C.val, D.val]
      (Decorated.co (ndBackend j) (Rec.emission scalar em) A B C D) ∧
    Aligned [A.val, B.val, C.val, D.val]
      (Decorated.hc (ndBackend j) (Rec.emission scalar em) A B C D) :=
  ⟨aligned ((len_simple _ (len_lit _ _ _) (len_lens hA)).congr (by all_lengths)),
    aligned ((len_simple _ (len_lit _ _ _) (len_lens hA)).congr (by all_lengths)),
    aligned ((len_simple _ (len_lit _ _ _) (len_lens hA)).congr (by all_lengths)),
    aligned ((len_simple _ (len_lit _ _ _) (len_lens hA)).congr (by all_lengths)),
    aligned ((len_nox em (len_lens hA) (len_lens hB) (len_lens hC) (len_lens hD)).congr
      (by all_lengths)),
    aligned ((len_co em (len_lens hA) (len_lens hB) (len_lens hC) (len_lens hD)).congr
      (by all_lengths)),
    aligned ((len_hc em (len_lens hA) (len_lens hB) (len_lens hC) (len_lens hD)).congr
      (by all_lengths))⟩

/-- Three speeds and two altitudes are rejected; three speeds at one altitude give three thrusts. -/
example (v w : List ℕ → ℝ) :
    thrustTakeoff (ndBackend false) (Rec.thrust scalar en) ⟨some ⟨false, [3], v⟩, true⟩
      ⟨some ⟨false, [2], w⟩, true⟩ ⟨scalar 0, false⟩ = none ∧
    HasLength 3 (thrustTakeoff (ndBackend false) (Rec.thrust scalar en) ⟨some ⟨false, [3], v⟩, true⟩
      ⟨scalar 35000, true⟩ ⟨scalar 0, false⟩) := by
  have fv : Flat (some ⟨false, [3], v⟩) := ⟨_, rfl, .inr ⟨3, rfl⟩⟩
  have fw : Flat (some ⟨false, [2], w⟩) := ⟨_, rfl, .inr ⟨2, rfl⟩⟩
  have fs : ∀ c, Flat (scalar c) := fun c => ⟨_, rfl, .inl rfl⟩
  have hv : HasLength 3 (some ⟨false, [3], v⟩) := ⟨_, rfl, rfl⟩
  have hw : HasLength 2 (some ⟨false, [2], w⟩) := ⟨_, rfl, rfl⟩
  constructor
  · refine ((C133_thrust false en (A := ⟨some ⟨false, [3], v⟩, true⟩) (B := ⟨some ⟨false, [2], w⟩, true⟩)
      (C := ⟨scalar 0, false⟩) (D := ⟨scalar 0, false⟩) fv fw (fs 0) (fs 0)).1.raises).2 ?_
    exact ⟨_, by simp, _, by simp, 3, 2, by simp, by simp, by simp, hv, hw⟩
  · refine ((C133_thrust false en (A := ⟨some ⟨false, [3], v⟩, true⟩) (B := ⟨scalar 35000, true⟩)
      (C := ⟨scalar 0, false⟩) (D := ⟨scalar 0, false⟩) fv (fs _) (fs 0) (fs 0)).1.length ?_ 3
      (by simp)).2 ⟨_, by simp, hv⟩
    have ns : ∀ c n, ¬ HasLength n (scalar c) := fun c n ⟨a, h, e⟩ => by
      cases h; cases e
    have n3 : ∀ n, HasLength n (some ⟨false, [3], v⟩) → n = 3 := fun n ⟨a, h, e⟩ => by
      cases h
      simpa using e.symm
    rintro ⟨x, hx, y, hy, n, m, -, -, hnm, h1, h2⟩
    simp only [List.mem_cons, List.not_mem_nil, or_false] at hx hy
    rcases hx with rfl | rfl | rfl
    · rcases hy with rfl | rfl | rfl
      · exact hnm ((n3 n h1).trans (n3 m h2).symm)
      · exact ns _ _ h2
      · exact ns _ _ h2
    · exact ns _ _ h1
    · exact ns _ _ h1

end Verif.Props
