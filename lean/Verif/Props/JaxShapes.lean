import Verif.Lemmas.JaxShapes

/-!
# C130: kinds and shapes with the JAX backend

Shapes and indices are written last axis first.
-/

namespace Verif.Props
open Verif Verif.Nd Verif.Decorated Verif.Spec Verif.Shaped Verif.JaxShapes

section arrays
variable {u : List ℕ}

theorem pick_range : ∀ {s i : List ℕ}, List.Forall₂ (· < ·) i s → pick s i = i
  | [], _, .nil => rfl
  | d :: s, _, .cons (a := a) (l₁ := l) h1 h2 => by
    have := pick_range h2
    by_cases hd : d = 1
    · subst hd
      have : a = 0 := by omega
      simp_all [pick]
    · simp [pick, hd, this]

theorem jaxOperand_rep {A : Arg} {fl : Bool} {x : List ℕ → ℝ} (h : JaxOperand u A fl x) :
    ∃ k x', RepA u 0 k A x' ∧ k.L ≤ 2 ∧ (2 ≤ k.L ↔ fl = true) ∧
      ∀ i, List.Forall₂ (· < ·) i u → x' i = x i := by
  cases h with
  | number y given =>
    exact ⟨⟨given, false, 0⟩, fun _ => y, ⟨rfl, Rep.scalar y⟩, by simp, by simp, fun _ _ => rfl⟩
  | scalar g =>
    exact ⟨⟨true, true, 0⟩, fun _ => g [], ⟨rfl, g, rfl, fun _ => rfl⟩, by simp, by simp,
      fun _ _ => rfl⟩
  | single jx g =>
    exact ⟨⟨true, jx, 1⟩, fun _ => g [0], ⟨rfl, g, rfl, fun _ => by simp [sh, pick]⟩, by simp, by simp,
      fun _ _ => rfl⟩
  | array jx =>
    exact ⟨⟨true, jx, 2⟩, fun i => x (pick u i), ⟨rfl, x, rfl, fun _ => rfl⟩, by simp, by simp,
      fun i hi => by simp only [pick_range hi]⟩

theorem jaxArray_of {ℓ : Bool × ℕ} {v : Nd} {x x' : List ℕ → ℝ} (h : Rep u 0 ℓ v x')
    (h1 : ℓ.1 = true) (h2 : ℓ.2 ≤ 2 ∧ 2 ≤ ℓ.2)
    (hx : ∀ i, List.Forall₂ (· < ·) i u → x' i = x i) : JaxArray u v x := by
  obtain ⟨j, L⟩ := ℓ
  obtain rfl : j = true := h1
  obtain rfl : L = 2 := by simp only at h2; omega
  obtain ⟨g, rfl, hg⟩ := h
  refine ⟨g, rfl, fun i hi => ?_⟩
  rw [← hx i hi, ← hg i]
  simp [sh, pick_range hi]

variable (hu : u ≠ [])
variable (ac : Drag.Airframe ℝ) (pol : Drag.Polar ℝ) (en : Thrust.Params ℝ) (f : Fuel.Params ℝ)
  (em : Emission.Params ℝ)
variable {A B C D E F G : Arg} {a b c d e k g : Bool} {x y q p o n l : List ℕ → ℝ}

include hu

/-- **C130, arrays, drag.** Any shape, also with axes of length 1. -/
theorem C130_drag (wave : Bool) (z : ℝ) (given : Bool) (hA : JaxOperand u A a x)
    (hB : JaxOperand u B b y) (hC : JaxOperand u C c q) (hD : JaxOperand u D d p)
    (hE : JaxOperand u E e o) (hF : JaxOperand u F k n) :
    ((a || b || c || d || e) = true → JaxArray u
      (Decorated.clean (ndBackend true) (Rec.airframe scalar ac) (Rec.polar scalar pol) wave
        A B C D E)
      (fun i => Drag.clean np ac pol wave (x i) (y i) (q i) (p i) (o i))) ∧
    ((a || b || c || d || e || k) = true → JaxArray u
      (Decorated.nonclean (ndBackend true) (Rec.airframe scalar ac) (Rec.polar scalar pol)
        A B C D E F ⟨scalar z, given⟩)
      (fun i => Drag.nonclean np ac pol (x i) (y i) (q i) (p i) (o i) (n i)
        (open Classical in decide (z ≠ 0)))) := by
  obtain ⟨kA, x', rA, sA, bA, eA⟩ := jaxOperand_rep hA
  obtain ⟨kB, y', rB, sB, bB, eB⟩ := jaxOperand_rep hB
  obtain ⟨kC, q', rC, sC, bC, eC⟩ := jaxOperand_rep hC
  obtain ⟨kD, p', rD, sD, bD, eD⟩ := jaxOperand_rep hD
  obtain ⟨kE, o', rE, sE, bE, eE⟩ := jaxOperand_rep hE
  obtain ⟨kF, n', rF, sF, bF, eF⟩ := jaxOperand_rep hF
  refine ⟨fun hf => jaxArray_of (jx_clean ac pol wave hu rA rB rC rD rE)
    (by simp [cleanL, calcL, clL]) ⟨cleanL_small sA sB sC sD sE, cleanL_big ?_⟩ fun i hi => ?_,
    fun hf => jaxArray_of (jx_nonclean ac pol hu rA rB rC rD rE rF z given)
    (by simp [noncleanL, calcL, clL]) ⟨noncleanL_small sA sB sC sE sF sD, noncleanL_big ?_⟩
    fun i hi => ?_⟩
  · simp only [Bool.or_eq_true, ← bA, ← bB, ← bC, ← bD, ← bE] at hf; clear * - hf; tauto
  · simp only [eA i hi, eB i hi, eC i hi, eD i hi, eE i hi]
  · simp only [Bool.or_eq_true, ← bA, ← bB, ← bC, ← bD, ← bE, ← bF] at hf; clear * - hf; tauto
  · simp only [eA i hi, eB i hi, eC i hi, eD i hi, eE i hi, eF i hi]

/-- **C130, arrays, thrust.** -/
theorem C130_thrust (hA : JaxOperand u A a x) (hB : JaxOperand u B b y) (hC : JaxOperand u C c q)
    (hD : JaxOperand u D d p) :
    ((a || b || c) = true → JaxArray u
      (thrustTakeoff (ndBackend true) (Rec.thrust scalar en) A B C)
      (fun i => Thrust.takeoff np en (x i) (y i) (q i))) ∧
    ((a || b || c || d) = true → JaxArray u
      (Decorated.climb (ndBackend true) (Rec.thrust scalar en) A B C D)
      (fun i => Thrust.climb np en (x i) (y i) (q i) (p i))) ∧
    ((a || b || c) = true → JaxArray u
      (Decorated.cruise (ndBackend true) (Rec.thrust scalar en) A B C)
      (fun i => Thrust.cruise np en (x i) (y i) (q i))) ∧
    ((a || b || c) = true → JaxArray u
      (Decorated.descentIdle (ndBackend true) (Rec.thrust scalar en) A B C)
      (fun i => Thrust.descentIdle np en (x i) (y i) (q i))) := by
  obtain ⟨kA, x', rA, sA, bA, eA⟩ := jaxOperand_rep hA
  obtain ⟨kB, y', rB, sB, bB, eB⟩ := jaxOperand_rep hB
  obtain ⟨kC, q', rC, sC, bC, eC⟩ := jaxOperand_rep hC
  obtain ⟨kD, p', rD, sD, bD, eD⟩ := jaxOperand_rep hD
  refine ⟨fun hf => jaxArray_of (jx_thrustTakeoff en hu rA rB rC) (by simp [takeoffL])
      ⟨takeoffL_small.2 ⟨sA, sB, sC⟩, takeoffL_big.2 ?_⟩ fun i hi => ?_,
    fun hf => jaxArray_of (jx_climb en hu rA rB rC rD) (by simp [climbL])
      ⟨climbL_small.2 ⟨sA, sB, sC, sD⟩, climbL_big.2 ?_⟩ fun i hi => ?_,
    fun hf => jaxArray_of (jx_cruise en hu rA rB rC) (by simp [cruiseL, climbL])
      ⟨cruiseL_small.2 ⟨sA, sB, sC⟩, cruiseL_big.2 ?_⟩ fun i hi => ?_,
    fun hf => jaxArray_of (jx_descentIdle en hu rA.2 rB.2 rC.2) (by simp [takeoffL])
      ⟨takeoffL_small.2 ⟨sA, sB, sC⟩, takeoffL_big.2 ?_⟩ fun i hi => ?_⟩
  all_goals first
    | simp only [eA i hi, eB i hi, eC i hi, eD i hi]
    | (simp only [Bool.or_eq_true, ← bA, ← bB, ← bC, ← bD] at hf; clear * - hf; try simp only [Kd.pass]
       tauto)

/-- **C130, arrays, fuel flow.** -/
theorem C130_fuel (wave limit : Bool) (hA : JaxOperand u A a x) (hB : JaxOperand u B b y)
    (hC : JaxOperand u C c q) (hD : JaxOperand u D d p) (hE : JaxOperand u E e o)
    (hF : JaxOperand u F k n) (hG : JaxOperand u G g l) :
    (a = true → JaxArray u (Decorated.atThrust (ndBackend true) (Rec.fuel scalar f) A)
      (fun i => Fuel.atThrust np f (x i))) ∧
    ((a || b || c) = true → JaxArray u
      (fuelTakeoff (ndBackend true) (Rec.thrust scalar en) (Rec.fuel scalar f) A B C)
      (fun i => Fuel.takeoff np f en (x i) (y i) (q i))) ∧
    ((a || b || c || d || e || k) = true → JaxArray u
      (Decorated.enroute (ndBackend true) (Rec.airframe scalar ac) (Rec.polar scalar pol)
        (Rec.fuel scalar f) wave A B C D E F G)
      (fun i => Fuel.enroute np f ac pol wave (x i) (y i) (q i) (p i) (o i) (n i) limit)) := by
  obtain ⟨kA, x', rA, sA, bA, eA⟩ := jaxOperand_rep hA
  obtain ⟨kB, y', rB, sB, bB, eB⟩ := jaxOperand_rep hB
  obtain ⟨kC, q', rC, sC, bC, eC⟩ := jaxOperand_rep hC
  obtain ⟨kD, p', rD, sD, bD, eD⟩ := jaxOperand_rep hD
  obtain ⟨kE, o', rE, sE, bE, eE⟩ := jaxOperand_rep hE
  obtain ⟨kF, n', rF, sF, bF, eF⟩ := jaxOperand_rep hF
  obtain ⟨kG, l', rG, sG, bG, eG⟩ := jaxOperand_rep hG
  refine ⟨fun hf => jaxArray_of (jx_atThrust f hu rA) (by simp [atL])
      ⟨atL_small.2 sA, atL_big.2 ?_⟩ fun i hi => ?_,
    fun hf => jaxArray_of (jx_fuelTakeoff en f hu rA rB rC) (by simp [fuelTakeoffL, atL])
      ⟨fuelTakeoffL_small sA sB sC, fuelTakeoffL_big ?_⟩ fun i hi => ?_,
    fun hf => jaxArray_of (jx_enroute ac pol f wave limit hu rA rB rC rD rE rF rG)
      (by simp [enrouteL, atL])
      ⟨enrouteL_small sA sB sC sD sF sE, enrouteL_big ?_⟩ fun i hi => ?_⟩
  all_goals first
    | simp only [eA i hi, eB i hi, eC i hi, eD i hi, eE i hi, eF i hi]
    | (simp only [Bool.or_eq_true, ← bA, ← bB, ← bC, ← bD, ← bE, ← bF] at hf; clear * - hf; tauto)

/-- **C130, arrays, emissions.** The species in proportion to fuel flow are JAX arrays only for
JAX arrays; for NumPy arrays they are as with NumPy (C129). -/
theorem C130_emission (hA : JaxOperand u A a x) (hB : JaxOperand u B b y)
    (hC : JaxOperand u C c q) (hD : JaxOperand u D d p) :
    ((a || b || c || d) = true →
      JaxArray u (Decorated.nox (ndBackend true) (Rec.emission scalar em) A B C D)
        (fun i => Emission.nox np em (x i) (y i) (q i) (p i)) ∧
      JaxArray u (Decorated.co (ndBackend true) (Rec.emission scalar em) A B C D)
        (fun i => Emission.co np em (x i) (y i) (q i) (p i)) ∧
      JaxArray u (Decorated.hc (ndBackend true) (Rec.emission scalar em) A B C D)
        (fun i => Emission.hc np em (x i) (y i) (q i) (p i))) ∧
    ∀ w : List ℕ → ℝ,
      JaxArray u (Decorated.co2 ⟨some ⟨true, u, w⟩, true⟩) (fun i => w i * 3160) ∧
      JaxArray u (Decorated.h2o ⟨some ⟨true, u, w⟩, true⟩) (fun i => w i * 1230) ∧
      JaxArray u (Decorated.soot ⟨some ⟨true, u, w⟩, true⟩) (fun i => w i * 0.03) ∧
      JaxArray u (Decorated.sox ⟨some ⟨true, u, w⟩, true⟩) (fun i => w i * 1.2) := by
  obtain ⟨kA, x', rA, sA, bA, eA⟩ := jaxOperand_rep hA
  obtain ⟨kB, y', rB, sB, bB, eB⟩ := jaxOperand_rep hB
  obtain ⟨kC, q', rC, sC, bC, eC⟩ := jaxOperand_rep hC
  obtain ⟨kD, p', rD, sD, bD, eD⟩ := jaxOperand_rep hD
  obtain ⟨r1, r2, r3⟩ := jx_emission em hu rA rB rC rD
  constructor
  · intro hf
    have h2 : (climbL kA kB kC kD).2 ≤ 2 ∧ 2 ≤ (climbL kA kB kC kD).2 := by
      rw [climbL_small, climbL_big]
      simp only [Bool.or_eq_true, ← bA, ← bB, ← bC, ← bD] at hf
      clear * - hf sA sB sC sD
      tauto
    refine ⟨jaxArray_of r1 (by simp [climbL]) h2 fun i hi => ?_,
      jaxArray_of r2 (by simp [climbL]) h2 fun i hi => ?_,
      jaxArray_of r3 (by simp [climbL]) h2 fun i hi => ?_⟩
    all_goals simp only [eA i hi, eB i hi, eC i hi, eD i hi]
  · intro w
    have hw : Rep u 0 (true, 2) (some ⟨true, u, w⟩ : Nd) (fun i => w (pick u i)) :=
      ⟨w, rfl, fun i => rfl⟩
    have key : ∀ (m : ℕ) (s : Bool) (t : ℕ), JaxArray u
        (call [⟨some ⟨true, u, w⟩, true⟩] fun c =>
          c ⟨some ⟨true, u, w⟩, true⟩ * (OfScientific.ofScientific m s t : Nd))
        (fun i => w i * OfScientific.ofScientific m s t) := by
      intro m s t
      refine jaxArray_of (ℓ := (true, 2)) (call_jx (s := true) (by simp [symbolic]) rfl
        ((hw.mul hu (Rep.lit m s t)).cast (by rw [sup_bot_eq]))) rfl (by simp) fun i hi => ?_
      rw [pick_range hi]
    refine ⟨?_, ?_, key 3 true 2, key 12 true 1⟩
    · have := key 31600 true 1
      norm_num at this ⊢
      exact this
    · have := key 12300 true 1
      norm_num at this ⊢
      exact this

end arrays

section scalars

theorem plain_rep {A : Arg} {j : Bool} {y : ℝ} (h : Plain A j y) :
    RepA [2] 0 ⟨A.given, j, 0⟩ A (fun _ => y) ∧ (j = true → A.given = true) := by
  cases h with
  | number y given => exact ⟨⟨rfl, Rep.scalar y⟩, by simp⟩
  | traced g => exact ⟨⟨rfl, g, rfl, fun _ => rfl⟩, by simp⟩

theorem jaxScalar_of {ℓ : Bool × ℕ} {v : Nd} {y : ℝ} {s : Bool} (h : Rep [2] 0 ℓ v (fun _ => y))
    (e : ℓ = (true, if s then 0 else 1)) : JaxScalar s v y := by
  obtain ⟨g, rfl, hg⟩ := h
  subst e
  have := hg []
  cases s <;> exact ⟨g, rfl, by simpa [sh, pick] using this⟩

theorem level_clean (m t h v v' d d' wave : Bool) (hv : v = true → v' = true)
    (hd : d = true → d' = true) :
    cleanL ⟨true, m, 0⟩ ⟨true, t, 0⟩ ⟨true, h, 0⟩ ⟨v', v, 0⟩ ⟨d', d, 0⟩ wave =
      (true, if (m || t || h || d || (v && !wave)) then 0 else 1) := by
  revert m t h v v' d d' wave
  decide +kernel

theorem level_nonclean (m t h f v v' d d' g : Bool) (hv : v = true → v' = true)
    (hd : d = true → d' = true) :
    noncleanL ⟨true, m, 0⟩ ⟨true, t, 0⟩ ⟨true, h, 0⟩ ⟨v', v, 0⟩ ⟨d', d, 0⟩ ⟨true, f, 0⟩
      ⟨g, false, 0⟩ = (true, if (m || t || h || v || d) then 0 else 1) := by
  revert m t h f v v' d d' g
  decide +kernel

theorem level_enroute (m t h v v' a a' d d' l l' wave : Bool) (hv : v = true → v' = true)
    (ha : a = true → a' = true) (hd : d = true → d' = true) (hl : l = true → l' = true) :
    enrouteL ⟨true, m, 0⟩ ⟨true, t, 0⟩ ⟨true, h, 0⟩ ⟨v', v, 0⟩ ⟨d', d, 0⟩ ⟨a', a, 0⟩ ⟨l', l, 0⟩
      wave = (true, if (m || t || h || d || (v && !wave)) then 0 else 1) := by
  revert m t h v v' a a' d d' l l' wave
  decide +kernel

theorem level_takeoff (t h h' d d' : Bool) (hh : h = true → h' = true)
    (hd : d = true → d' = true) :
    takeoffL ⟨true, t, 0⟩ ⟨h', h, 0⟩ ⟨d', d, 0⟩ = (true, if (t || h || d) then 0 else 1) := by
  revert t h h' d d'
  decide +kernel

theorem level_climb (t h v d d' : Bool) (hd : d = true → d' = true) :
    climbL ⟨true, t, 0⟩ ⟨true, h, 0⟩ ⟨true, v, 0⟩ ⟨d', d, 0⟩ =
      (true, if (t || h || v || d) then 0 else 1) := by
  revert t h v d d'
  decide +kernel

theorem level_cruise (t h d d' : Bool) (hd : d = true → d' = true) :
    cruiseL ⟨true, t, 0⟩ ⟨true, h, 0⟩ ⟨d', d, 0⟩ = (true, if (t || h || d) then 0 else 1) := by
  revert t h d d'
  decide +kernel

theorem level_at (t : Bool) : atL ⟨true, t, 0⟩ = (true, if t then 0 else 1) := by
  revert t
  decide +kernel

theorem level_fuelTakeoff (t h f f' : Bool) (hf : f = true → f' = true) :
    fuelTakeoffL ⟨true, t, 0⟩ ⟨true, h, 0⟩ ⟨f', f, 0⟩ =
      (true, if (t || h) then 0 else 1) := by
  revert t h f f'
  decide +kernel

variable (ac : Drag.Airframe ℝ) (pol : Drag.Polar ℝ) (en : Thrust.Params ℝ) (f : Fuel.Params ℝ)
  (em : Emission.Params ℝ)
variable {A B C D E F G : Arg} {a b c d e k g : Bool} {x y q p o n l : ℝ}

/-- **C130, scalars, drag.** Numbers and JAX scalars: the result is a JAX scalar iff one of the
arguments named in the condition is one, otherwise an array of shape `(1,)`. Not so for the flap
angle, and for the vertical rate with wave drag. -/
theorem C130_scalar_drag (wave : Bool) (z : ℝ) (given : Bool) (hA : Plain A a x)
    (hB : Plain B b y) (hC : Plain C c q) (hD : Plain D d p) (hE : Plain E e o)
    (hF : Plain F k n) (gA : A.given = true) (gB : B.given = true) (gC : C.given = true)
    (gF : F.given = true) :
    JaxScalar (a || b || c || e || (d && !wave))
      (Decorated.clean (ndBackend true) (Rec.airframe scalar ac) (Rec.polar scalar pol) wave
        A B C D E) (Drag.clean np ac pol wave x y q p o) ∧
    JaxScalar (a || b || c || d || e)
      (Decorated.nonclean (ndBackend true) (Rec.airframe scalar ac) (Rec.polar scalar pol)
        A B C F D E ⟨scalar z, given⟩)
      (Drag.nonclean np ac pol x y q n p o (open Classical in decide (z ≠ 0))) := by
  obtain ⟨rA, -⟩ := plain_rep hA
  obtain ⟨rB, -⟩ := plain_rep hB
  obtain ⟨rC, -⟩ := plain_rep hC
  obtain ⟨rD, iD⟩ := plain_rep hD
  obtain ⟨rE, iE⟩ := plain_rep hE
  obtain ⟨rF, -⟩ := plain_rep hF
  rw [gA] at rA; rw [gB] at rB; rw [gC] at rC; rw [gF] at rF
  exact ⟨jaxScalar_of (jx_clean ac pol wave (by simp) rA rB rC rD rE)
      (level_clean _ _ _ _ _ _ _ _ iD iE),
    jaxScalar_of (jx_nonclean ac pol (by simp) rA rB rC rF rD rE z given)
      (level_nonclean _ _ _ _ _ _ _ _ _ iD iE)⟩

/-- **C130, scalars, thrust.** -/
theorem C130_scalar_thrust (hA : Plain A a x) (hB : Plain B b y) (hC : Plain C c q)
    (hD : Plain D d p) (gA : A.given = true) (gB : B.given = true) (gC : C.given = true) :
    JaxScalar (a || b || d)
      (thrustTakeoff (ndBackend true) (Rec.thrust scalar en) A B D)
      (Thrust.takeoff np en x y p) ∧
    JaxScalar (a || b || c || d)
      (Decorated.climb (ndBackend true) (Rec.thrust scalar en) A B C D)
      (Thrust.climb np en x y q p) ∧
    JaxScalar (a || b || d)
      (Decorated.cruise (ndBackend true) (Rec.thrust scalar en) A B D)
      (Thrust.cruise np en x y p) ∧
    JaxScalar (a || b || d)
      (Decorated.descentIdle (ndBackend true) (Rec.thrust scalar en) A B D)
      (Thrust.descentIdle np en x y p) := by
  obtain ⟨rA, -⟩ := plain_rep hA
  obtain ⟨rB, iB⟩ := plain_rep hB
  obtain ⟨rC, -⟩ := plain_rep hC
  obtain ⟨rD, iD⟩ := plain_rep hD
  rw [gA] at rA; rw [gB] at rB; rw [gC] at rC
  exact ⟨jaxScalar_of (jx_thrustTakeoff en (by simp) rA rB rD)
      (level_takeoff _ _ _ _ _ (fun _ => rfl) iD),
    jaxScalar_of (jx_climb en (by simp) rA rB rC rD) (level_climb _ _ _ _ _ iD),
    jaxScalar_of (jx_cruise en (by simp) rA rB rD) (level_cruise _ _ _ _ iD),
    jaxScalar_of (jx_descentIdle en (by simp) rA.2 rB.2 rD.2)
      (level_takeoff _ _ _ _ _ (fun _ => rfl) (fun _ => rfl))⟩

/-- **C130, scalars, fuel flow.** Not a scalar when only the acceleration or only the throttle
setting is a JAX scalar. -/
theorem C130_scalar_fuel (wave limit : Bool) (hA : Plain A a x)
    (hB : Plain B b y) (hC : Plain C c q) (hD : Plain D d p) (hE : Plain E e o)
    (hF : Plain F k n) (hG : Plain G g l) (gA : A.given = true) (gB : B.given = true)
    (gC : C.given = true) :
    JaxScalar a (Decorated.atThrust (ndBackend true) (Rec.fuel scalar f) A)
      (Fuel.atThrust np f x) ∧
    JaxScalar (b || c)
      (fuelTakeoff (ndBackend true) (Rec.thrust scalar en) (Rec.fuel scalar f) B C E)
      (Fuel.takeoff np f en y q o) ∧
    JaxScalar (a || b || c || k || (d && !wave))
      (Decorated.enroute (ndBackend true) (Rec.airframe scalar ac) (Rec.polar scalar pol)
        (Rec.fuel scalar f) wave A B C D E F G)
      (Fuel.enroute np f ac pol wave x y q p o n limit) := by
  obtain ⟨rA, -⟩ := plain_rep hA
  obtain ⟨rB, -⟩ := plain_rep hB
  obtain ⟨rC, -⟩ := plain_rep hC
  obtain ⟨rD, iD⟩ := plain_rep hD
  obtain ⟨rE, iE⟩ := plain_rep hE
  obtain ⟨rF, iF⟩ := plain_rep hF
  obtain ⟨rG, iG⟩ := plain_rep hG
  rw [gA] at rA; rw [gB] at rB; rw [gC] at rC
  exact ⟨jaxScalar_of (jx_atThrust f (by simp) rA) (level_at _),
    jaxScalar_of (jx_fuelTakeoff en f (by simp) rB rC rE) (level_fuelTakeoff _ _ _ _ iE),
    jaxScalar_of (jx_enroute ac pol f wave limit (by simp) rA rB rC rD rE rF rG)
      (level_enroute _ _ _ _ _ _ _ _ _ _ _ _ iD iE iF iG)⟩

/-- **C130, scalars, emissions.** -/
theorem C130_scalar_emission (hA : Plain A a x) (hB : Plain B b y) (hC : Plain C c q)
    (hD : Plain D d p) (gA : A.given = true) (gB : B.given = true) (gC : C.given = true) :
    JaxScalar (a || b || c || d)
      (Decorated.nox (ndBackend true) (Rec.emission scalar em) A B C D)
      (Emission.nox np em x y q p) ∧
    JaxScalar (a || b || c || d)
      (Decorated.co (ndBackend true) (Rec.emission scalar em) A B C D)
      (Emission.co np em x y q p) ∧
    JaxScalar (a || b || c || d)
      (Decorated.hc (ndBackend true) (Rec.emission scalar em) A B C D)
      (Emission.hc np em x y q p) := by
  obtain ⟨rA, -⟩ := plain_rep hA
  obtain ⟨rB, -⟩ := plain_rep hB
  obtain ⟨rC, -⟩ := plain_rep hC
  obtain ⟨rD, iD⟩ := plain_rep hD
  rw [gA] at rA; rw [gB] at rB; rw [gC] at rC
  obtain ⟨r1, r2, r3⟩ := jx_emission em (by simp) rA rB rC rD
  exact ⟨jaxScalar_of r1 (level_climb _ _ _ _ _ iD), jaxScalar_of r2 (level_climb _ _ _ _ _ iD),
    jaxScalar_of r3 (level_climb _ _ _ _ _ iD)⟩

/-- Differentiating the fuel flow by acceleration: mass, speed and altitude are numbers, the
acceleration is traced, and the result has shape `(1,)`, which `jax.grad` rejects; by mass it has
shape `()`. -/
example (y : ℝ) :
    (∃ g, Decorated.enroute (ndBackend true) (Rec.airframe scalar ac) (Rec.polar scalar pol)
      (Rec.fuel scalar f) false ⟨scalar 60000, true⟩ ⟨scalar 400, true⟩ ⟨scalar 30000, true⟩
      ⟨scalar 0, false⟩ ⟨some ⟨true, [], fun _ => y⟩, true⟩ ⟨scalar 0, false⟩ ⟨scalar 1, false⟩ =
        some ⟨true, [1], g⟩) ∧
    ∃ g, Decorated.enroute (ndBackend true) (Rec.airframe scalar ac) (Rec.polar scalar pol)
      (Rec.fuel scalar f) false ⟨some ⟨true, [], fun _ => y⟩, true⟩ ⟨scalar 400, true⟩
      ⟨scalar 30000, true⟩
      ⟨scalar 0, false⟩ ⟨scalar 0, false⟩ ⟨scalar 0, false⟩ ⟨scalar 1, false⟩ =
        some ⟨true, [], g⟩ := by
  obtain ⟨-, -, g, h, -⟩ := C130_scalar_fuel ac pol en f false true
    (.number 60000 true)
    (.number 400 true) (.number 30000 true) (.number 0 false) (.traced fun _ => y)
    (.number 0 false) (.number 1 false) rfl rfl rfl
  obtain ⟨-, -, g', h', -⟩ := C130_scalar_fuel ac pol en f false true
    (.traced fun _ => y)
    (.number 400 true) (.number 30000 true) (.number 0 false) (.number 0 false)
    (.number 0 false) (.number 1 false) rfl rfl rfl
  exact ⟨⟨g, h⟩, ⟨g', h'⟩⟩

/-- A column of speeds, with an axis of length 1, meets the hypotheses of `C130_fuel`. -/
example (g : List ℕ → ℝ) : JaxOperand [1, 3] ⟨some ⟨false, [1, 3], g⟩, true⟩ true g :=
  .array _ _

end scalars

end Verif.Props
