import Verif.Lemmas.ShapedColumn

/-!
# C129: arrays of any shape

The decorated methods on numbers and arrays, NumPy backend, with the decorator applied at every
call, also where one decorated method calls another. Shapes and indices are written last axis
first.
-/

namespace Verif.Props
open Verif Verif.Nd Verif.Decorated Verif.Spec Verif.Shaped Verif.Aero

section
variable (u : List ℕ) (r : ℕ) (hu : u ≠ []) (h1 : ∀ d ∈ u, d ≠ 1)
variable (ac : Drag.Airframe ℝ) (pol : Drag.Polar ℝ) (en : Thrust.Params ℝ) (f : Fuel.Params ℝ)
  (em : Emission.Params ℝ)
variable {A B C D E F G : Arg} {a b c d e k g : Bool} {x y q p o n l : List ℕ → ℝ}

include hu h1

/-- **C129, drag.** Each argument a number, a one-element array or an array of the common shape:
the result is the array of the scalar results, without leading axes of length 1. -/
theorem C129_drag (wave : Bool) (hA : Operand u r A a x) (hB : Operand u r B b y)
    (hC : Operand u r C c q) (hD : Operand u r D d p) (hE : Operand u r E e o)
    (hF : Operand u r F k n) (hG : Operand u r G false l) :
    Elementwise u (a || b || c || d || e)
      (Decorated.clean (ndBackend false) (Rec.airframe scalar ac) (Rec.polar scalar pol) wave
        A B C D E)
      (fun i => Drag.clean np ac pol wave (x i) (y i) (q i) (p i) (o i)) ∧
    Elementwise u (a || b || c || d || e || k)
      (Decorated.nonclean (ndBackend false) (Rec.airframe scalar ac) (Rec.polar scalar pol)
        A B C D E F G)
      (fun i => Drag.nonclean np ac pol (x i) (y i) (q i) (p i) (o i) (n i)
        (open Classical in decide (l i ≠ 0))) := by
  obtain ⟨x', kA, eA⟩ := sm_operand h1 hA
  obtain ⟨y', kB, eB⟩ := sm_operand h1 hB
  obtain ⟨q', kC, eC⟩ := sm_operand h1 hC
  obtain ⟨p', kD, eD⟩ := sm_operand h1 hD
  obtain ⟨o', kE, eE⟩ := sm_operand h1 hE
  obtain ⟨n', kF, eF⟩ := sm_operand h1 hF
  obtain ⟨l', kG, eG⟩ := sm_flag hG
  refine ⟨elementwise_of h1 (sm_clean ac pol hu h1 wave kA kB kC kD kE) (by simp [and_assoc])
    fun i hi => ?_, elementwise_of h1 (sm_nonclean ac pol hu h1 kA kB kC kD kE kF kG)
    (by simp [and_assoc]) fun i hi => ?_⟩
  · simp only [eA i hi, eB i hi, eC i hi, eD i hi, eE i hi]
  · simp only [eA i hi, eB i hi, eC i hi, eD i hi, eE i hi, eF i hi, eG i]

/-- **C129, thrust.** -/
theorem C129_thrust (hA : Operand u r A a x) (hB : Operand u r B b y) (hC : Operand u r C c q)
    (hD : Operand u r D d p) :
    Elementwise u (a || b || c)
      (thrustTakeoff (ndBackend false) (Rec.thrust scalar en) A B C)
      (fun i => Thrust.takeoff np en (x i) (y i) (q i)) ∧
    Elementwise u (a || b || c || d)
      (Decorated.climb (ndBackend false) (Rec.thrust scalar en) A B C D)
      (fun i => Thrust.climb np en (x i) (y i) (q i) (p i)) ∧
    Elementwise u (a || b || c)
      (Decorated.cruise (ndBackend false) (Rec.thrust scalar en) A B C)
      (fun i => Thrust.cruise np en (x i) (y i) (q i)) ∧
    Elementwise u (a || b || c)
      (Decorated.descentIdle (ndBackend false) (Rec.thrust scalar en) A B C)
      (fun i => Thrust.descentIdle np en (x i) (y i) (q i)) := by
  obtain ⟨x', kA, eA⟩ := sm_operand h1 hA
  obtain ⟨y', kB, eB⟩ := sm_operand h1 hB
  obtain ⟨q', kC, eC⟩ := sm_operand h1 hC
  obtain ⟨p', kD, eD⟩ := sm_operand h1 hD
  refine ⟨elementwise_of h1 (sm_thrustTakeoff en hu h1 kA kB kC) (by simp [and_assoc]) ?_,
    elementwise_of h1 (sm_climb en hu h1 kA kB kC kD) (by simp [and_assoc]) ?_,
    elementwise_of h1 (sm_cruise en hu h1 kA kB kC) (by simp [and_assoc]) ?_,
    elementwise_of h1 (sm_descentIdle en hu h1 kA kB kC) (by simp [and_assoc]) ?_⟩
  all_goals
    intro i hi
    simp only [eA i hi, eB i hi, eC i hi, eD i hi]

/-- **C129, fuel flow.** The flag `limit` may be anything. -/
theorem C129_fuel (wave limit : Bool) (hA : Operand u r A a x) (hB : Operand u r B b y)
    (hC : Operand u r C c q) (hD : Operand u r D d p) (hE : Operand u r E e o)
    (hF : Operand u r F k n) (hG : Operand u r G g l) :
    Elementwise u a (Decorated.atThrust (ndBackend false) (Rec.fuel scalar f) A)
      (fun i => Fuel.atThrust np f (x i)) ∧
    Elementwise u (a || b || c)
      (fuelTakeoff (ndBackend false) (Rec.thrust scalar en) (Rec.fuel scalar f) A B C)
      (fun i => Fuel.takeoff np f en (x i) (y i) (q i)) ∧
    Elementwise u (a || b || c || d || e || k)
      (Decorated.enroute (ndBackend false) (Rec.airframe scalar ac) (Rec.polar scalar pol)
        (Rec.fuel scalar f) wave A B C D E F G)
      (fun i => Fuel.enroute np f ac pol wave (x i) (y i) (q i) (p i) (o i) (n i) limit) := by
  obtain ⟨x', kA, eA⟩ := sm_operand h1 hA
  obtain ⟨y', kB, eB⟩ := sm_operand h1 hB
  obtain ⟨q', kC, eC⟩ := sm_operand h1 hC
  obtain ⟨p', kD, eD⟩ := sm_operand h1 hD
  obtain ⟨o', kE, eE⟩ := sm_operand h1 hE
  obtain ⟨n', kF, eF⟩ := sm_operand h1 hF
  obtain ⟨l', kG, eG⟩ := sm_operand h1 hG
  refine ⟨elementwise_of h1 (sm_atThrust f hu h1 kA) Iff.rfl ?_,
    elementwise_of h1 (sm_fuelTakeoff en f hu h1 kA kB kC) (by simp [and_assoc]) ?_,
    elementwise_of h1 (sm_enroute ac pol f hu h1 wave limit kA kB kC kD kE kF kG)
      (by simp [and_assoc]) ?_⟩
  all_goals
    intro i hi
    simp only [eA i hi, eB i hi, eC i hi, eD i hi, eE i hi, eF i hi]

/-- **C129, emissions.** -/
theorem C129_emission (hA : Operand u r A a x) (hB : Operand u r B b y)
    (hC : Operand u r C c q) (hD : Operand u r D d p) :
    Elementwise u a (Decorated.co2 A) (fun i => x i * 3160) ∧
    Elementwise u a (Decorated.h2o A) (fun i => x i * 1230) ∧
    Elementwise u a (Decorated.soot A) (fun i => x i * 0.03) ∧
    Elementwise u a (Decorated.sox A) (fun i => x i * 1.2) ∧
    Elementwise u (a || b || c || d)
      (Decorated.nox (ndBackend false) (Rec.emission scalar em) A B C D)
      (fun i => Emission.nox np em (x i) (y i) (q i) (p i)) ∧
    Elementwise u (a || b || c || d)
      (Decorated.co (ndBackend false) (Rec.emission scalar em) A B C D)
      (fun i => Emission.co np em (x i) (y i) (q i) (p i)) ∧
    Elementwise u (a || b || c || d)
      (Decorated.hc (ndBackend false) (Rec.emission scalar em) A B C D)
      (fun i => Emission.hc np em (x i) (y i) (q i) (p i)) := by
  obtain ⟨x', kA, eA⟩ := sm_operand h1 hA
  obtain ⟨y', kB, eB⟩ := sm_operand h1 hB
  obtain ⟨q', kC, eC⟩ := sm_operand h1 hC
  obtain ⟨p', kD, eD⟩ := sm_operand h1 hD
  obtain ⟨s1, s2, s3⟩ := sm_species em hu h1 kA kB kC kD
  refine ⟨elementwise_of h1 (sm_times hu h1 31600 true 1 kA) Iff.rfl ?_,
    elementwise_of h1 (sm_times hu h1 12300 true 1 kA) Iff.rfl ?_,
    elementwise_of h1 (sm_times hu h1 3 true 2 kA) Iff.rfl ?_,
    elementwise_of h1 (sm_times hu h1 12 true 1 kA) Iff.rfl ?_,
    elementwise_of h1 s1 (by simp [and_assoc]) ?_, elementwise_of h1 s2 (by simp [and_assoc]) ?_,
    elementwise_of h1 s3 (by simp [and_assoc]) ?_⟩
  · intro i hi; rw [eA i hi]; norm_num
  · intro i hi; rw [eA i hi]; norm_num
  · intro i hi; rw [eA i hi]
  · intro i hi; rw [eA i hi]
  all_goals
    intro i hi
    simp only [eA i hi, eB i hi, eC i hi, eD i hi]
end

/-! ## Columns -/

theorem column_sm {n : ℕ} {A : Arg} {fl : Bool} {x : ℕ → ℝ} (h : ColumnOperand n A fl x)
    (hn : 2 ≤ n) : ∃ x', Sm [1, n] 0 (fl = false) A.val x' ∧ ∀ i, x' [0, i] = x i := by
  have h1 : n ≠ 1 := by omega
  cases h with
  | number y given => exact ⟨_, (Sm.scalar y).congr (by simp), fun _ => rfl⟩
  | column g => exact ⟨fun i => g (pick [1, n] i), (sm_of_full rfl fun _ => rfl).congr (by simp),
      fun i => by simp [pick, h1]⟩

theorem matrix_of {n : ℕ} {v : Nd} {x : List ℕ → ℝ} (hn : 2 ≤ n) (h : Sm [n, n] 0 False v x)
    {M : ℕ → ℕ → ℝ} (hM : ∀ i j, x [j, i] = M i j) : IsMatrix n v M := by
  obtain ⟨g, hv, hg⟩ := sm_full h
  refine ⟨g, hv, fun i j => ?_⟩
  have := hg [j, i]
  rw [pick_mat hn] at this
  simp only [List.headD_cons, List.tail_cons] at this
  rw [this, hM]

section
variable (n : ℕ) (hn : 2 ≤ n)
variable (ac : Drag.Airframe ℝ) (pol : Drag.Polar ℝ) (en : Thrust.Params ℝ) (f : Fuel.Params ℝ)
variable {A B C D E F G : Arg} {d e k : Bool} {x y q p o m l : ℕ → ℝ}

include hn

/-- **C129, columns, drag.** Without wave drag a column comes back as a vector. With wave drag the
result is a matrix: row `i`, column `j` has the Mach number of state `i` and everything else of
state `j`. With a column of flap angles row `i`, column `j` has the flap angle `i` in state `j`. -/
theorem C129_column_drag (hA : ColumnOperand n A true x)
    (hB : ColumnOperand n B true y) (hC : ColumnOperand n C true q) (hD : ColumnOperand n D d p)
    (hE : ColumnOperand n E e o) (hF : ColumnOperand n F true m)
    (hG : ColumnOperand n G false l) :
    IsVector n (Decorated.clean (ndBackend false) (Rec.airframe scalar ac) (Rec.polar scalar pol)
      false A B C D E) (fun i => Drag.clean np ac pol false (x i) (y i) (q i) (p i) (o i)) ∧
    IsMatrix n (Decorated.clean (ndBackend false) (Rec.airframe scalar ac) (Rec.polar scalar pol)
      true A B C D E) (fun i j => Drag.calcDrag np ac (x j) (y j) (q j)
        (pol.cd0 + 20 * max (tas2mach np (y i * 0.514444) (q i * 0.3048) (o i)
          - Drag.machCrit np ac (Drag.cl np ac (x j) (y j) (q j) 0 (o j)).1) 0 ^ 4)
        pol.k (p j) (o j)) ∧
    IsMatrix n (Decorated.nonclean (ndBackend false) (Rec.airframe scalar ac)
      (Rec.polar scalar pol) A B C F D E G) (fun i j =>
        Drag.nonclean np ac pol (x j) (y j) (q j) (m i) (p j) (o j)
          (open Classical in decide (l 0 ≠ 0))) := by
  obtain ⟨x', kA, eA⟩ := column_sm hA hn
  obtain ⟨y', kB, eB⟩ := column_sm hB hn
  obtain ⟨q', kC, eC⟩ := column_sm hC hn
  obtain ⟨p', kD, eD⟩ := column_sm hD hn
  obtain ⟨o', kE, eE⟩ := column_sm hE hn
  obtain ⟨m', kF, eF⟩ := column_sm hF hn
  obtain ⟨l', kG, eG⟩ := column_sm hG hn
  simp only [Bool.true_eq_false] at kA kB kC kF
  obtain ⟨w, hw, kG⟩ := sm_single (kG.congr (by simp))
  refine ⟨?_, matrix_of hn (mat_clean ac pol hn kA kB kC kD kE) fun i j => ?_,
    matrix_of hn (mat_nonclean ac pol hn kA kB kC kF kD kE (kG _)) fun i j => ?_⟩
  · have h := (sm_of_dn (col_clean ac pol hn kA kB kC kD kE)).congr (show _ ↔ False by simp)
    obtain ⟨g, hv, hg⟩ := sm_full h
    refine ⟨g, hv, fun i => ?_⟩
    have h1 : n ≠ 1 := by omega
    have := hg [i]
    simp only [pick, h1, if_false, List.headD_cons] at this
    rw [this, eA, eB, eC, eD, eE]
  · simp only [List.headD_cons, List.tail_cons, eA, eB, eC, eD, eE, kts, ft]
    norm_num [np]
  · simp only [List.headD_cons, List.tail_cons, eA, eB, eC, eD, eE, eF]
    have : l 0 = w := by rw [← eG 0, hw]
    rw [this]

/-- **C129, columns, fuel flow.** `enroute` on columns of states returns a matrix: row `i`,
column `j` has the drag of state `j` with the weight, flight path and acceleration of state `i`.
Likewise a column of throttle settings with vectors of speeds and altitudes. -/
theorem C129_column_fuel (hA : ColumnOperand n A true x)
    (hB : ColumnOperand n B true y) (hC : ColumnOperand n C true q) (hD : ColumnOperand n D d p)
    (hE : ColumnOperand n E e o) (hF : ColumnOperand n F k m)
    (hG : ColumnOperand n G false l) (s t : List ℕ → ℝ) :
    IsMatrix n (Decorated.enroute (ndBackend false) (Rec.airframe scalar ac)
      (Rec.polar scalar pol) (Rec.fuel scalar f) false A B C D E F G) (fun i j =>
        Fuel.atThrust np f (Drag.clean np ac pol false (x j) (y j) (q j) (p j) (m j)
          + x i * 9.81 * Real.sin (atan2R (p i * 0.00508) (y i * 0.514444)) + x i * o i)) ∧
    IsMatrix n (fuelTakeoff (ndBackend false) (Rec.thrust scalar en) (Rec.fuel scalar f)
      ⟨some ⟨false, [n], s⟩, true⟩ ⟨some ⟨false, [n], t⟩, true⟩ A) (fun i j =>
        Fuel.takeoff np f en (s [j]) (t [j]) (x i)) := by
  obtain ⟨x', kA, eA⟩ := column_sm hA hn
  obtain ⟨y', kB, eB⟩ := column_sm hB hn
  obtain ⟨q', kC, eC⟩ := column_sm hC hn
  obtain ⟨p', kD, eD⟩ := column_sm hD hn
  obtain ⟨o', kE, eE⟩ := column_sm hE hn
  obtain ⟨m', kF, eF⟩ := column_sm hF hn
  obtain ⟨l', kG, eG⟩ := column_sm hG hn
  simp only [Bool.true_eq_false] at kA kB kC
  have h1 : n ≠ 1 := by omega
  have hs : Sm [n] 0 False (Arg.mk (some ⟨false, [n], s⟩) true).val (fun i => s (pick [n] i)) :=
    sm_of_full rfl fun i => rfl
  have ht : Sm [n] 0 False (Arg.mk (some ⟨false, [n], t⟩) true).val (fun i => t (pick [n] i)) :=
    sm_of_full rfl fun i => rfl
  refine ⟨matrix_of hn (col_enroute ac pol f hn kA kB kC kD kE kF kG) fun i j => ?_,
    matrix_of hn (mat_fuelTakeoff en f hn hs ht kA) fun i j => ?_⟩
  · simp only [List.headD_cons, List.tail_cons, eA, eB, eC, eD, eE, eF, fpm, kts]
    rfl
  · simp only [List.headD_cons, List.tail_cons, eA, pick, h1, if_false]
end

/-- **C129, gear.** A list of landing-gear flags that is empty or has two or more is rejected, for
NumPy and JAX alike. -/
theorem C129_gear (j : Bool) (ac : Drag.Airframe Nd) (pol : Drag.Polar Nd)
    (mass tas alt flap vs dT : Arg) (n : ℕ) (hn : n ≠ 1) (jx : Bool) (g : List ℕ → ℝ) :
    Decorated.nonclean (ndBackend j) ac pol mass tas alt flap vs dT
      ⟨some ⟨jx, [n], g⟩, true⟩ = none := by
  simp only [Decorated.nonclean, call, convert, truth, List.prod_cons, List.prod_nil, mul_one, hn,
    if_false, Option.map_none, ite_self]

/-! ## Examples -/

/-- A grid of three rows and two columns with one mass meets the hypotheses of `C129_fuel`. -/
example (g : List ℕ → ℝ) : Operand [2, 3] 0 ⟨Nd.scalar 60000, true⟩ false (fun _ => 60000) ∧
    Operand [2, 3] 0 ⟨some ⟨false, [2, 3], g⟩, true⟩ true g ∧ ∀ d ∈ [2, 3], d ≠ 1 :=
  ⟨.number _ _, by simpa using Operand.array (u := [2, 3]) (r := 0) g, by decide⟩

/-- Two states as columns: masses 50 and 70 t. -/
example : ColumnOperand 2 ⟨some ⟨false, [1, 2], fun i => if i = [0, 0] then 50000 else 70000⟩, true⟩
    true (fun i => if [0, i] = [0, 0] then 50000 else 70000) := .column _

end Verif.Props
