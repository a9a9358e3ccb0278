import Verif.Lemmas.ShapedCall

/-!
# The remaining decorated methods, NumPy backend; reading off the result
-/

namespace Verif.Shaped
open Verif.Nd Verif.Decorated Verif.Aero Verif.Spec

variable {u : List ℕ} {r : ℕ}
variable (ac : Drag.Airframe ℝ) (pol : Drag.Polar ℝ) (en : Thrust.Params ℝ) (f : Fuel.Params ℝ)
  (em : Emission.Params ℝ)
variable {P Q S T U V W : Prop} {A B C D E F G : Arg} {x y q p o n l : List ℕ → ℝ}

theorem truth_single {v : Nd} {k : ℝ} (hv : v = some ⟨false, [1], fun _ => k⟩ ∨
    v = some ⟨false, [], fun _ => k⟩) : truth v = some (open Classical in decide (k ≠ 0)) := by
  rcases hv with rfl | rfl <;> simp [truth]

/-- A flag: a number or an array with one element. -/
theorem truth_sm (hu : u ≠ []) {k : ℝ} (h : Sm u r True A.val (fun _ => k)) :
    truth (convert A) = some (open Classical in decide (k ≠ 0)) := by
  obtain ⟨L, hL, g, hv, hg⟩ := convert_sm hu h
  have hL := hL.2 trivial
  rw [hv]
  have hg := hg [0]
  match L, hL with
  | 0, _ => simp [truth, sh, pick] at hg ⊢; simp [hg]
  | 1, _ => simp [truth, sh, pick] at hg ⊢; simp [hg]

theorem sm_nonclean (hu : u ≠ []) (h1 : ∀ d ∈ u, d ≠ 1) (hA : Sm u r P A.val x)
    (hB : Sm u r Q B.val y) (hC : Sm u r S C.val q) (hD : Sm u r T D.val p)
    (hE : Sm u r U E.val o) (hF : Sm u r V F.val n) {k : ℝ}
    (hG : Sm u r True G.val (fun _ => k)) :
    ∃ L, (L ≤ 1 ↔ (P ∧ Q ∧ S ∧ T ∧ U ∧ V)) ∧ Rep u r (false, dn L)
      (Decorated.nonclean (ndBackend false) (Rec.airframe scalar ac) (Rec.polar scalar pol)
        A B C D E F G)
      (fun i => Drag.nonclean np ac pol (x i) (y i) (q i) (p i) (o i) (n i)
        (open Classical in decide (k ≠ 0))) := by
  refine call_sm hu h1 ?_ ?_
  · simp [not_symbolic_sm hA, not_symbolic_sm hB, not_symbolic_sm hC, not_symbolic_sm hD,
      not_symbolic_sm hE, not_symbolic_sm hF, not_symbolic_sm hG]
  · rw [truth_sm hu hG]
    dsimp only
    generalize (open Classical in decide (k ≠ 0)) = gear
    have kA := convert_sm hu hA
    have kB := convert_sm hu hB
    have kC := convert_sm hu hC
    have kD := convert_sm hu hD
    have kE := convert_sm hu hE
    have kF := convert_sm hu hF
    have kg : Sm u r True
        (if gear then Drag.gearCd (ndBackend false) (Rec.airframe scalar ac) else 0.0)
        (fun _ => if gear then Drag.gearCd np ac else 0.0) := by
      cases gear with
      | false => exact Sm.lit 0 true 1
      | true => exact ⟨0, by simp, rep_gearCd ac hu⟩
    obtain ⟨d, hd, kd⟩ := kD
    have k1 : Sm u r T (Drag.flapCd (ndBackend false) (Rec.polar scalar pol) (convert D))
        (fun i => Drag.flapCd np pol (p i)) := ⟨0 ⊔ d, by simpa using hd, rep_flapCd pol hu kd⟩
    have k2 : Sm u r T (Drag.flapK (ndBackend false) (Rec.airframe scalar ac)
        (Rec.polar scalar pol) (convert D))
        (fun i => Drag.flapK np ac pol (p i)) := ⟨d, hd, rep_flapK ac pol hu kd⟩
    have kc := Sm.add hu (Sm.add hu (Sm.scalar pol.cd0) k1) kg
    exact (sm_of_dn (sm_calcDrag ac (A := pass (convert A)) (B := pass (convert B))
      (C := pass (convert C)) (D := pass _) (E := pass _)
      (F := pass (convert E)) (G := pass (convert F)) hu h1 kA kB kC kc k2 kE
      kF)).congr (by tauto)

theorem sm_thrustTakeoff (hu : u ≠ []) (h1 : ∀ d ∈ u, d ≠ 1) (hA : Sm u r P A.val x)
    (hB : Sm u r Q B.val y) (hC : Sm u r S C.val q) :
    ∃ L, (L ≤ 1 ↔ (P ∧ Q ∧ S)) ∧ Rep u r (false, dn L)
      (Decorated.thrustTakeoff (ndBackend false) (Rec.thrust scalar en) A B C)
      (fun i => Thrust.takeoff np en (x i) (y i) (q i)) := by
  refine call_sm hu h1 ?_ ?_
  · simp [not_symbolic_sm hA, not_symbolic_sm hB, not_symbolic_sm hC]
  · obtain ⟨a, ha, kA⟩ := convert_sm hu hA
    obtain ⟨b, hb, kB⟩ := convert_sm hu hB
    obtain ⟨c, hc, kC⟩ := convert_sm hu hC
    exact ⟨0 ⊔ a ⊔ b ⊔ c, by simp only [sup_le_iff, ha, hb, hc]; simp [and_assoc],
      rep_takeoff en hu kA kB kC⟩

theorem sm_climb (hu : u ≠ []) (h1 : ∀ d ∈ u, d ≠ 1) (hA : Sm u r P A.val x)
    (hB : Sm u r Q B.val y) (hC : Sm u r S C.val q) (hD : Sm u r T D.val p) :
    ∃ L, (L ≤ 1 ↔ (P ∧ Q ∧ S ∧ T)) ∧ Rep u r (false, dn L)
      (Decorated.climb (ndBackend false) (Rec.thrust scalar en) A B C D)
      (fun i => Thrust.climb np en (x i) (y i) (q i) (p i)) := by
  refine call_sm hu h1 ?_ ?_
  · simp [not_symbolic_sm hA, not_symbolic_sm hB, not_symbolic_sm hC, not_symbolic_sm hD]
  · obtain ⟨a, ha, kA⟩ := convert_sm hu hA
    obtain ⟨b, hb, kB⟩ := convert_sm hu hB
    obtain ⟨c, hc, kC⟩ := convert_sm hu hC
    obtain ⟨d, hd, kD⟩ := convert_sm hu hD
    exact ⟨0 ⊔ a ⊔ b ⊔ c ⊔ d, by simp only [sup_le_iff, ha, hb, hc, hd]; simp [and_assoc],
      rep_climb en hu kA kB kC kD⟩

theorem sm_cruise (hu : u ≠ []) (h1 : ∀ d ∈ u, d ≠ 1) (hA : Sm u r P A.val x)
    (hB : Sm u r Q B.val y) (hC : Sm u r S C.val q) :
    ∃ L, (L ≤ 1 ↔ (P ∧ Q ∧ S)) ∧ Rep u r (false, dn L)
      (Decorated.cruise (ndBackend false) (Rec.thrust scalar en) A B C)
      (fun i => Thrust.cruise np en (x i) (y i) (q i)) := by
  refine call_sm hu h1 ?_ ?_
  · simp [not_symbolic_sm hA, not_symbolic_sm hB, not_symbolic_sm hC]
  · exact (sm_of_dn (sm_climb en (A := pass (convert A)) (B := pass (convert B))
      (C := pass 0.0) (D := pass (convert C)) hu h1 (convert_sm hu hA) (convert_sm hu hB)
      (Sm.lit 0 true 1) (convert_sm hu hC))).congr (by tauto)

theorem sm_descentIdle (hu : u ≠ []) (h1 : ∀ d ∈ u, d ≠ 1) (hA : Sm u r P A.val x)
    (hB : Sm u r Q B.val y) (hC : Sm u r S C.val q) :
    ∃ L, (L ≤ 1 ↔ (P ∧ Q ∧ S)) ∧ Rep u r (false, dn L)
      (Decorated.descentIdle (ndBackend false) (Rec.thrust scalar en) A B C)
      (fun i => Thrust.descentIdle np en (x i) (y i) (q i)) := by
  obtain ⟨L, hL, h⟩ := sm_thrustTakeoff en (A := pass A.val) (B := pass B.val)
    (C := pass C.val) hu h1 hA hB hC
  exact ⟨L, hL, (Rep.mul hu (Rep.lit 7 true 2) h).cast (by simp)⟩

theorem sm_atThrust (hu : u ≠ []) (h1 : ∀ d ∈ u, d ≠ 1) (hA : Sm u r P A.val x) :
    ∃ L, (L ≤ 1 ↔ P) ∧ Rep u r (false, dn L)
      (Decorated.atThrust (ndBackend false) (Rec.fuel scalar f) A)
      (fun i => Fuel.atThrust np f (x i)) := by
  refine call_sm hu h1 ?_ ?_
  · simp [not_symbolic_sm hA]
  · obtain ⟨a, ha, kA⟩ := convert_sm hu hA
    exact ⟨0 ⊔ a, by simpa using ha, rep_atThrust f hu kA⟩

theorem sm_fuelTakeoff (hu : u ≠ []) (h1 : ∀ d ∈ u, d ≠ 1) (hA : Sm u r P A.val x)
    (hB : Sm u r Q B.val y) (hC : Sm u r S C.val q) :
    ∃ L, (L ≤ 1 ↔ (P ∧ Q ∧ S)) ∧ Rep u r (false, dn L)
      (Decorated.fuelTakeoff (ndBackend false) (Rec.thrust scalar en) (Rec.fuel scalar f) A B C)
      (fun i => Fuel.takeoff np f en (x i) (y i) (q i)) := by
  refine call_sm hu h1 ?_ ?_
  · simp [not_symbolic_sm hA, not_symbolic_sm hB, not_symbolic_sm hC]
  · have k1 := sm_of_dn (sm_thrustTakeoff en (A := pass (convert A)) (B := pass (convert B))
      (C := ⟨0.0, false⟩) hu h1 (convert_sm hu hA) (convert_sm hu hB) (Sm.lit 0 true 1))
    have k2 := sm_of_dn (sm_atThrust f (A := pass _) hu h1 k1)
    exact (Sm.mul hu (convert_sm hu hC) k2).congr (by tauto)

theorem sm_enroute (hu : u ≠ []) (h1 : ∀ d ∈ u, d ≠ 1) (wave limit : Bool)
    (hA : Sm u r P A.val x) (hB : Sm u r Q B.val y) (hC : Sm u r S C.val q)
    (hD : Sm u r T D.val p) (hE : Sm u r U E.val o) (hF : Sm u r V F.val n)
    (hG : Sm u r W G.val l) :
    ∃ L, (L ≤ 1 ↔ (P ∧ Q ∧ S ∧ T ∧ U ∧ V)) ∧ Rep u r (false, dn L)
      (Decorated.enroute (ndBackend false) (Rec.airframe scalar ac) (Rec.polar scalar pol)
        (Rec.fuel scalar f) wave A B C D E F G)
      (fun i => Fuel.enroute np f ac pol wave (x i) (y i) (q i) (p i) (o i) (n i) limit) := by
  refine call_sm hu h1 ?_ ?_
  · simp [not_symbolic_sm hA, not_symbolic_sm hB, not_symbolic_sm hC, not_symbolic_sm hD,
      not_symbolic_sm hE, not_symbolic_sm hF, not_symbolic_sm hG]
  · have kA := convert_sm hu hA
    have kB := convert_sm hu hB
    have kC := convert_sm hu hC
    have kD := convert_sm hu hD
    have kE := convert_sm hu hE
    have kF := convert_sm hu hF
    have k1 := sm_of_dn (sm_clean ac pol (A := pass (convert A)) (B := pass (convert B))
      (C := pass (convert C)) (D := pass (convert D)) (E := pass (convert F)) hu h1 wave
      kA kB kC kD kF)
    have k2 := Sm.sin (Sm.arctan2 hu (Sm.mul hu kD (Sm.lit 508 true 5))
      (Sm.mul hu kB (Sm.lit 514444 true 6)))
    have k3 := Sm.add hu (Sm.add hu k1 (Sm.mul hu (Sm.mul hu kA (Sm.lit 981 true 2)) k2))
      (Sm.mul hu kA kE)
    exact (sm_of_dn (sm_atThrust f (A := pass _) hu h1 k3)).congr (by tauto)

theorem sm_times (hu : u ≠ []) (h1 : ∀ d ∈ u, d ≠ 1) (m : ℕ) (s : Bool) (e : ℕ)
    (hA : Sm u r P A.val x) :
    ∃ L, (L ≤ 1 ↔ P) ∧ Rep u r (false, dn L)
      (call [A] fun c => c A * OfScientific.ofScientific m s e)
      (fun i => x i * OfScientific.ofScientific m s e) := by
  refine call_sm hu h1 ?_ ?_
  · simp [not_symbolic_sm hA]
  · exact (Sm.mul hu (convert_sm hu hA) (Sm.lit m s e)).congr (by simp)

section
variable {b : Arg → Arg → Arg → Arg → Nd} {g : ℝ → ℝ → ℝ → ℝ → ℝ}

theorem sm_species (hu : u ≠ []) (h1 : ∀ d ∈ u, d ≠ 1) (hA : Sm u r P A.val x)
    (hB : Sm u r Q B.val y) (hC : Sm u r S C.val q) (hD : Sm u r T D.val p) :
    (∃ L, (L ≤ 1 ↔ (P ∧ Q ∧ S ∧ T)) ∧ Rep u r (false, dn L)
      (Decorated.nox (ndBackend false) (Rec.emission scalar em) A B C D)
      (fun i => Emission.nox np em (x i) (y i) (q i) (p i))) ∧
    (∃ L, (L ≤ 1 ↔ (P ∧ Q ∧ S ∧ T)) ∧ Rep u r (false, dn L)
      (Decorated.co (ndBackend false) (Rec.emission scalar em) A B C D)
      (fun i => Emission.co np em (x i) (y i) (q i) (p i))) ∧
    (∃ L, (L ≤ 1 ↔ (P ∧ Q ∧ S ∧ T)) ∧ Rep u r (false, dn L)
      (Decorated.hc (ndBackend false) (Rec.emission scalar em) A B C D)
      (fun i => Emission.hc np em (x i) (y i) (q i) (p i))) := by
  have hs : ∀ X ∈ [A, B, C, D], symbolic X = false := by
    simp [not_symbolic_sm hA, not_symbolic_sm hB, not_symbolic_sm hC, not_symbolic_sm hD]
  obtain ⟨a, ha, kA⟩ := convert_sm hu hA
  obtain ⟨b, hb, kB⟩ := convert_sm hu hB
  obtain ⟨c, hc, kC⟩ := convert_sm hu hC
  obtain ⟨d, hd, kD⟩ := convert_sm hu hD
  have hl : 0 ⊔ a ⊔ b ⊔ c ⊔ d ≤ 1 ↔ (P ∧ Q ∧ S ∧ T) := by
    simp only [sup_le_iff, ha, hb, hc, hd]; simp [and_assoc]
  refine ⟨call_sm hu h1 hs ⟨_, hl, rep_nox em hu kA kB kC kD⟩,
    call_sm hu h1 hs ⟨_, hl, rep_co em hu kA kB kC kD⟩,
    call_sm hu h1 hs ⟨_, hl, rep_hc em hu kA kB kC kD⟩⟩
end

/-! ## From and to the specification -/

theorem sm_operand (h1 : ∀ d ∈ u, d ≠ 1) {fl : Bool} (h : Operand u r A fl x) :
    ∃ x', Sm u r (fl = false) A.val x' ∧ ∀ i, i.length = u.length → x' i = x i := by
  cases h with
  | number k given => exact ⟨_, (Sm.scalar k).congr (by simp), fun _ _ => rfl⟩
  | single g => exact ⟨_, ⟨1, by simp, g, rfl, fun i => rfl⟩, fun i _ => by simp [sh, pick]⟩
  | array g => exact ⟨fun i => g (pick (u ++ List.replicate r 1) i),
      ⟨3, by simp, g, rfl, fun i => rfl⟩, fun i hi => by simp only [pick_self r i h1 hi]⟩

/-- A flag is the same at every index. -/
theorem sm_flag (h : Operand u r A false x) : ∃ k, Sm u r True A.val (fun _ => k) ∧
    ∀ i, x i = k := by
  cases h with
  | number k given => exact ⟨k, Sm.scalar k, fun _ => rfl⟩
  | single g => exact ⟨g [0], ⟨1, by simp, g, rfl, fun i => by simp [sh, pick]⟩, fun i => rfl⟩

theorem elementwise_of (h1 : ∀ d ∈ u, d ≠ 1) {fl : Bool} {v : Nd} {x x' : List ℕ → ℝ}
    (h : ∃ L, (L ≤ 1 ↔ P) ∧ Rep u r (false, dn L) v x') (hP : P ↔ fl = false)
    (hx : ∀ i, i.length = u.length → x' i = x i) : Elementwise u fl v x := by
  obtain ⟨L, hL, g, rfl, hg⟩ := h
  rw [hP] at hL
  cases fl with
  | false =>
    have : L ≤ 1 := by simpa using hL
    simp only [dn, this, if_true, sh] at hg ⊢
    refine ⟨g, rfl, fun i hi => ?_⟩
    rw [← hx i hi]
    exact (hg i).symm
  | true =>
    have : ¬ L ≤ 1 := by simpa using hL
    simp only [dn, this, if_false, sh] at hg ⊢
    refine ⟨g, rfl, fun i hi => ?_⟩
    have := hg i
    have e : pick u i = i := by simpa using pick_self 0 i h1 hi
    rw [e] at this
    rw [this, hx i hi]

end Verif.Shaped
