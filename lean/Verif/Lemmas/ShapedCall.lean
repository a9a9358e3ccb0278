import Verif.Lemmas.ShapedPerf
import Verif.Spec.Shapes

/-!
# The decorator and the decorated methods, NumPy backend
-/

namespace Verif.Shaped
open Verif.Nd Verif.Decorated Verif.Aero Verif.Spec

variable {u : List ℕ} {r : ℕ}

theorem prod_ne_one : ∀ {s : List ℕ}, (∀ d ∈ s, d ≠ 1) → s ≠ [] → s.prod ≠ 1
  | d :: s, h, _ => by
    intro hp
    rw [List.prod_cons] at hp
    exact h d (by simp) (Nat.eq_one_of_mul_eq_one_right hp)

theorem filter_ones : ∀ {s : List ℕ} (n : ℕ), (∀ d ∈ s, d ≠ 1) →
    (s ++ List.replicate n 1).filter (· ≠ 1) = s
  | [], n, _ => by simp
  | d :: s, n, h => by
    have hd := h d (by simp)
    have := filter_ones (s := s) n (fun e he => h e (by simp [he]))
    simpa [hd] using this

theorem unsqueeze_ones : ∀ (n : ℕ) (i : List ℕ),
    unsqueeze (List.replicate n 1) i = List.replicate n 0
  | 0, _ => rfl
  | n + 1, i => by simp [List.replicate_succ, unsqueeze, unsqueeze_ones n]

theorem pick_ones : ∀ (n : ℕ) (i : List ℕ), pick (List.replicate n 1) i = List.replicate n 0
  | 0, _ => rfl
  | n + 1, i => by simp [List.replicate_succ, pick, pick_ones n]

theorem unsqueeze_pick : ∀ {s : List ℕ} (n : ℕ) (i : List ℕ), (∀ d ∈ s, d ≠ 1) →
    unsqueeze (s ++ List.replicate n 1) (pick s i) = pick (s ++ List.replicate n 1) i
  | [], n, i, _ => by simp [unsqueeze_ones, pick_ones]
  | d :: s, n, i, h => by
    have hd := h d (by simp)
    have := unsqueeze_pick n i.tail (fun e he => h e (List.mem_cons_of_mem _ he))
    simp [unsqueeze, pick, hd, this]

theorem pick_self : ∀ {s : List ℕ} (n : ℕ) (i : List ℕ), (∀ d ∈ s, d ≠ 1) →
    i.length = s.length → pick (s ++ List.replicate n 1) i = i ++ List.replicate n 0
  | [], n, i, _, hl => by
    have : i = [] := List.eq_nil_of_length_eq_zero (by simpa using hl)
    simp [this, pick_ones]
  | d :: s, n, [], _, hl => by simp at hl
  | d :: s, n, k :: i, h, hl => by
    have hd := h d (by simp)
    have := pick_self n i (fun e he => h e (List.mem_cons_of_mem _ he)) (by simpa using hl)
    simp [pick, hd, this]

/-- Level after the decorator. -/
def dn (L : ℕ) : ℕ := if L ≤ 1 then 0 else 2

theorem dn_le {L : ℕ} : dn L ≤ 1 ↔ L ≤ 1 := by unfold dn; split_ifs <;> omega

theorem toScalar_rep (hu : u ≠ []) (h1 : ∀ d ∈ u, d ≠ 1) {L : ℕ} {v : Nd} {x : List ℕ → ℝ}
    (h : Rep u r (false, L) v x) : Rep u r (false, dn L) (Option.map toScalar v) x := by
  obtain ⟨g, rfl, hg⟩ := h
  dsimp only at hg ⊢
  have big : ∀ n, (∀ i, g (pick (u ++ List.replicate n 1) i) = x i) →
      Rep u r (false, 2)
        (Option.map toScalar (some ⟨false, u ++ List.replicate n 1, g⟩)) x := by
    intro n hx
    have hp : (u ++ List.replicate n 1).prod ≠ 1 := by
      simpa using prod_ne_one h1 hu
    by_cases hl : 1 < (u ++ List.replicate n 1).length
    · refine ⟨fun i => g (unsqueeze (u ++ List.replicate n 1) i), ?_, fun i => ?_⟩
      · simp only [Option.map_some, toScalar, Bool.false_eq_true, if_false, hp, hl, if_true]
        rw [filter_ones n h1]
        rfl
      · change g (unsqueeze (u ++ List.replicate n 1) (pick u i)) = x i
        rw [unsqueeze_pick n i h1, hx]
    · have hn : n = 0 := by
        have := List.length_pos_iff.2 hu
        simp only [List.length_append, List.length_replicate] at hl
        omega
      subst hn
      refine ⟨g, ?_, fun i => ?_⟩
      · simp only [Option.map_some, toScalar, Bool.false_eq_true, if_false, hp, hl]
        simp [sh]
      · simpa [sh] using hx i
  match L with
  | 0 => exact ⟨fun _ => g [], by simp [toScalar, sh, dn], fun i => by simpa [sh, pick, dn] using hg i⟩
  | 1 => exact ⟨fun _ => g [0], by simp [toScalar, sh, dn], fun i => by simpa [sh, pick, dn] using hg i⟩
  | 2 => have := big 0 (by simpa [sh] using hg); simpa [sh, dn] using this
  | L + 3 => simpa [sh, dn] using big r (by simpa [sh] using hg)

/-- `v` is NumPy's, has elements `x`, and has one element iff `P`. -/
def Sm (u : List ℕ) (r : ℕ) (P : Prop) (v : Nd) (x : List ℕ → ℝ) : Prop :=
  ∃ L, (L ≤ 1 ↔ P) ∧ Rep u r (false, L) v x

theorem convert_sm (hu : u ≠ []) {P : Prop} {A : Arg} {x : List ℕ → ℝ} (h : Sm u r P A.val x) :
    Sm u r P (convert A) x := by
  obtain ⟨L, hP, g, hv, hg⟩ := h
  obtain ⟨val, given⟩ := A
  simp only at hv
  subst hv
  obtain ⟨d, s, rfl⟩ := List.exists_cons_of_ne_nil hu
  cases given with
  | false => exact ⟨L, hP, g, by simp [convert], hg⟩
  | true =>
    match L, hP, hg with
    | 0, hP, hg =>
      exact ⟨1, by simpa using hP, fun _ => g [], by simp [convert, sh],
        fun i => by simpa [sh, pick] using hg i⟩
    | 1, hP, hg => exact ⟨1, hP, g, by simp [convert, sh], hg⟩
    | 2, hP, hg => exact ⟨2, hP, g, by simp [convert, sh], hg⟩
    | L + 3, hP, hg => exact ⟨L + 3, hP, g, by simp [convert, sh], hg⟩

theorem not_symbolic_sm {P : Prop} {A : Arg} {x : List ℕ → ℝ} (h : Sm u r P A.val x) :
    symbolic A = false := by
  obtain ⟨L, hP, g, hv, hg⟩ := h
  simp [symbolic, hv]

theorem Sm.of {P : Prop} {L : ℕ} {v : Nd} {x : List ℕ → ℝ} (h : Rep u r (false, L) v x)
    (e : L ≤ 1 ↔ P) : Sm u r P v x := ⟨L, e, h⟩

theorem Sm.congr {P Q : Prop} {v : Nd} {x : List ℕ → ℝ} (h : Sm u r P v x)
    (e : P ↔ Q) : Sm u r Q v x := by
  obtain ⟨L, hL, h⟩ := h
  exact ⟨L, hL.trans e, h⟩

theorem Sm.scalar (k : ℝ) : Sm u r True (Nd.scalar k) (fun _ => k) :=
  ⟨0, by simp, Rep.scalar k⟩

theorem Sm.lit (m : ℕ) (s : Bool) (e : ℕ) : Sm u r True (OfScientific.ofScientific m s e)
    (fun _ => OfScientific.ofScientific m s e) := Sm.scalar _

section
variable {P Q : Prop} {v w : Nd} {x y : List ℕ → ℝ}

theorem Sm.add (hu : u ≠ []) (h : Sm u r P v x) (k : Sm u r Q w y) :
    Sm u r (P ∧ Q) (v + w) (fun i => x i + y i) := by
  obtain ⟨L, hL, h⟩ := h
  obtain ⟨K, hK, k⟩ := k
  exact ⟨L ⊔ K, by rw [sup_le_iff, hL, hK], Rep.add hu h k⟩
theorem Sm.sub (hu : u ≠ []) (h : Sm u r P v x) (k : Sm u r Q w y) :
    Sm u r (P ∧ Q) (v - w) (fun i => x i - y i) := by
  obtain ⟨L, hL, h⟩ := h
  obtain ⟨K, hK, k⟩ := k
  exact ⟨L ⊔ K, by rw [sup_le_iff, hL, hK], Rep.sub hu h k⟩
theorem Sm.mul (hu : u ≠ []) (h : Sm u r P v x) (k : Sm u r Q w y) :
    Sm u r (P ∧ Q) (v * w) (fun i => x i * y i) := by
  obtain ⟨L, hL, h⟩ := h
  obtain ⟨K, hK, k⟩ := k
  exact ⟨L ⊔ K, by rw [sup_le_iff, hL, hK], Rep.mul hu h k⟩
theorem Sm.pow (n : ℕ) (h : Sm u r P v x) : Sm u r P (v ^ n) (fun i => x i ^ n) := by
  obtain ⟨L, hL, h⟩ := h
  exact ⟨L, hL, Rep.pow n h⟩
theorem Sm.sin (h : Sm u r P v x) : Sm u r P ((ndBackend false).sin v) (fun i => np.sin (x i)) := by
  obtain ⟨L, hL, h⟩ := h
  exact ⟨0 ⊔ L, by simpa using hL, Rep.sin h⟩
theorem Sm.maximum (hu : u ≠ []) (h : Sm u r P v x) (k : Sm u r Q w y) :
    Sm u r (P ∧ Q) ((ndBackend false).maximum v w) (fun i => np.maximum (x i) (y i)) := by
  obtain ⟨L, hL, h⟩ := h
  obtain ⟨K, hK, k⟩ := k
  exact ⟨0 ⊔ L ⊔ K, by rw [sup_le_iff, sup_le_iff, hL, hK]; simp, Rep.maximum hu h k⟩
theorem Sm.arctan2 (hu : u ≠ []) (h : Sm u r P v x) (k : Sm u r Q w y) :
    Sm u r (P ∧ Q) ((ndBackend false).arctan2 v w) (fun i => np.arctan2 (x i) (y i)) := by
  obtain ⟨L, hL, h⟩ := h
  obtain ⟨K, hK, k⟩ := k
  exact ⟨0 ⊔ L ⊔ K, by rw [sup_le_iff, sup_le_iff, hL, hK]; simp, Rep.arctan2 hu h k⟩
end

/-- The decorator around a body that computes element by element. -/
theorem call_sm (hu : u ≠ []) (h1 : ∀ d ∈ u, d ≠ 1) {P : Prop} {args : List Arg}
    {body : (Arg → Nd) → Nd} {x : List ℕ → ℝ} (ha : ∀ A ∈ args, symbolic A = false)
    (hb : Sm u r P (body convert) x) :
    ∃ L, (L ≤ 1 ↔ P) ∧ Rep u r (false, dn L) (call args body) x := by
  obtain ⟨L, hL, h⟩ := hb
  refine ⟨L, hL, ?_⟩
  have : args.any symbolic = false := by
    rw [List.any_eq_false]
    simpa using ha
  simp only [call, this, Bool.false_eq_true, if_false]
  exact toScalar_rep hu h1 h

theorem sm_of_dn {P : Prop} {v : Nd} {x : List ℕ → ℝ}
    (h : ∃ L, (L ≤ 1 ↔ P) ∧ Rep u r (false, dn L) v x) : Sm u r P v x := by
  obtain ⟨L, hL, h⟩ := h
  exact ⟨dn L, dn_le.trans hL, h⟩

/-! ## The methods -/

section
variable (ac : Drag.Airframe ℝ) (pol : Drag.Polar ℝ) (en : Thrust.Params ℝ) (f : Fuel.Params ℝ)
  (em : Emission.Params ℝ)
variable {P Q S T U V W : Prop} {A B C D E F G : Arg} {x y q p o n l : List ℕ → ℝ}

theorem sm_cl (hu : u ≠ []) (h1 : ∀ d ∈ u, d ≠ 1) (hA : Sm u r P A.val x) (hB : Sm u r Q B.val y)
    (hC : Sm u r S C.val q) (hD : Sm u r T D.val p) (hE : Sm u r U E.val o) :
    Sm u r (P ∧ Q ∧ S ∧ T ∧ U)
      (Decorated.cl (ndBackend false) (Rec.airframe scalar ac) A B C D E).1
      (fun i => (Drag.cl np ac (x i) (y i) (q i) (p i) (o i)).1) ∧
    Sm u r (Q ∧ S ∧ U)
      (Decorated.cl (ndBackend false) (Rec.airframe scalar ac) A B C D E).2
      (fun i => (Drag.cl np ac (x i) (y i) (q i) (p i) (o i)).2) := by
  have hs : [A, B, C, D, E].any symbolic = false := by
    simp [not_symbolic_sm hA, not_symbolic_sm hB, not_symbolic_sm hC, not_symbolic_sm hD,
      not_symbolic_sm hE]
  obtain ⟨a, ha, kA⟩ := convert_sm hu hA
  obtain ⟨b, hb, kB⟩ := convert_sm hu hB
  obtain ⟨c, hc, kC⟩ := convert_sm hu hC
  obtain ⟨d, hd, kD⟩ := convert_sm hu hD
  obtain ⟨e, he, kE⟩ := convert_sm hu hE
  obtain ⟨r1, r2⟩ := rep_cl ac (j := false) hu kA kB kC kD kE
  simp only [Decorated.cl, callPair, hs, Bool.false_eq_true, if_false]
  have r1' : Rep u r (false, 0 ⊔ a ⊔ b ⊔ c ⊔ d ⊔ e) _ _ := r1
  have r2' : Rep u r (false, 0 ⊔ b ⊔ c ⊔ e) _ _ := r2
  refine ⟨⟨_, ?_, toScalar_rep hu h1 r1'⟩, ⟨_, ?_, toScalar_rep hu h1 r2'⟩⟩
  · rw [dn_le]
    simp only [sup_le_iff, ha, hb, hc, hd, he, Nat.zero_le, true_and, and_assoc]
  · rw [dn_le]
    simp only [sup_le_iff, hb, hc, he, Nat.zero_le, true_and, and_assoc]

theorem sm_calcDrag (hu : u ≠ []) (h1 : ∀ d ∈ u, d ≠ 1) (hA : Sm u r P A.val x)
    (hB : Sm u r Q B.val y) (hC : Sm u r S C.val q) (hD : Sm u r T D.val p)
    (hE : Sm u r U E.val o) (hF : Sm u r V F.val n) (hG : Sm u r W G.val l) :
    ∃ L, (L ≤ 1 ↔ (P ∧ Q ∧ S ∧ T ∧ U ∧ V ∧ W)) ∧ Rep u r (false, dn L)
      (Decorated.calcDrag (ndBackend false) (Rec.airframe scalar ac) A B C D E F G)
      (fun i => Drag.calcDrag np ac (x i) (y i) (q i) (p i) (o i) (n i) (l i)) := by
  refine call_sm hu h1 ?_ ?_
  · simp [not_symbolic_sm hA, not_symbolic_sm hB, not_symbolic_sm hC, not_symbolic_sm hD,
      not_symbolic_sm hE, not_symbolic_sm hF, not_symbolic_sm hG]
  · obtain ⟨k1, k2⟩ := sm_cl ac (A := pass (convert A)) (B := pass (convert B))
      (C := pass (convert C)) (D := pass (convert F)) (E := pass (convert G)) hu h1
      (convert_sm hu hA) (convert_sm hu hB) (convert_sm hu hC) (convert_sm hu hF)
      (convert_sm hu hG)
    exact (Sm.mul hu (Sm.add hu (convert_sm hu hD) (Sm.mul hu (convert_sm hu hE)
      (Sm.pow 2 k1))) k2).congr (by tauto)

theorem sm_waveDrag (hu : u ≠ []) (h1 : ∀ d ∈ u, d ≠ 1) {v w z s : Nd} (hA : Sm u r P v x)
    (hB : Sm u r Q w y) (hC : Sm u r S z q) (hD : Sm u r T s p) :
    Sm u r (P ∧ Q ∧ S ∧ T)
      (Decorated.waveDrag (ndBackend false) (Rec.airframe scalar ac) v w z s)
      (fun i => Drag.waveDrag np ac (x i) (y i) (q i) (p i)) := by
  obtain ⟨k1, -⟩ := sm_cl ac (A := pass v) (B := pass w) (C := pass z) (D := ⟨0.0, false⟩)
    (E := pass s) hu h1 hA hB hC (Sm.lit 0 true 1) hD
  obtain ⟨a, ha, k1⟩ := k1
  have k2 : Sm u r (P ∧ Q ∧ S ∧ T) (Drag.machCrit (ndBackend false) (Rec.airframe scalar ac)
      (Decorated.cl (ndBackend false) (Rec.airframe scalar ac) (pass v) (pass w) (pass z)
        ⟨0.0, false⟩ (pass s)).1)
      (fun i => Drag.machCrit np ac (Drag.cl np ac (x i) (y i) (q i) 0.0 (p i)).1) :=
    ⟨0 ⊔ a, by simp [ha], rep_machCrit ac hu k1⟩
  obtain ⟨b, hb, kB⟩ := Sm.mul hu hB (Sm.lit (u := u) (r := r) 514444 true 6)
  obtain ⟨c, hc, kC⟩ := Sm.mul hu hC (Sm.lit (u := u) (r := r) 3048 true 4)
  obtain ⟨d, hd, kD⟩ := hD
  have k3 : Sm u r (Q ∧ S ∧ T) (tas2mach (ndBackend false) (w * kts) (z * ft) s)
      (fun i => tas2mach np (y i * kts) (q i * ft) (p i)) :=
    ⟨0 ⊔ b ⊔ c ⊔ d, by simp only [sup_le_iff, hb, hc, hd]; simp; tauto,
      rep_tas2mach hu kB kC kD⟩
  exact (Sm.mul hu (Sm.lit 200 true 1) (Sm.pow 4 (Sm.maximum hu (Sm.sub hu k3 k2)
    (Sm.lit 0 true 1)))).congr (by tauto)

theorem sm_clean (hu : u ≠ []) (h1 : ∀ d ∈ u, d ≠ 1) (wave : Bool) (hA : Sm u r P A.val x)
    (hB : Sm u r Q B.val y) (hC : Sm u r S C.val q) (hD : Sm u r T D.val p)
    (hE : Sm u r U E.val o) :
    ∃ L, (L ≤ 1 ↔ (P ∧ Q ∧ S ∧ T ∧ U)) ∧ Rep u r (false, dn L)
      (Decorated.clean (ndBackend false) (Rec.airframe scalar ac) (Rec.polar scalar pol) wave
        A B C D E)
      (fun i => Drag.clean np ac pol wave (x i) (y i) (q i) (p i) (o i)) := by
  refine call_sm hu h1 ?_ ?_
  · simp [not_symbolic_sm hA, not_symbolic_sm hB, not_symbolic_sm hC, not_symbolic_sm hD,
      not_symbolic_sm hE]
  · have kA := convert_sm hu hA
    have kB := convert_sm hu hB
    have kC := convert_sm hu hC
    have kD := convert_sm hu hD
    have kE := convert_sm hu hE
    have kw : Sm u r ((P ∧ Q ∧ S ∧ U) ∨ wave = false)
        (if wave then Decorated.waveDrag (ndBackend false) (Rec.airframe scalar ac) (convert A)
          (convert B) (convert C) (convert E) else 0.0)
        (fun i => if wave then Drag.waveDrag np ac (x i) (y i) (q i) (o i) else 0.0) := by
      cases wave with
      | false => exact (Sm.lit 0 true 1).congr (by simp)
      | true => exact (sm_waveDrag ac hu h1 kA kB kC kE).congr (by simp)
    have kc := Sm.add hu (Sm.scalar pol.cd0) kw
    exact (sm_of_dn (sm_calcDrag ac (A := pass (convert A)) (B := pass (convert B))
      (C := pass (convert C)) (D := pass _) (E := pass (Nd.scalar pol.k))
      (F := pass (convert D)) (G := pass (convert E)) hu h1 kA kB kC kc (Sm.scalar pol.k) kD
      kE)).congr (by tauto)

end

end Verif.Shaped
