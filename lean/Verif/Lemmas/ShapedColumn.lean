import Verif.Lemmas.ShapedMethods

/-!
# Columns given to decorated methods that call decorated methods

A column `(n, 1)` loses its last axis when it comes back from an inner decorated call. Combined
with the columns of the outer call it becomes an `n × n` matrix.
-/

namespace Verif.Shaped
open Verif.Nd Verif.Decorated Verif.Aero Verif.Spec

variable {n : ℕ}
variable {P Q S T U V W : Prop} {A B C D E F G : Arg} {x y q p o l m : List ℕ → ℝ}

theorem col_ne : ([1, n] : List ℕ) ≠ [] := by simp
theorem vec_ne : ([n] : List ℕ) ≠ [] := by simp
theorem mat_ne : ([n, n] : List ℕ) ≠ [] := by simp
theorem vec_no (hn : 2 ≤ n) : ∀ d ∈ [n], d ≠ 1 := by simp; omega
theorem mat_no (hn : 2 ≤ n) : ∀ d ∈ [n, n], d ≠ 1 := by simp; omega

theorem sm_full {u : List ℕ} {v : Nd} (h : Sm u 0 False v x) :
    ∃ g, v = some ⟨false, u, g⟩ ∧ ∀ i, g (pick u i) = x i := by
  obtain ⟨L, hL, g, rfl, hg⟩ := h
  match L, hL, hg with
  | 0, hL, _ => simp at hL
  | 1, hL, _ => simp at hL
  | 2, _, hg => exact ⟨g, rfl, hg⟩
  | L + 3, _, hg =>
    simp only [sh, List.replicate_zero, List.append_nil] at hg ⊢
    exact ⟨g, rfl, hg⟩

theorem sm_of_full {u : List ℕ} {v : Nd} {g : List ℕ → ℝ} (hv : v = some ⟨false, u, g⟩)
    (hg : ∀ i, g (pick u i) = x i) : Sm u 0 False v x := ⟨2, by simp, g, hv, hg⟩

theorem sm_single {u : List ℕ} {v : Nd} (h : Sm u 0 True v x) :
    ∃ k, (∀ i, x i = k) ∧ ∀ w, Sm w 0 True v (fun _ => k) := by
  obtain ⟨L, hL, g, rfl, hg⟩ := h
  have hL := hL.2 trivial
  match L, hL, hg with
  | 0, _, hg => exact ⟨g [], fun i => (hg i).symm, fun w => ⟨0, by simp, g, rfl, fun i => rfl⟩⟩
  | 1, _, hg =>
    exact ⟨g [0], fun i => by rw [← hg i]; simp [sh, pick], fun w => ⟨1, by simp, g, rfl,
      fun i => by simp [sh, pick]⟩⟩

theorem col_toScalar (hn : 2 ≤ n) {v : Nd} (h : Sm [1, n] 0 P v x) :
    Sm [n] 0 P (Option.map toScalar v) (fun i => x (0 :: i)) := by
  by_cases hP : P
  · obtain ⟨k, hk, hs⟩ := sm_single (h.congr (by simp [hP]))
    obtain ⟨L, hL, hr⟩ := hs [n]
    refine ⟨dn L, by rw [dn_le, hL]; simp [hP], ?_⟩
    have := toScalar_rep vec_ne (vec_no hn) hr
    simpa [hk] using this
  · obtain ⟨g, rfl, hg⟩ := sm_full (h.congr (by simp [hP]))
    have h1 : n ≠ 1 := by omega
    refine (sm_of_full (g := fun i => g (0 :: i.headD 0 :: [])) ?_ ?_).congr (by simp [hP])
    · simp [toScalar, unsqueeze, h1]
    · intro i
      rw [← hg]
      simp [pick, h1]

variable (ac : Drag.Airframe ℝ) (pol : Drag.Polar ℝ) (en : Thrust.Params ℝ) (f : Fuel.Params ℝ)

theorem col_cl (hn : 2 ≤ n) (hA : Sm [1, n] 0 P A.val x) (hB : Sm [1, n] 0 Q B.val y)
    (hC : Sm [1, n] 0 S C.val q) (hD : Sm [1, n] 0 T D.val p) (hE : Sm [1, n] 0 U E.val o) :
    Sm [n] 0 (P ∧ Q ∧ S ∧ T ∧ U)
      (Decorated.cl (ndBackend false) (Rec.airframe scalar ac) A B C D E).1
      (fun i => (Drag.cl np ac (x (0 :: i)) (y (0 :: i)) (q (0 :: i)) (p (0 :: i))
        (o (0 :: i))).1) ∧
    Sm [n] 0 (Q ∧ S ∧ U)
      (Decorated.cl (ndBackend false) (Rec.airframe scalar ac) A B C D E).2
      (fun i => (Drag.cl np ac (x (0 :: i)) (y (0 :: i)) (q (0 :: i)) (p (0 :: i))
        (o (0 :: i))).2) := by
  have hu : ([1, n] : List ℕ) ≠ [] := col_ne
  have hs : [A, B, C, D, E].any symbolic = false := by
    simp [not_symbolic_sm hA, not_symbolic_sm hB, not_symbolic_sm hC, not_symbolic_sm hD,
      not_symbolic_sm hE]
  obtain ⟨a, ha, kA⟩ := convert_sm hu hA
  obtain ⟨b, hb, kB⟩ := convert_sm hu hB
  obtain ⟨c, hc, kC⟩ := convert_sm hu hC
  obtain ⟨d, hd, kD⟩ := convert_sm hu hD
  obtain ⟨e, he, kE⟩ := convert_sm hu hE
  obtain ⟨r1, r2⟩ := rep_cl ac (j := false) hu kA kB kC kD kE
  simp only [Decorated.cl, callPair, hs, Bool.false_eq_true, if_false]
  have r1' : Rep [1, n] 0 (false, 0 ⊔ a ⊔ b ⊔ c ⊔ d ⊔ e) _ _ := r1
  have r2' : Rep [1, n] 0 (false, 0 ⊔ b ⊔ c ⊔ e) _ _ := r2
  refine ⟨col_toScalar hn ⟨_, ?_, r1'⟩, col_toScalar hn ⟨_, ?_, r2'⟩⟩
  · simp only [sup_le_iff, ha, hb, hc, hd, he, Nat.zero_le, true_and, and_assoc]
  · simp only [sup_le_iff, hb, hc, he, Nat.zero_le, true_and, and_assoc]

/-- A number as an argument. -/
theorem sm_number {u : List ℕ} (hu : u ≠ []) (k : ℝ) :
    Sm u 0 True (convert (pass (Nd.scalar k))) (fun _ => k) :=
  convert_sm hu (A := pass (Nd.scalar k)) (Sm.scalar k)

theorem col_calcDrag (hn : 2 ≤ n) {k l : ℝ} (hA : Sm [1, n] 0 P A.val x)
    (hB : Sm [1, n] 0 Q B.val y) (hC : Sm [1, n] 0 S C.val q)
    (hD : ∀ u, Sm u 0 True D.val (fun _ => k))
    (hE : ∀ u, Sm u 0 True E.val (fun _ => l)) (hF : Sm [1, n] 0 V F.val p)
    (hG : Sm [1, n] 0 W G.val o) :
    ∃ L, (L ≤ 1 ↔ (P ∧ Q ∧ S ∧ V ∧ W)) ∧ Rep [n] 0 (false, dn L)
      (Decorated.calcDrag (ndBackend false) (Rec.airframe scalar ac) A B C D E F G)
      (fun i => Drag.calcDrag np ac (x (0 :: i)) (y (0 :: i)) (q (0 :: i)) k l (p (0 :: i))
        (o (0 :: i))) := by
  refine call_sm vec_ne (vec_no hn) ?_ ?_
  · simp [not_symbolic_sm hA, not_symbolic_sm hB, not_symbolic_sm hC, not_symbolic_sm (hD [1]),
      not_symbolic_sm (hE [1]), not_symbolic_sm hF, not_symbolic_sm hG]
  · obtain ⟨k1, k2⟩ := col_cl ac (A := pass (convert A)) (B := pass (convert B))
      (C := pass (convert C)) (D := pass (convert F)) (E := pass (convert G)) hn
      (convert_sm col_ne hA) (convert_sm col_ne hB) (convert_sm col_ne hC)
      (convert_sm col_ne hF) (convert_sm col_ne hG)
    exact (Sm.mul vec_ne (Sm.add vec_ne (convert_sm vec_ne (hD [n]))
      (Sm.mul vec_ne (convert_sm vec_ne (hE [n])) (Sm.pow 2 k1))) k2).congr (by tauto)

/-- Without wave drag a column comes back as a vector. -/
theorem col_clean (hn : 2 ≤ n) (hA : Sm [1, n] 0 P A.val x) (hB : Sm [1, n] 0 Q B.val y)
    (hC : Sm [1, n] 0 S C.val q) (hD : Sm [1, n] 0 T D.val p) (hE : Sm [1, n] 0 U E.val o) :
    ∃ L, (L ≤ 1 ↔ (P ∧ Q ∧ S ∧ T ∧ U)) ∧ Rep [n] 0 (false, dn L)
      (Decorated.clean (ndBackend false) (Rec.airframe scalar ac) (Rec.polar scalar pol) false
        A B C D E)
      (fun i => Drag.clean np ac pol false (x (0 :: i)) (y (0 :: i)) (q (0 :: i)) (p (0 :: i))
        (o (0 :: i))) := by
  refine call_sm vec_ne (vec_no hn) ?_ ?_
  · simp [not_symbolic_sm hA, not_symbolic_sm hB, not_symbolic_sm hC, not_symbolic_sm hD,
      not_symbolic_sm hE]
  · have kc : ∀ u, Sm u 0 True (Nd.scalar pol.cd0 + 0.0) (fun _ => pol.cd0 + 0.0) := by
      intro u
      exact ⟨0, by simp, ⟨fun _ => pol.cd0 + 0.0, rfl, fun _ => rfl⟩⟩
    exact sm_of_dn (col_calcDrag ac (A := pass (convert A)) (B := pass (convert B))
      (C := pass (convert C)) (D := pass _) (E := pass _) (F := pass (convert D))
      (G := pass (convert E)) hn (convert_sm col_ne hA) (convert_sm col_ne hB)
      (convert_sm col_ne hC) kc (fun u => Sm.scalar pol.k) (convert_sm col_ne hD)
      (convert_sm col_ne hE))

/-! ## Vector and column combined -/

theorem pick_mat (hn : 2 ≤ n) (i : List ℕ) :
    pick [n, n] i = [i.headD 0, i.tail.headD 0] := by
  have h1 : n ≠ 1 := by omega
  simp [pick, h1]

/-- `vector ∘ column`. -/
theorem vec_col (hn : 2 ≤ n) (g : ℝ → ℝ → ℝ) {v w : Nd} (hv : Sm [n] 0 False v x)
    (hw : Sm [1, n] 0 False w y) :
    Sm [n, n] 0 False (Nd.map₂ false g v w) (fun i => g (x [i.headD 0]) (y [0, i.tail.headD 0])) := by
  have h1 : n ≠ 1 := by omega
  obtain ⟨a, rfl, ha⟩ := sm_full hv
  obtain ⟨c, rfl, hc⟩ := sm_full hw
  refine sm_of_full (g := fun i => g (a (pick [n] i)) (c (pick [1, n] i))) ?_ ?_
  · simp [Nd.map₂, broadcast, axis, h1]
  · intro i
    rw [pick_mat hn, ha, hc]
    have e1 := ha [i.headD 0]
    have e2 := ha [i.headD 0, i.tail.headD 0]
    have e3 := hc [i.headD 0, i.tail.headD 0]
    have e4 := hc [0, i.tail.headD 0]
    simp only [pick, List.headD_cons, List.tail_cons] at e1 e2 e3 e4
    rw [← e1, ← e2, ← e3, ← e4]
    simp

/-- `column ∘ vector`. -/
theorem col_vec (hn : 2 ≤ n) (g : ℝ → ℝ → ℝ) {v w : Nd} (hv : Sm [1, n] 0 False v x)
    (hw : Sm [n] 0 False w y) :
    Sm [n, n] 0 False (Nd.map₂ false g v w) (fun i => g (x [0, i.tail.headD 0]) (y [i.headD 0])) := by
  have h1 : n ≠ 1 := by omega
  have := vec_col hn (fun a c => g c a) hw hv
  obtain ⟨a, rfl, ha⟩ := sm_full hv
  obtain ⟨c, rfl, hc⟩ := sm_full hw
  refine cast ?_ this
  congr 1
  have h2 : ¬ 1 = n := by omega
  simp [Nd.map₂, broadcast, axis, h1, h2]

/-- `matrix ∘ column`. -/
theorem mat_col (hn : 2 ≤ n) (g : ℝ → ℝ → ℝ) {v w : Nd} (hv : Sm [n, n] 0 False v x)
    (hw : Sm [1, n] 0 P w y) :
    Sm [n, n] 0 False (Nd.map₂ false g v w) (fun i => g (x i) (y [0, i.tail.headD 0])) := by
  have h1 : n ≠ 1 := by omega
  obtain ⟨a, rfl, ha⟩ := sm_full hv
  have e0 := fun i => ha (pick [n, n] i)
  by_cases hP : P
  · obtain ⟨k, hk, hs⟩ := sm_single (hw.congr (by simp [hP]))
    obtain ⟨L, hL, c, rfl, hc⟩ := hs [n, n]
    have hL := hL.2 trivial
    refine sm_of_full (g := fun i => g (a (pick [n, n] i))
      (c (pick (sh [n, n] 0 L) i))) ?_ ?_
    · match L, hL with
      | 0, _ => simp [Nd.map₂, sh, broadcast]
      | 1, _ => simp [Nd.map₂, sh, broadcast, axis, h1]
    · intro i
      rw [hk, pick_pick i (Below.refl _), ha, hc]
  · obtain ⟨c, rfl, hc⟩ := sm_full (hw.congr (by simp [hP]))
    refine sm_of_full (g := fun i => g (a (pick [n, n] i)) (c (pick [1, n] i))) ?_ ?_
    · simp [Nd.map₂, broadcast, axis, h1]
    · intro i
      rw [pick_pick i (Below.refl _), ha, pick_mat hn, hc]
      have e3 := hc [i.headD 0, i.tail.headD 0]
      have e4 := hc [0, i.tail.headD 0]
      simp only [pick, List.headD_cons, List.tail_cons] at e3 e4
      rw [← e3, ← e4]
      simp

/-- `column ∘ matrix`. -/
theorem col_mat (hn : 2 ≤ n) (g : ℝ → ℝ → ℝ) {v w : Nd} (hv : Sm [1, n] 0 False v x)
    (hw : Sm [n, n] 0 False w y) :
    Sm [n, n] 0 False (Nd.map₂ false g v w) (fun i => g (x [0, i.tail.headD 0]) (y i)) := by
  have h1 : n ≠ 1 := by omega
  have := mat_col hn (fun a c => g c a) hw hv
  obtain ⟨a, rfl, ha⟩ := sm_full hv
  obtain ⟨c, rfl, hc⟩ := sm_full hw
  refine cast ?_ this
  congr 1
  have h2 : ¬ 1 = n := by omega
  simp [Nd.map₂, broadcast, axis, h1, h2]

/-- `matrix ∘ vector`. -/
theorem mat_vec (hn : 2 ≤ n) (g : ℝ → ℝ → ℝ) {v w : Nd} (hv : Sm [n, n] 0 False v x)
    (hw : Sm [n] 0 P w y) :
    Sm [n, n] 0 False (Nd.map₂ false g v w) (fun i => g (x i) (y [i.headD 0])) := by
  have h1 : n ≠ 1 := by omega
  obtain ⟨a, rfl, ha⟩ := sm_full hv
  by_cases hP : P
  · obtain ⟨k, hk, hs⟩ := sm_single (hw.congr (by simp [hP]))
    obtain ⟨L, hL, c, rfl, hc⟩ := hs [n, n]
    have hL := hL.2 trivial
    refine sm_of_full (g := fun i => g (a (pick [n, n] i))
      (c (pick (sh [n, n] 0 L) i))) ?_ ?_
    · match L, hL with
      | 0, _ => simp [Nd.map₂, sh, broadcast]
      | 1, _ => simp [Nd.map₂, sh, broadcast, axis, h1]
    · intro i
      rw [hk, pick_pick i (Below.refl _), ha, hc]
  · obtain ⟨c, rfl, hc⟩ := sm_full (hw.congr (by simp [hP]))
    refine sm_of_full (g := fun i => g (a (pick [n, n] i)) (c (pick [n] i))) ?_ ?_
    · simp [Nd.map₂, broadcast, axis]
    · intro i
      rw [pick_pick i (Below.refl _), ha, pick_mat hn, hc]
      have e3 := hc [i.headD 0, i.tail.headD 0]
      have e4 := hc [i.headD 0]
      simp only [pick, List.headD_cons] at e3 e4
      rw [← e3, ← e4]

/-! ## The methods that combine them -/

/-- The decorator around a body that computes a matrix. -/
theorem call_mat (hn : 2 ≤ n) {args : List Arg} {body : (Arg → Nd) → Nd}
    (ha : ∀ A ∈ args, symbolic A = false) (hb : Sm [n, n] 0 False (body convert) x) :
    Sm [n, n] 0 False (call args body) x :=
  sm_of_dn (call_sm mat_ne (mat_no hn) ha hb)

theorem col_enroute (hn : 2 ≤ n) (hA : Sm [1, n] 0 False A.val x)
    (hB : Sm [1, n] 0 False B.val y) (hC : Sm [1, n] 0 False C.val q)
    (hD : Sm [1, n] 0 T D.val p) (hE : Sm [1, n] 0 U E.val o) (hF : Sm [1, n] 0 V F.val l)
    (hG : Sm [1, n] 0 W G.val m) :
    Sm [n, n] 0 False
      (Decorated.enroute (ndBackend false) (Rec.airframe scalar ac) (Rec.polar scalar pol)
        (Rec.fuel scalar f) false A B C D E F G)
      (fun i => Fuel.atThrust np f
        (Drag.clean np ac pol false (x [0, i.headD 0]) (y [0, i.headD 0]) (q [0, i.headD 0])
            (p [0, i.headD 0]) (l [0, i.headD 0])
          + x [0, i.tail.headD 0] * 9.81 * np.sin (np.arctan2 (p [0, i.tail.headD 0] * fpm)
            (y [0, i.tail.headD 0] * kts))
          + x [0, i.tail.headD 0] * o [0, i.tail.headD 0])) := by
  refine call_mat hn ?_ ?_
  · simp [not_symbolic_sm hA, not_symbolic_sm hB, not_symbolic_sm hC, not_symbolic_sm hD,
      not_symbolic_sm hE, not_symbolic_sm hF, not_symbolic_sm hG]
  · have hu : ([1, n] : List ℕ) ≠ [] := col_ne
    have kA := convert_sm hu hA
    have kB := convert_sm hu hB
    have kC := convert_sm hu hC
    have kD := convert_sm hu hD
    have kE := convert_sm hu hE
    have kF := convert_sm hu hF
    have k1 := sm_of_dn (col_clean ac pol (A := pass (convert A)) (B := pass (convert B))
      (C := pass (convert C)) (D := pass (convert D)) (E := pass (convert F)) hn
      kA kB kC kD kF)
    have k2 := Sm.sin (Sm.arctan2 hu (Sm.mul hu kD (Sm.lit 508 true 5))
      (Sm.mul hu kB (Sm.lit 514444 true 6)))
    have k3 := mat_col hn (· + ·) (vec_col hn (· + ·) (k1.congr (by simp))
      ((Sm.mul hu (Sm.mul hu kA (Sm.lit 981 true 2)) k2).congr (by simp)))
      (Sm.mul hu kA kE)
    exact (sm_of_dn (sm_atThrust f (A := pass _) mat_ne (mat_no hn) k3)).congr (by simp)

/-- `_calc_drag` given a matrix `cd0`. -/
theorem mat_calcDrag (hn : 2 ≤ n) {k : ℝ} {c : List ℕ → ℝ} (hA : Sm [1, n] 0 P A.val x)
    (hB : Sm [1, n] 0 Q B.val y) (hC : Sm [1, n] 0 S C.val q)
    (hD : Sm [n, n] 0 False D.val c)
    (hE : ∀ u, Sm u 0 True E.val (fun _ => k)) (hF : Sm [1, n] 0 V F.val p)
    (hG : Sm [1, n] 0 W G.val o) :
    Sm [n, n] 0 False
      (Decorated.calcDrag (ndBackend false) (Rec.airframe scalar ac) A B C D E F G)
      (fun i => Drag.calcDrag np ac (x [0, i.headD 0]) (y [0, i.headD 0]) (q [0, i.headD 0])
        (c i) k (p [0, i.headD 0]) (o [0, i.headD 0])) := by
  refine call_mat hn ?_ ?_
  · simp [not_symbolic_sm hA, not_symbolic_sm hB, not_symbolic_sm hC, not_symbolic_sm hD,
      not_symbolic_sm (hE [1]), not_symbolic_sm hF, not_symbolic_sm hG]
  · obtain ⟨k1, k2⟩ := col_cl ac (A := pass (convert A)) (B := pass (convert B))
      (C := pass (convert C)) (D := pass (convert F)) (E := pass (convert G)) hn
      (convert_sm col_ne hA) (convert_sm col_ne hB) (convert_sm col_ne hC)
      (convert_sm col_ne hF) (convert_sm col_ne hG)
    exact mat_vec hn (· * ·) (mat_vec hn (· + ·) (convert_sm mat_ne hD)
      (Sm.mul vec_ne (convert_sm vec_ne (hE [n])) (Sm.pow 2 k1))) k2

/-- `_calc_drag` given columns `cd0` and `k`. -/
theorem mat_calcDrag' (hn : 2 ≤ n) {c k : List ℕ → ℝ} (hA : Sm [1, n] 0 P A.val x)
    (hB : Sm [1, n] 0 False B.val y) (hC : Sm [1, n] 0 S C.val q)
    (hD : Sm [1, n] 0 False D.val c)
    (hE : Sm [1, n] 0 False E.val k) (hF : Sm [1, n] 0 V F.val p)
    (hG : Sm [1, n] 0 W G.val o) :
    Sm [n, n] 0 False
      (Decorated.calcDrag (ndBackend false) (Rec.airframe scalar ac) A B C D E F G)
      (fun i => Drag.calcDrag np ac (x [0, i.headD 0]) (y [0, i.headD 0]) (q [0, i.headD 0])
        (c [0, i.tail.headD 0]) (k [0, i.tail.headD 0]) (p [0, i.headD 0])
        (o [0, i.headD 0])) := by
  refine call_mat hn ?_ ?_
  · simp [not_symbolic_sm hA, not_symbolic_sm hB, not_symbolic_sm hC, not_symbolic_sm hD,
      not_symbolic_sm hE, not_symbolic_sm hF, not_symbolic_sm hG]
  · obtain ⟨k1, k2⟩ := col_cl ac (A := pass (convert A)) (B := pass (convert B))
      (C := pass (convert C)) (D := pass (convert F)) (E := pass (convert G)) hn
      (convert_sm col_ne hA) (convert_sm col_ne hB) (convert_sm col_ne hC)
      (convert_sm col_ne hF) (convert_sm col_ne hG)
    exact mat_vec hn (· * ·) (col_mat hn (· + ·) (convert_sm col_ne hD)
      (col_vec hn (· * ·) (convert_sm col_ne hE) ((Sm.pow 2 k1).congr (by simp)))) k2

theorem mat_waveDrag (hn : 2 ≤ n) {v w z s : Nd} (hA : Sm [1, n] 0 P v x)
    (hB : Sm [1, n] 0 False w y) (hC : Sm [1, n] 0 S z q) (hD : Sm [1, n] 0 T s p) :
    Sm [n, n] 0 False
      (Decorated.waveDrag (ndBackend false) (Rec.airframe scalar ac) v w z s)
      (fun i => 20.0 * np.maximum
        (tas2mach np (y [0, i.tail.headD 0] * kts) (q [0, i.tail.headD 0] * ft)
            (p [0, i.tail.headD 0])
          - Drag.machCrit np ac (Drag.cl np ac (x [0, i.headD 0]) (y [0, i.headD 0])
            (q [0, i.headD 0]) 0.0 (p [0, i.headD 0])).1) 0.0 ^ 4) := by
  have hu : ([1, n] : List ℕ) ≠ [] := col_ne
  obtain ⟨k1, -⟩ := col_cl ac (A := pass v) (B := pass w) (C := pass z) (D := ⟨0.0, false⟩)
    (E := pass s) hn hA hB hC (Sm.lit 0 true 1) hD
  obtain ⟨a, ha, k1⟩ := k1
  have k2 : Sm [n] 0 False (Drag.machCrit (ndBackend false) (Rec.airframe scalar ac)
      (Decorated.cl (ndBackend false) (Rec.airframe scalar ac) (pass v) (pass w) (pass z)
        ⟨0.0, false⟩ (pass s)).1)
      (fun i => Drag.machCrit np ac (Drag.cl np ac (x (0 :: i)) (y (0 :: i)) (q (0 :: i)) 0.0
        (p (0 :: i))).1) :=
    ⟨0 ⊔ a, by simp [ha], rep_machCrit ac vec_ne k1⟩
  obtain ⟨b, hb, kB⟩ := Sm.mul hu hB (Sm.lit (u := [1, n]) (r := 0) 514444 true 6)
  obtain ⟨c, hc, kC⟩ := Sm.mul hu hC (Sm.lit (u := [1, n]) (r := 0) 3048 true 4)
  obtain ⟨d, hd, kD⟩ := hD
  have k3 : Sm [1, n] 0 False (tas2mach (ndBackend false) (w * kts) (z * ft) s)
      (fun i => tas2mach np (y i * kts) (q i * ft) (p i)) :=
    ⟨0 ⊔ b ⊔ c ⊔ d, by simp only [sup_le_iff, hb]; simp, rep_tas2mach hu kB kC kD⟩
  exact (Sm.mul mat_ne (Sm.lit 200 true 1) (Sm.pow 4 (Sm.maximum mat_ne
    (col_vec hn (· - ·) k3 k2) (Sm.lit 0 true 1)))).congr (by simp)

theorem mat_clean (hn : 2 ≤ n) (hA : Sm [1, n] 0 P A.val x) (hB : Sm [1, n] 0 False B.val y)
    (hC : Sm [1, n] 0 S C.val q) (hD : Sm [1, n] 0 T D.val p) (hE : Sm [1, n] 0 U E.val o) :
    Sm [n, n] 0 False
      (Decorated.clean (ndBackend false) (Rec.airframe scalar ac) (Rec.polar scalar pol) true
        A B C D E)
      (fun i => Drag.calcDrag np ac (x [0, i.headD 0]) (y [0, i.headD 0]) (q [0, i.headD 0])
        (pol.cd0 + 20.0 * np.maximum
          (tas2mach np (y [0, i.tail.headD 0] * kts) (q [0, i.tail.headD 0] * ft)
              (o [0, i.tail.headD 0])
            - Drag.machCrit np ac (Drag.cl np ac (x [0, i.headD 0]) (y [0, i.headD 0])
              (q [0, i.headD 0]) 0.0 (o [0, i.headD 0])).1) 0.0 ^ 4)
        pol.k (p [0, i.headD 0]) (o [0, i.headD 0])) := by
  refine call_mat hn ?_ ?_
  · simp [not_symbolic_sm hA, not_symbolic_sm hB, not_symbolic_sm hC, not_symbolic_sm hD,
      not_symbolic_sm hE]
  · have hu : ([1, n] : List ℕ) ≠ [] := col_ne
    have kA := convert_sm hu hA
    have kB := convert_sm hu hB
    have kC := convert_sm hu hC
    have kD := convert_sm hu hD
    have kE := convert_sm hu hE
    have kw := mat_waveDrag ac hn kA kB kC kE
    have kc := (Sm.add mat_ne (Sm.scalar pol.cd0) kw).congr (show _ ↔ False by simp)
    exact mat_calcDrag ac (A := pass (convert A)) (B := pass (convert B))
      (C := pass (convert C)) (D := pass _) (E := pass _) (F := pass (convert D))
      (G := pass (convert E)) hn kA kB kC kc (fun u => Sm.scalar pol.k) kD kE

/-- A column of flap angles. -/
theorem mat_nonclean (hn : 2 ≤ n) {k : ℝ} (hA : Sm [1, n] 0 P A.val x)
    (hB : Sm [1, n] 0 False B.val y) (hC : Sm [1, n] 0 S C.val q) (hD : Sm [1, n] 0 False D.val p)
    (hE : Sm [1, n] 0 U E.val o) (hF : Sm [1, n] 0 V F.val l)
    (hG : Sm [1, n] 0 True G.val (fun _ => k)) :
    Sm [n, n] 0 False
      (Decorated.nonclean (ndBackend false) (Rec.airframe scalar ac) (Rec.polar scalar pol)
        A B C D E F G)
      (fun i => Drag.nonclean np ac pol (x [0, i.headD 0]) (y [0, i.headD 0]) (q [0, i.headD 0])
        (p [0, i.tail.headD 0]) (o [0, i.headD 0]) (l [0, i.headD 0])
        (open Classical in decide (k ≠ 0))) := by
  refine call_mat hn ?_ ?_
  · simp [not_symbolic_sm hA, not_symbolic_sm hB, not_symbolic_sm hC, not_symbolic_sm hD,
      not_symbolic_sm hE, not_symbolic_sm hF, not_symbolic_sm hG]
  · have hu : ([1, n] : List ℕ) ≠ [] := col_ne
    rw [truth_sm hu hG]
    dsimp only
    generalize (open Classical in decide (k ≠ 0)) = gear
    have kA := convert_sm hu hA
    have kB := convert_sm hu hB
    have kC := convert_sm hu hC
    have kD := convert_sm hu hD
    have kE := convert_sm hu hE
    have kF := convert_sm hu hF
    have kg : Sm [1, n] 0 True
        (if gear then Drag.gearCd (ndBackend false) (Rec.airframe scalar ac) else 0.0)
        (fun _ => if gear then Drag.gearCd np ac else 0.0) := by
      cases gear with
      | false => exact Sm.lit 0 true 1
      | true => exact ⟨0, by simp, rep_gearCd ac hu⟩
    obtain ⟨d, hd, kd⟩ := kD
    have k1 : Sm [1, n] 0 False (Drag.flapCd (ndBackend false) (Rec.polar scalar pol) (convert D))
        (fun i => Drag.flapCd np pol (p i)) := ⟨0 ⊔ d, by simpa using hd, rep_flapCd pol hu kd⟩
    have k2 : Sm [1, n] 0 False (Drag.flapK (ndBackend false) (Rec.airframe scalar ac)
        (Rec.polar scalar pol) (convert D))
        (fun i => Drag.flapK np ac pol (p i)) := ⟨d, hd, rep_flapK ac pol hu kd⟩
    have kc := (Sm.add hu (Sm.add hu (Sm.scalar pol.cd0) k1) kg).congr
      (show _ ↔ False by simp)
    exact mat_calcDrag' ac (A := pass (convert A)) (B := pass (convert B))
      (C := pass (convert C)) (D := pass _) (E := pass _) (F := pass (convert E))
      (G := pass (convert F)) hn kA kB kC kc k2 kE kF

/-- A column of throttle settings. -/
theorem mat_fuelTakeoff (hn : 2 ≤ n) (hA : Sm [n] 0 False A.val x) (hB : Sm [n] 0 Q B.val y)
    (hC : Sm [1, n] 0 False C.val q) :
    Sm [n, n] 0 False
      (Decorated.fuelTakeoff (ndBackend false) (Rec.thrust scalar en) (Rec.fuel scalar f) A B C)
      (fun i => Fuel.takeoff np f en (x [i.headD 0]) (y [i.headD 0]) (q [0, i.tail.headD 0])) := by
  refine call_mat hn ?_ ?_
  · simp [not_symbolic_sm hA, not_symbolic_sm hB, not_symbolic_sm hC]
  · have k1 := sm_of_dn (sm_thrustTakeoff en (A := pass (convert A)) (B := pass (convert B))
      (C := ⟨0.0, false⟩) vec_ne (vec_no hn) (convert_sm vec_ne hA) (convert_sm vec_ne hB)
      (Sm.lit 0 true 1))
    have k2 := sm_of_dn (sm_atThrust f (A := pass _) vec_ne (vec_no hn) k1)
    exact col_vec hn (· * ·) (convert_sm col_ne hC) (k2.congr (by simp))

end Verif.Shaped
