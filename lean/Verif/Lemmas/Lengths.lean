import Verif.Model.Decorated
import Verif.Model.DataRecords
import Verif.Spec.Lengths
import Mathlib.Data.Set.Insert

/-! Lengths of the results of a calculation on numbers and vectors. -/

namespace Verif.Lengths
open Verif.Nd Verif.Decorated Verif.Aero Verif.Spec

/-- The shape of a calculation whose vectors have the lengths `S`, length 1 not counted. -/
def LenS (S : Set ℕ) : Option (List ℕ) → Prop
  | none => ¬ S.Subsingleton
  | some s => (S = ∅ ∧ (s = [] ∨ s = [1])) ∨ ∃ n, n ≠ 1 ∧ S = {n} ∧ s = [n]

/-- The same for the value. -/
def Len (S : Set ℕ) (v : Nd) : Prop := LenS S (Option.map Arr.shape v)

variable {S T U : Set ℕ} {x y z : Nd} {j : Bool}

theorem Len.congr (h : Len S x) (e : S = T) : Len T x := e ▸ h

theorem lenS_broadcast {s t : List ℕ} (hs : LenS S (some s)) (ht : LenS T (some t)) :
    LenS (S ∪ T) (broadcast s t) := by
  rcases hs with ⟨rfl, hs⟩ | ⟨n, hn, rfl, rfl⟩
  · rw [Set.empty_union]
    rcases ht with ⟨rfl, ht⟩ | ⟨m, hm, rfl, rfl⟩
    · rcases hs with rfl | rfl <;> rcases ht with rfl | rfl <;> simp [broadcast, axis, LenS]
    · have : broadcast s [m] = some [m] := by
        rcases hs with rfl | rfl
        · rfl
        · simp only [broadcast, axis]
          simp [Ne.symm hm]
      rw [this]
      exact Or.inr ⟨m, hm, rfl, rfl⟩
  · rcases ht with ⟨rfl, ht⟩ | ⟨m, hm, rfl, rfl⟩
    · rw [Set.union_empty]
      have : broadcast [n] t = some [n] := by
        rcases ht with rfl | rfl
        · rfl
        · simp only [broadcast, axis]
          simp [hn]
      rw [this]
      exact Or.inr ⟨n, hn, rfl, rfl⟩
    · by_cases h : n = m
      · subst h
        have : broadcast [n] [n] = some [n] := by simp [broadcast, axis]
        rw [this, Set.union_self]
        exact Or.inr ⟨n, hn, rfl, rfl⟩
      · have : broadcast [n] [m] = none := by
          simp only [broadcast, axis]
          rw [if_neg h, if_neg hn, if_neg hm]; rfl
        rw [this]
        exact fun hs => h (hs (.inl rfl) (.inr rfl))

theorem lenS_bind {s t : Option (List ℕ)} (hs : LenS S s) (ht : LenS T t) :
    LenS (S ∪ T) (s.bind fun s => t.bind fun t => broadcast s t) := by
  cases s with
  | none => exact fun h => hs (h.anti Set.subset_union_left)
  | some s =>
    cases t with
    | none => exact fun h => ht (h.anti Set.subset_union_right)
    | some t => exact lenS_broadcast hs ht

theorem len_map₂ (f : ℝ → ℝ → ℝ) (hx : Len S x) (hy : Len T y) : Len (S ∪ T) (map₂ j f x y) := by
  have e : Option.map Arr.shape (map₂ j f x y) = (Option.map Arr.shape x).bind fun s =>
      (Option.map Arr.shape y).bind fun t => broadcast s t := by
    cases x <;> cases y <;> simp [map₂, Option.map_map, Function.comp_def]
  unfold Len
  rw [e]
  exact lenS_bind hx hy

theorem len_map₃ (f : ℝ → ℝ → ℝ → ℝ) (hx : Len S x) (hy : Len T y) (hz : Len U z) :
    Len (S ∪ T ∪ U) (map₃ j f x y z) := by
  have e : Option.map Arr.shape (map₃ j f x y z) = (((Option.map Arr.shape x).bind fun s =>
      (Option.map Arr.shape y).bind fun t => broadcast s t)).bind fun s => (Option.map Arr.shape z).bind fun t =>
        broadcast s t := by
    cases x with
    | none => rfl
    | some x => cases y with
      | none => rfl
      | some y => cases z with
        | none => simp [map₃]
        | some z =>
          simp only [map₃, Option.map_some, Option.bind_some]
          cases broadcast x.shape y.shape with
          | none => rfl
          | some s => simp [Option.map_map, Function.comp_def]
  unfold Len
  rw [e]
  exact lenS_bind (lenS_bind hx hy) hz

theorem len_map (f : ℝ → ℝ) (hx : Len S x) : Len S (map j f x) := by
  cases x <;> exact hx

theorem len_scalar (c : ℝ) : Len ∅ (scalar c) := Or.inl ⟨rfl, .inl rfl⟩
theorem len_lit (m : ℕ) (s : Bool) (e : ℕ) : Len ∅ (OfScientific.ofScientific m s e : Nd) :=
  len_scalar _
theorem len_add (hx : Len S x) (hy : Len T y) : Len (S ∪ T) (x + y) := len_map₂ _ hx hy
theorem len_sub (hx : Len S x) (hy : Len T y) : Len (S ∪ T) (x - y) := len_map₂ _ hx hy
theorem len_mul (hx : Len S x) (hy : Len T y) : Len (S ∪ T) (x * y) := len_map₂ _ hx hy
theorem len_div (hx : Len S x) (hy : Len T y) : Len (S ∪ T) (x / y) := len_map₂ _ hx hy
theorem len_neg (hx : Len S x) : Len S (-x) := len_map _ hx
theorem len_pow (n : ℕ) (hx : Len S x) : Len S (x ^ n) := len_map _ hx
theorem len_exp (hx : Len S x) : Len S ((ndBackend j).exp x) := len_map _ hx
theorem len_log (hx : Len S x) : Len S ((ndBackend j).log x) := len_map _ hx
theorem len_sqrt (hx : Len S x) : Len S ((ndBackend j).sqrt x) := len_map _ hx
theorem len_sin (hx : Len S x) : Len S ((ndBackend j).sin x) := len_map _ hx
theorem len_cos (hx : Len S x) : Len S ((ndBackend j).cos x) := len_map _ hx
theorem len_abs (hx : Len S x) : Len S ((ndBackend j).abs x) := len_map _ hx
theorem len_power (hx : Len S x) (hy : Len T y) : Len (S ∪ T) ((ndBackend j).power x y) :=
  len_map₂ _ hx hy
theorem len_arctan2 (hx : Len S x) (hy : Len T y) : Len (S ∪ T) ((ndBackend j).arctan2 x y) :=
  len_map₂ _ hx hy
theorem len_maximum (hx : Len S x) (hy : Len T y) : Len (S ∪ T) ((ndBackend j).maximum x y) :=
  len_map₂ _ hx hy
theorem len_clip (hx : Len S x) (hy : Len T y) (hz : Len U z) :
    Len (S ∪ T ∪ U) ((ndBackend j).clip x y z) := len_map₃ _ hx hy hz
theorem len_whereGt {V : Set ℕ} {a : Nd} (ha : Len V a) (hx : Len S x) (hy : Len T y) (hz : Len U z) :
    Len (V ∪ S ∪ T ∪ U) ((ndBackend j).whereGt a x y z) :=
  len_map₃ (fun m p q => np.whereGt m 0 p q) (len_map₂ (j := false) (fun p q => np.whereGt p q 1 0) ha hx) hy hz
theorem len_pi : Len ∅ (ndBackend j).pi := len_scalar _

/-- One step of finding the lengths. -/
macro "len1" : tactic => `(tactic| with_reducible first
  | assumption | exact len_lit _ _ _ | exact len_scalar _ | exact len_pi
  | apply len_add | apply len_sub | apply len_mul | apply len_div | apply len_neg | apply len_pow
  | apply len_exp | apply len_log | apply len_sqrt | apply len_sin | apply len_cos | apply len_abs
  | apply len_power | apply len_arctan2 | apply len_maximum | apply len_clip | apply len_whereGt)

/-- Equality of two unions of the same sets. -/
macro "unions" : tactic => `(tactic| (clear * -; ext q; simp only [Set.mem_union, Set.mem_empty_iff_false]; tauto))

theorem len_atmos (hx : Len S x) (hy : Len T y) :
    Len (S ∪ T) (pressure (ndBackend j) x y) ∧ Len (S ∪ T) (density (ndBackend j) x y) ∧
    Len (S ∪ T) (temperature (ndBackend j) x y) := by
  have hc : Len T ((ndBackend j).clip y (-25.0) 15.0) :=
    (len_clip hy (len_neg (len_lit _ _ _)) (len_lit _ _ _)).congr (by unions)
  refine ⟨?_, ?_, ?_⟩
  · unfold pressure atmos
    dsimp only
    generalize (ndBackend j).clip y (-25.0) 15.0 = c at hc
    unfold T0 R rho0 beta
    refine Len.congr (by repeat len1) ?_
    unions
  · unfold density atmos
    dsimp only
    generalize (ndBackend j).clip y (-25.0) 15.0 = c at hc
    unfold T0 rho0 beta
    refine Len.congr (by repeat len1) ?_
    unions
  · unfold temperature atmos
    dsimp only
    generalize (ndBackend j).clip y (-25.0) 15.0 = c at hc
    unfold T0 beta
    refine Len.congr (by repeat len1) ?_
    unions

theorem len_pressure (hx : Len S x) (hy : Len T y) : Len (S ∪ T) (pressure (ndBackend j) x y) :=
  (len_atmos hx hy).1
theorem len_density (hx : Len S x) (hy : Len T y) : Len (S ∪ T) (density (ndBackend j) x y) :=
  (len_atmos hx hy).2.1
theorem len_temperature (hx : Len S x) (hy : Len T y) : Len (S ∪ T) (temperature (ndBackend j) x y) :=
  (len_atmos hx hy).2.2

macro_rules | `(tactic| len1) => `(tactic| with_reducible first
  | apply len_pressure | apply len_density | apply len_temperature)

theorem len_tas2mach (hx : Len S x) (hy : Len T y) (hz : Len U z) :
    Len (S ∪ T ∪ U) (tas2mach (ndBackend j) x y z) := by
  unfold tas2mach vsound gamma R
  refine Len.congr (by repeat len1) ?_
  unions

theorem len_mach2tas (hx : Len S x) (hy : Len T y) (hz : Len U z) :
    Len (S ∪ T ∪ U) (mach2tas (ndBackend j) x y z) := by
  unfold mach2tas vsound gamma R
  refine Len.congr (by repeat len1) ?_
  unions

theorem len_tas2cas (hx : Len S x) (hy : Len T y) (hz : Len U z) :
    Len (S ∪ T ∪ U) (tas2cas (ndBackend j) x y z) := by
  have h1 : Len _ (atmos (ndBackend j) y z).1 := len_pressure hy hz
  have h2 : Len _ (atmos (ndBackend j) y z).2.1 := len_density hy hz
  unfold tas2cas p0 rho0
  dsimp only
  generalize (atmos (ndBackend j) y z).1 = p at h1
  generalize (atmos (ndBackend j) y z).2.1 = r at h2
  refine Len.congr (by repeat len1) ?_
  unions

theorem len_mach2cas (hx : Len S x) (hy : Len T y) (hz : Len U z) :
    Len (S ∪ T ∪ U) (mach2cas (ndBackend j) x y z) := by
  unfold mach2cas
  exact (len_tas2cas (len_mach2tas hx hy hz) hy hz).congr (by unions)

macro_rules | `(tactic| len1) => `(tactic| with_reducible first
  | apply len_tas2mach | apply len_mach2tas | apply len_tas2cas | apply len_mach2cas)

/-! ## Calls of decorated methods -/

theorem len_convert {A : Arg} (h : Len S A.val) : Len S (convert A) := by
  obtain ⟨v, g⟩ := A
  cases g
  · exact h
  · match v, h with
    | none, h => exact h
    | some ⟨k, [], f⟩, h =>
      rcases h with ⟨rfl, -⟩ | ⟨n, -, -, h⟩
      · exact Or.inl ⟨rfl, .inr rfl⟩
      · cases h
    | some ⟨k, a :: s, f⟩, h => exact h

theorem len_toScalar (h : Len S x) : Len S (Option.map toScalar x) := by
  cases x with
  | none => exact h
  | some a =>
    obtain ⟨k, s, f⟩ := a
    cases k
    · rcases h with ⟨rfl, rfl | rfl⟩ | ⟨n, hn, rfl, h⟩
      · exact Or.inl ⟨rfl, .inl rfl⟩
      · exact Or.inl ⟨rfl, .inl rfl⟩
      · simp only [] at h
        subst h
        have : toScalar ⟨false, [n], f⟩ = ⟨false, [n], f⟩ := by
          simp [toScalar, hn]
        rw [Option.map_some, this]
        exact Or.inr ⟨n, hn, rfl, rfl⟩
    · exact h

theorem len_call {args : List Arg} {body : (Arg → Nd) → Nd}
    (h : ∀ c : Arg → Nd, (∀ A S, Len S A.val → Len S (c A)) → Len S (body c)) :
    Len S (call args body) := by
  unfold call
  split
  · exact h _ fun _ _ h => h
  · exact len_toScalar (h _ fun _ _ h => len_convert h)

theorem len_callPair {args : List Arg} {body : (Arg → Nd) → Nd × Nd}
    (h : ∀ c : Arg → Nd, (∀ A S, Len S A.val → Len S (c A)) → Len S (body c).1 ∧ Len T (body c).2) :
    Len S (callPair args body).1 ∧ Len T (callPair args body).2 := by
  unfold callPair
  split
  · exact h _ fun _ _ h => h
  · obtain ⟨h1, h2⟩ := h _ fun _ _ h => len_convert h
    exact ⟨len_toScalar h1, len_toScalar h2⟩

variable (ac : Drag.Airframe ℝ) (pol : Drag.Polar ℝ) (en : Thrust.Params ℝ) (f : Fuel.Params ℝ)
  (em : Emission.Params ℝ)
variable {SA SB SC SD SE SF SG : Set ℕ} {A B C D E F G : Arg}

theorem len_cl (hA : Len SA A.val) (hB : Len SB B.val) (hC : Len SC C.val) (hD : Len SD D.val)
    (hE : Len SE E.val) :
    Len (SA ∪ SB ∪ SC ∪ SD ∪ SE) (cl (ndBackend j) (Rec.airframe scalar ac) A B C D E).1 ∧
    Len (SB ∪ SC ∪ SE) (cl (ndBackend j) (Rec.airframe scalar ac) A B C D E).2 := by
  refine len_callPair fun c hc => ?_
  have hA := hc A _ hA
  have hB := hc B _ hB
  have hC := hc C _ hC
  have hD := hc D _ hD
  have hE := hc E _ hE
  unfold Drag.cl kts ft fpm g0 Rec.airframe
  dsimp only
  constructor
  · refine Len.congr (by repeat len1) ?_
    unions
  · refine Len.congr (by repeat len1) ?_
    unions

theorem len_calcDrag (hA : Len SA A.val) (hB : Len SB B.val) (hC : Len SC C.val) (hD : Len SD D.val)
    (hE : Len SE E.val) (hF : Len SF F.val) (hG : Len SG G.val) :
    Len (SA ∪ SB ∪ SC ∪ SD ∪ SE ∪ SF ∪ SG)
      (calcDrag (ndBackend j) (Rec.airframe scalar ac) A B C D E F G) := by
  refine len_call fun c hc => ?_
  have hD := hc D _ hD
  have hE := hc E _ hE
  obtain ⟨h1, h2⟩ := len_cl (j := j) ac (A := pass (c A)) (B := pass (c B)) (C := pass (c C))
    (D := pass (c F)) (E := pass (c G)) (hc A _ hA) (hc B _ hB) (hc C _ hC) (hc F _ hF) (hc G _ hG)
  dsimp only
  refine Len.congr (by repeat len1) ?_
  unions

theorem len_waveDrag (hx : Len S x) (hy : Len T y) (hz : Len U z) {V : Set ℕ} {a : Nd} (ha : Len V a) :
    Len (S ∪ T ∪ U ∪ V) (Decorated.waveDrag (ndBackend j) (Rec.airframe scalar ac) x y z a) := by
  have h0 : Len ∅ (⟨0.0, false⟩ : Arg).val := len_lit _ _ _
  have h1 := (len_cl (j := j) ac (A := pass x) (B := pass y) (C := pass z) (D := ⟨0.0, false⟩)
    (E := pass a) hx hy hz h0 ha).1
  unfold Decorated.waveDrag Drag.machCrit kts ft
  dsimp only
  generalize (cl (ndBackend j) (Rec.airframe scalar ac) (pass x) (pass y) (pass z) ⟨0.0, false⟩
    (pass a)).1 = l at h1
  have h2 : Len ∅ ((Rec.airframe scalar ac).tc.getD 0.12) := by
    unfold Rec.airframe
    cases ac.tc
    · exact len_lit _ _ _
    · exact len_scalar _
  have h3 : Len ∅ (Rec.airframe scalar ac).sweep := len_scalar _
  refine Len.congr (by repeat len1) ?_
  unions

theorem len_clean (wave : Bool) (hA : Len SA A.val) (hB : Len SB B.val) (hC : Len SC C.val)
    (hD : Len SD D.val) (hE : Len SE E.val) :
    Len (SA ∪ SB ∪ SC ∪ SD ∪ SE) (Decorated.clean (ndBackend j) (Rec.airframe scalar ac)
      (Rec.polar scalar pol) wave A B C D E) := by
  refine len_call fun c hc => ?_
  have hA := hc A _ hA
  have hB := hc B _ hB
  have hC := hc C _ hC
  have hD := hc D _ hD
  have hE := hc E _ hE
  cases wave
  · have k1 : Len ∅ (pass ((Rec.polar scalar pol).cd0 + 0.0)).val :=
      (len_add (len_scalar _) (len_lit _ _ _)).congr (by unions)
    have k2 : Len ∅ (pass (Rec.polar scalar pol).k).val := len_scalar _
    exact (len_calcDrag ac (A := pass (c A)) (B := pass (c B)) (C := pass (c C)) (F := pass (c D))
      (G := pass (c E)) hA hB hC k1 k2 hD hE).congr (by unions)
  · have k1 : Len _ (pass ((Rec.polar scalar pol).cd0 + Decorated.waveDrag (ndBackend j)
        (Rec.airframe scalar ac) (c A) (c B) (c C) (c E))).val :=
      len_add (len_scalar _) (len_waveDrag ac hA hB hC hE)
    have k2 : Len ∅ (pass (Rec.polar scalar pol).k).val := len_scalar _
    exact (len_calcDrag ac (A := pass (c A)) (B := pass (c B)) (C := pass (c C)) (F := pass (c D))
      (G := pass (c E)) hA hB hC k1 k2 hD hE).congr (by unions)

theorem truth_len {v : Nd} (h : Len ∅ v) : ∃ g, truth v = some g := by
  cases v with
  | none => exact absurd Set.subsingleton_empty h
  | some a =>
    obtain ⟨k, s, f⟩ := a
    rcases h with ⟨-, h⟩ | ⟨n, -, h, -⟩
    · rcases h with h | h <;> simp only [] at h <;> subst h <;> simp [truth, em]
    · exact absurd h.symm (Set.singleton_ne_empty n)

theorem len_nonclean (hA : Len SA A.val) (hB : Len SB B.val) (hC : Len SC C.val)
    (hD : Len SD D.val) (hE : Len SE E.val) (hF : Len SF F.val) (hG : Len ∅ G.val) :
    Len (SA ∪ SB ∪ SC ∪ SD ∪ SE ∪ SF) (Decorated.nonclean (ndBackend j) (Rec.airframe scalar ac)
      (Rec.polar scalar pol) A B C D E F G) := by
  refine len_call fun c hc => ?_
  have hA := hc A _ hA
  have hB := hc B _ hB
  have hC := hc C _ hC
  have hD := hc D _ hD
  have hE := hc E _ hE
  have hF := hc F _ hF
  obtain ⟨g, hg⟩ := truth_len (hc G _ hG)
  rw [hg]
  dsimp only
  have kg : Len ∅ (if g then Drag.gearCd (ndBackend j) (Rec.airframe scalar ac) else 0.0) := by
    cases g
    · exact len_lit _ _ _
    · unfold Drag.gearCd g0 Rec.airframe
      simp only [if_true]
      refine Len.congr (by repeat len1) ?_
      unions
  have kf : Len SD (Drag.flapCd (ndBackend j) (Rec.polar scalar pol) (c D)) := by
    unfold Drag.flapCd Rec.polar
    dsimp only
    refine Len.congr (by repeat len1) ?_
    unions
  have kk : Len SD (Drag.flapK (ndBackend j) (Rec.airframe scalar ac) (Rec.polar scalar pol) (c D)) := by
    unfold Drag.flapK Rec.polar Rec.airframe
    dsimp only
    have : Len SD (if ac.rear then (0.0046 : Nd) * c D else 0.0026 * c D) := by
      split <;> exact (len_mul (len_lit _ _ _) hD).congr (by unions)
    generalize (if ac.rear then (0.0046 : Nd) * c D else 0.0026 * c D) = y at this
    refine Len.congr (by repeat len1) ?_
    unions
  have k1 : Len _ (pass ((Rec.polar scalar pol).cd0 + Drag.flapCd (ndBackend j) (Rec.polar scalar pol)
      (c D) + if g then Drag.gearCd (ndBackend j) (Rec.airframe scalar ac) else 0.0)).val :=
    len_add (len_add (len_scalar _) kf) kg
  exact (len_calcDrag ac (A := pass (c A)) (B := pass (c B)) (C := pass (c C)) (E := pass _)
    (F := pass (c E)) (G := pass (c F)) hA hB hC k1 kk hE hF).congr (by unions)

theorem len_thrustTakeoff (hA : Len SA A.val) (hB : Len SB B.val) (hC : Len SC C.val) :
    Len (SA ∪ SB ∪ SC) (thrustTakeoff (ndBackend j) (Rec.thrust scalar en) A B C) := by
  refine len_call fun c hc => ?_
  have hA := hc A _ hA
  have hB := hc B _ hB
  have hC := hc C _ hC
  unfold Thrust.takeoff Thrust.takeoffRatio kts ft p0 Rec.thrust
  dsimp only
  refine Len.congr (by repeat len1) ?_
  unions

theorem len_climb (hA : Len SA A.val) (hB : Len SB B.val) (hC : Len SC C.val) (hD : Len SD D.val) :
    Len (SA ∪ SB ∪ SC ∪ SD) (Decorated.climb (ndBackend j) (Rec.thrust scalar en) A B C D) := by
  refine len_call fun c hc => ?_
  have hA := hc A _ hA
  have hB := hc B _ hB
  have hC := hc C _ hC
  have hD := hc D _ hD
  unfold Thrust.climb Thrust.dfunc Thrust.nfunc Thrust.mfunc kts ft Rec.thrust
  dsimp only
  refine Len.congr (by repeat len1) ?_
  unions

end Verif.Lengths
