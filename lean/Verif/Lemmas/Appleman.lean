import Verif.Lemmas.Contrail
import Verif.Lemmas.Interval

/-!
# The slope of the saturation curve over water

Its derivative is positive and increasing between 123 K and 332 K; enclosures of it by intervals.
-/

namespace Verif.Contrail
open Real

/-- The derivative of `B`. -/
noncomputable def B1 (T : ℝ) : ℝ := 1331.22 / T ^ 2 - 9.44523 / T + 0.014025

/-- The derivative of `W`. -/
noncomputable def W1 (T : ℝ) : ℝ := 6763.22 / T ^ 2 - 4.210 / T + 0.000367 +
  ((1 - tanh (0.0415 * (T - 218.8)) ^ 2) * 0.0415 * B T + tanh (0.0415 * (T - 218.8)) * B1 T)

/-- The derivative of `W1`. -/
noncomputable def W2 (T : ℝ) : ℝ := 4.210 / T ^ 2 - 13526.44 / T ^ 3 +
  ((1 - tanh (0.0415 * (T - 218.8)) ^ 2) * 0.083 * (B1 T - tanh (0.0415 * (T - 218.8)) * 0.0415 * B T) +
    tanh (0.0415 * (T - 218.8)) * (9.44523 / T ^ 2 - 2662.44 / T ^ 3))

theorem hasDerivAt_rational (a l d : ℝ) {T : ℝ} (hT : 0 < T) :
    HasDerivAt (fun x => a / x ^ 2 - l / x + d) (l / T ^ 2 - 2 * a / T ^ 3) T := by
  have h1 : HasDerivAt (fun x : ℝ => a / x ^ 2) (-(a * (2 * T)) / (T ^ 2) ^ 2) T := by
    simpa using (hasDerivAt_const T a).fun_div (hasDerivAt_pow 2 T) (pow_pos hT 2).ne'
  have h2 : HasDerivAt (fun x : ℝ => l / x) (-l / T ^ 2) T := by
    simpa using (hasDerivAt_const T l).fun_div (hasDerivAt_id' T) hT.ne'
  have := (h1.sub h2).add_const d
  convert! this using 1
  field_simp
  ring

theorem hasDerivAt_W1 {T : ℝ} (hT : 0 < T) : HasDerivAt W1 (W2 T) T := by
  have h1 : HasDerivAt (fun x : ℝ => 0.0415 * (x - 218.8)) 0.0415 T := by
    simpa using ((hasDerivAt_id' T).sub_const 218.8).const_mul 0.0415
  have h2 : HasDerivAt (fun x : ℝ => tanh (0.0415 * (x - 218.8)))
      ((1 - tanh (0.0415 * (T - 218.8)) ^ 2) * 0.0415) T :=
    HasDerivAt.comp (h₂ := tanh) T (hasDerivAt_tanh (0.0415 * (T - 218.8))) h1
  have h3 : HasDerivAt B (B1 T) T := hasDerivAt_B hT
  have h4 : HasDerivAt B1 (9.44523 / T ^ 2 - 2 * 1331.22 / T ^ 3) T :=
    hasDerivAt_rational 1331.22 9.44523 0.014025 hT
  have h5 := hasDerivAt_rational 6763.22 4.210 0.000367 hT
  have h6 := (((h2.fun_pow 2).const_sub 1).mul_const 0.0415).mul h3
  have h7 := h5.add (h6.add (h2.mul h4))
  convert! h7 using 1
  unfold W2
  generalize tanh (0.0415 * (T - 218.8)) = t
  push_cast
  ring

/-- The slope of the saturation pressure over water. -/
noncomputable def slopeWater (T : ℝ) : ℝ := satWater T * W1 T

theorem hasDerivAt_satWater {T : ℝ} (hT : 0 < T) : HasDerivAt satWater (slopeWater T) T :=
  (hasDerivAt_W hT).exp

theorem hasDerivAt_slopeWater {T : ℝ} (hT : 0 < T) :
    HasDerivAt slopeWater (satWater T * (W2 T + W1 T ^ 2)) T := by
  have := (hasDerivAt_satWater hT).mul (hasDerivAt_W1 hT)
  convert! this using 1
  unfold slopeWater
  ring

/-! ### Enclosures -/

section
open Verif.Interval

/-- Enclosure of the argument of `tanh`, through `tanh`. -/
def iTanh (T : Iv) : Iv := Interval.tanh (mul (rat 415 10000) (sub T (rat 2188 10)))

/-- Enclosure of `B` from `T`, its reciprocal and its logarithm. -/
def iB (T u l : Iv) : Iv :=
  add (sub (sub (rat 53878 1000) (mul (rat 133122 100) u)) (mul (rat 944523 100000) l))
    (mul (rat 14025 1000000) T)

/-- Enclosure of `B1`. -/
def iB1 (u : Iv) : Iv :=
  add (mul u (sub (mul (rat 133122 100) u) (rat 944523 100000))) (rat 14025 1000000)

/-- Enclosure of `W`. -/
def iW (T u l t b : Iv) : Iv :=
  add (add (sub (sub (rat 54842763 1000000) (mul (rat 676322 100) u)) (mul (rat 4210 1000) l))
    (mul (rat 367 1000000) T)) (mul t b)

/-- Enclosure of `W1`. -/
def iW1 (u t b b1 : Iv) : Iv :=
  add (add (mul u (sub (mul (rat 676322 100) u) (rat 4210 1000))) (rat 367 1000000))
    (add (mul (mul (sub (rat 1 1) (mul t t)) (rat 415 10000)) b) (mul t b1))

/-- Enclosure of `W2`. -/
def iW2 (u t b b1 : Iv) : Iv :=
  add (mul (mul u u) (sub (rat 4210 1000) (mul (rat 1352644 100) u)))
    (add (mul (mul (sub (rat 1 1) (mul t t)) (rat 83 1000))
        (sub b1 (mul (mul t (rat 415 10000)) b)))
      (mul t (mul (mul u u) (sub (rat 944523 100000) (mul (rat 266244 100) u)))))

variable {I u l t b b1 : Iv} {T : ℝ}

theorem has_iTanh (h : Has I T) : Has (iTanh I) (Real.tanh (0.0415 * (T - 218.8))) := by
  have c1 := has_rat 415 10000
  have c2 := has_rat 2188 10
  norm_num at c1 c2
  have := (c1.mul (h.sub c2)).tanh
  norm_num at this ⊢
  exact this

theorem has_iB (h : Has I T) (hu : Has u T⁻¹) (hl : Has l (Real.log T)) : Has (iB I u l) (B T) := by
  have c1 := has_rat 53878 1000
  have c2 := has_rat 133122 100
  have c3 := has_rat 944523 100000
  have c4 := has_rat 14025 1000000
  have := ((c1.sub (c2.mul hu)).sub (c3.mul hl)).add (c4.mul h)
  refine cast (congrArg _ ?_) this
  unfold B
  norm_num
  ring

theorem has_iB1 (hu : Has u T⁻¹) : Has (iB1 u) (B1 T) := by
  have c2 := has_rat 133122 100
  have c3 := has_rat 944523 100000
  have c4 := has_rat 14025 1000000
  have := (hu.mul ((c2.mul hu).sub c3)).add c4
  refine cast (congrArg _ ?_) this
  unfold B1
  norm_num
  ring

theorem has_iW (h : Has I T) (hu : Has u T⁻¹) (hl : Has l (Real.log T))
    (ht : Has t (Real.tanh (0.0415 * (T - 218.8)))) (hb : Has b (B T)) : Has (iW I u l t b) (W T) := by
  have c1 := has_rat 54842763 1000000
  have c2 := has_rat 676322 100
  have c3 := has_rat 4210 1000
  have c4 := has_rat 367 1000000
  have := (((c1.sub (c2.mul hu)).sub (c3.mul hl)).add (c4.mul h)).add (ht.mul hb)
  refine cast (congrArg _ ?_) this
  unfold W
  norm_num
  ring

theorem has_iW1 (hu : Has u T⁻¹) (ht : Has t (Real.tanh (0.0415 * (T - 218.8))))
    (hb : Has b (B T)) (hb1 : Has b1 (B1 T)) : Has (iW1 u t b b1) (W1 T) := by
  have c2 := has_rat 676322 100
  have c3 := has_rat 4210 1000
  have c4 := has_rat 367 1000000
  have c5 := has_rat 415 10000
  have := ((hu.mul ((c2.mul hu).sub c3)).add c4).add
    ((((has_one.sub (ht.mul ht)).mul c5).mul hb).add (ht.mul hb1))
  refine cast (congrArg _ ?_) this
  unfold W1
  generalize Real.tanh (0.0415 * (T - 218.8)) = t'
  norm_num
  ring

theorem has_iW2 (hu : Has u T⁻¹) (ht : Has t (Real.tanh (0.0415 * (T - 218.8))))
    (hb : Has b (B T)) (hb1 : Has b1 (B1 T)) : Has (iW2 u t b b1) (W2 T) := by
  have c1 := has_rat 4210 1000
  have c2 := has_rat 1352644 100
  have c3 := has_rat 83 1000
  have c4 := has_rat 415 10000
  have c5 := has_rat 944523 100000
  have c6 := has_rat 266244 100
  have := ((hu.mul hu).mul (c1.sub (c2.mul hu))).add
    ((((has_one.sub (ht.mul ht)).mul c3).mul (hb1.sub ((ht.mul c4).mul hb))).add
      (ht.mul ((hu.mul hu).mul (c5.sub (c6.mul hu)))))
  refine cast (congrArg _ ?_) this
  unfold W2
  generalize Real.tanh (0.0415 * (T - 218.8)) = t'
  norm_num
  ring

/-- Evaluation of an interval before it is passed on. -/
def forceIv {β : Type} (I : Iv) (f : Iv → β) : β :=
  match I with
  | some (a, b) => force a fun a => force b fun b => f (some (a, b))
  | none => f none

@[simp] theorem forceIv_eq {β : Type} (I : Iv) (f : Iv → β) : forceIv I f = f I := by
  rcases I with _ | ⟨a, b⟩ <;> simp [forceIv]

/-- On the cell `W1` is positive, `W2 + W1 ^ 2` is positive, and less than `0.13 W1` from 218 K to 251 K. -/
def curved (i : ℕ) : Bool :=
  forceIv (cell 123 1 i) fun T => forceIv (Interval.inv T) fun u => forceIv (iTanh T) fun t =>
  forceIv (iB T u (Interval.log T)) fun b => forceIv (iB1 u) fun b1 => forceIv (iW1 u t b b1) fun w =>
  forceIv (add (iW2 u t b b1) (mul w w)) fun c =>
    above 0 1 w && above 0 1 c &&
      (Nat.blt i 95 || Nat.blt 127 i || below 0 1 (sub c (mul (rat 13 100) w)))

/-- Enclosure of the slope. -/
def iSlope (T : Iv) : Iv :=
  forceIv (Interval.inv T) fun u => forceIv (Interval.log T) fun l => forceIv (iTanh T) fun t =>
  forceIv (iB T u l) fun b => mul (Interval.exp (iW T u l t b)) (iW1 u t b (iB1 u))

theorem has_iSlope (h : Has I T) : Has (iSlope I) (slopeWater T) := by
  simp only [iSlope, forceIv_eq]
  have hb := has_iB h h.inv h.log
  exact (has_iW h h.inv h.log (has_iTanh h) hb).exp.mul
    (has_iW1 h.inv (has_iTanh h) hb (has_iB1 h.inv))

/-- Enclosure of the threshold. -/
def iThreshold (g : Iv) : Iv :=
  forceIv (Interval.log (sub g (rat 53 1000))) fun x =>
    add (add (add (rat (-4646) 100) (mul (rat 943 100) x)) (mul (rat 72 100) (mul x x)))
      (rat 27315 100)

theorem has_iThreshold {g : Iv} {x : ℝ} (h : Has g x) : Has (iThreshold g) (thresholdWater x) := by
  simp only [iThreshold, forceIv_eq]
  have hx : Has (Interval.log (sub g (rat 53 1000))) (Real.log (x - 0.053)) := by
    have := (h.sub (has_rat 53 1000)).log
    norm_num at this ⊢
    exact this
  have := (((has_rat (-4646) 100).add ((has_rat 943 100).mul hx)).add
    ((has_rat 72 100).mul (hx.mul hx))).add (has_rat 27315 100)
  refine cast (congrArg _ ?_) this
  unfold thresholdWater
  norm_num
  ring

/-- At `(5475 + i) / 25` K the threshold for the slope there is within 0.06 K. -/
def close (i : ℕ) : Bool :=
  forceIv (rat (5475 + i) 25) fun T => forceIv (sub (iThreshold (iSlope T)) T) fun d =>
    above (-6) 100 d && below 6 100 d

/-- On the cell the exponent for ice is less by 0.165. -/
def drier (i : ℕ) : Bool :=
  forceIv (cell 438 2 i) fun T => forceIv (Interval.inv T) fun u => forceIv (Interval.log T) fun l =>
    above 165 1000 (add (add (sub (sub (rat 45292337 1000000) (mul (rat 1039955 1000) u))
      (mul (rat 774068 100000) l)) (mul (rat 765032 100000000) T)) (mul (iTanh T) (iB T u l)))

end

end Verif.Contrail
