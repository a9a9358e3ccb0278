import Verif.Lemmas.Tape

/-! The tape of the required thrust: which inputs it uses. -/

namespace Verif.XT
open Verif.XR Verif.Aero Verif.Spec Verif.Fuel Real

variable {ca : Bool} {Ω : ℝ} {ι : Type} {w : ℝ} {i : ι}

/-- The input `i` occurs in the tape. -/
def Use (i : ι) (x : XT ca Ω ι) : Prop := ∃ s, x.t = some s ∧ s.Uses i

/-- Every step of the tape maps NaN to NaN. -/
def Ok (x : XT ca Ω ι) : Prop := ∀ s, x.t = some s → s.Strict

theorem use_join {s t : Option (Tape Ω ι)} : (∃ u, join s t = some u ∧ u.Uses i) ↔
    (∃ u, s = some u ∧ u.Uses i) ∨ ∃ u, t = some u ∧ u.Uses i := by
  cases s <;> cases t <;> simp [join, Tape.Uses]

theorem use_step {f : XR Ω → XR Ω} {s : Option (Tape Ω ι)} : (∃ u, step f s = some u ∧ u.Uses i) ↔
    ∃ u, s = some u ∧ u.Uses i := by
  cases s <;> simp [step, Tape.Uses]

theorem ok_join {s t : Option (Tape Ω ι)} : (∀ u, join s t = some u → u.Strict) ↔
    (∀ u, s = some u → u.Strict) ∧ ∀ u, t = some u → u.Strict := by
  cases s <;> cases t <;> simp [join, Tape.Strict]

theorem ok_step {f : XR Ω → XR Ω} (hf : f nan = nan) {s : Option (Tape Ω ι)} :
    (∀ u, step f s = some u → u.Strict) ↔ ∀ u, s = some u → u.Strict := by
  cases s <;> simp [step, Tape.Strict, hf]

variable (x y z : XT ca Ω ι)

@[simp] theorem use_const (c : ℝ) : ¬ Use i (const c : XT ca Ω ι) := by simp [Use, const]
@[simp] theorem use_sci (m : ℕ) (s : Bool) (e : ℕ) :
    ¬ Use i (OfScientific.ofScientific m s e : XT ca Ω ι) := by
  rintro ⟨u, h, -⟩; cases h
@[simp] theorem use_add : Use i (x + y) ↔ Use i x ∨ Use i y := use_join
@[simp] theorem use_sub : Use i (x - y) ↔ Use i x ∨ Use i y :=
  use_join.trans (or_congr Iff.rfl use_step)
@[simp] theorem use_mul : Use i (x * y) ↔ Use i x ∨ Use i y :=
  use_join.trans (or_congr use_step use_step)
@[simp] theorem use_div : Use i (x / y) ↔ Use i x ∨ Use i y := by
  cases ca <;> exact use_join.trans (or_congr use_step use_step)
@[simp] theorem use_neg : Use i (-x) ↔ Use i x := use_step
@[simp] theorem use_sq : Use i (x ^ 2) ↔ Use i x := use_step
@[simp] theorem use_exp : Use i ((tape ca w Ω ι).exp x) ↔ Use i x := use_step
@[simp] theorem use_sin : Use i ((tape ca w Ω ι).sin x) ↔ Use i x := use_step
@[simp] theorem use_cos : Use i ((tape ca w Ω ι).cos x) ↔ Use i x := use_step
@[simp] theorem use_power : Use i ((tape ca w Ω ι).power x y) ↔ Use i x ∨ Use i y :=
  use_join.trans (or_congr use_step use_step)
@[simp] theorem use_arctan2 : Use i ((tape ca w Ω ι).arctan2 x y) ↔ Use i x ∨ Use i y :=
  use_join.trans (or_congr use_step use_step)
@[simp] theorem use_maximum : Use i ((tape ca w Ω ι).maximum x y) ↔ Use i x ∨ Use i y :=
  use_join.trans (or_congr use_step use_step)
theorem use_min : Use i (XT.min w x y) ↔ Use i x ∨ Use i y :=
  use_join.trans (or_congr use_step use_step)
theorem use_max : Use i (XT.max w x y) ↔ Use i x ∨ Use i y :=
  use_join.trans (or_congr use_step use_step)
@[simp] theorem use_clip : Use i ((tape ca w Ω ι).clip x y z) ↔ Use i x ∨ Use i y ∨ Use i z := by
  cases ca
  · exact (use_min _ _).trans (by rw [use_max]; tauto)
  · exact (use_max _ _).trans (by rw [use_min]; tauto)

@[simp] theorem ok_const (c : ℝ) : Ok (const c : XT ca Ω ι) := by simp [Ok, const]
@[simp] theorem ok_input (c : ℝ) : Ok (input c i : XT ca Ω ι) := by simp [Ok, input, Tape.Strict]
@[simp] theorem ok_sci (m : ℕ) (s : Bool) (e : ℕ) :
    Ok (OfScientific.ofScientific m s e : XT ca Ω ι) := by
  rintro u h; cases h
@[simp] theorem ok_add : Ok (x + y) ↔ Ok x ∧ Ok y := ok_join
@[simp] theorem ok_mul : Ok (x * y) ↔ Ok x ∧ Ok y :=
  ok_join.trans (and_congr (ok_step rfl) (ok_step (mul_nan _)))
@[simp] theorem ok_sub : Ok (x - y) ↔ Ok x ∧ Ok y := ok_join.trans (and_congr Iff.rfl (ok_step rfl))
@[simp] theorem ok_div : Ok (x / y) ↔ Ok x ∧ Ok y := by
  cases ca
  · exact ok_join.trans (and_congr (ok_step rfl) (ok_step rfl))
  · exact ok_join.trans (and_congr (ok_step rfl) (ok_step rfl))
@[simp] theorem ok_neg : Ok (-x) ↔ Ok x := ok_step rfl
@[simp] theorem ok_sq : Ok (x ^ 2) ↔ Ok x := ok_step rfl
@[simp] theorem ok_exp : Ok ((tape ca w Ω ι).exp x) ↔ Ok x := ok_step rfl
@[simp] theorem ok_sin : Ok ((tape ca w Ω ι).sin x) ↔ Ok x := ok_step rfl
@[simp] theorem ok_cos : Ok ((tape ca w Ω ι).cos x) ↔ Ok x := ok_step rfl
@[simp] theorem ok_power : Ok ((tape ca w Ω ι).power x y) ↔ Ok x ∧ Ok y :=
  ok_join.trans (and_congr (ok_step rfl) (ok_step rfl))
@[simp] theorem ok_arctan2 : Ok ((tape ca w Ω ι).arctan2 x y) ↔ Ok x ∧ Ok y :=
  ok_join.trans (and_congr (ok_step rfl) (ok_step rfl))
@[simp] theorem ok_maximum : Ok ((tape ca w Ω ι).maximum x y) ↔ Ok x ∧ Ok y :=
  ok_join.trans (and_congr (ok_step rfl) (ok_step rfl))
theorem ok_min : Ok (XT.min w x y) ↔ Ok x ∧ Ok y :=
  ok_join.trans (and_congr (ok_step rfl) (ok_step rfl))
theorem ok_max : Ok (XT.max w x y) ↔ Ok x ∧ Ok y :=
  ok_join.trans (and_congr (ok_step rfl) (ok_step rfl))
@[simp] theorem ok_clip : Ok ((tape ca w Ω ι).clip x y z) ↔ Ok x ∧ Ok y ∧ Ok z := by
  cases ca
  · exact (ok_min _ _).trans (by rw [ok_max]; tauto)
  · exact (ok_max _ _).trans (by rw [ok_min]; tauto)

variable (ac : Drag.Airframe ℝ) (pol : Drag.Polar ℝ) (mass tas alt vs acc dT : XT ca Ω ι)

/-- Every argument is used. -/
theorem use_enrouteThrust : Use i (enrouteThrust (tape ca w Ω ι) (Rec.airframe const ac)
      (Rec.polar const pol) false mass tas alt vs acc dT) ↔
    Use i mass ∨ Use i tas ∨ Use i alt ∨ Use i vs ∨ Use i acc ∨ Use i dT := by
  simp [enrouteThrust, Drag.clean, Drag.calcDrag, Drag.cl, density, atmos, Rec.airframe, Rec.polar,
    kts, ft, fpm, g0, rho0, T0, beta, -mul_neg, -neg_mul]
  tauto

theorem ok_enrouteThrust (h1 : Ok mass) (h2 : Ok tas) (h3 : Ok alt) (h4 : Ok vs) (h5 : Ok acc)
    (h6 : Ok dT) : Ok (enrouteThrust (tape ca w Ω ι) (Rec.airframe const ac)
      (Rec.polar const pol) false mass tas alt vs acc dT) := by
  simp [enrouteThrust, Drag.clean, Drag.calcDrag, Drag.cl, density, atmos, Rec.airframe, Rec.polar,
    kts, ft, fpm, g0, rho0, T0, beta, *]

/-- The value is that without derivatives. -/
theorem p_enrouteThrust {d : ℝ} (hd : dT.p = fin d) :
    (enrouteThrust (tape ca w Ω ι) (Rec.airframe const ac) (Rec.polar const pol) false mass tas alt
      vs acc dT).p = enrouteThrust (ovf Ω) (Rec.airframe fin ac) (Rec.polar fin pol) false mass.p
        tas.p alt.p vs.p acc.p dT.p := by
  have hc : ((tape ca w Ω ι).clip dT (-25.0) 15.0).p = (ovf Ω).clip dT.p (-25.0) 15.0 := by
    cases ca
    · rfl
    · change (ovf Ω).maximum (-25.0) ((ovf Ω).minimum dT.p 15.0) = _
      rw [hd]
      change fin (Max.max _ (Min.min _ _)) = fin (Min.min (Max.max _ _) _)
      congr 1
      rcases le_total d (-25.0) with h1 | h1 <;> rcases le_total d 15.0 with h2 | h2 <;>
        simp [h1, h2] <;> norm_num at * <;> linarith
  have hr : (density (tape ca w Ω ι) (alt * ft) dT).p = density (ovf Ω) (alt.p * ft) dT.p := by
    unfold density atmos
    dsimp only
    generalize (tape ca w Ω ι).clip dT (-25.0) 15.0 = c at hc ⊢
    rw [← hc]; rfl
  unfold enrouteThrust Drag.clean Drag.calcDrag Drag.cl
  dsimp only
  generalize density (tape ca w Ω ι) (alt * ft) dT = c at hr ⊢
  rw [← hr]; rfl

end Verif.XT
