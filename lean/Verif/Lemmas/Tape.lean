import Verif.Prelude.Tape
import Verif.Lemmas.OverflowFuel

/-! Derivatives of the fuel flow on a machine that overflows. -/

namespace Verif.XT
open Verif.XR Verif.Aero Verif.Spec Verif.Fuel Real

variable {ca : Bool} {Ω : ℝ} {ι : Type} {w : ℝ}

@[simp] theorem nan_add (x : XR Ω) : (nan : XR Ω) + x = nan := rfl
@[simp] theorem add_nan (x : XR Ω) : x + (nan : XR Ω) = nan := by cases x <;> rfl
@[simp] theorem nan_mul (x : XR Ω) : (nan : XR Ω) * x = nan := rfl
@[simp] theorem mul_nan (x : XR Ω) : x * (nan : XR Ω) = nan := by cases x <;> rfl
@[simp] theorem nan_div (x : XR Ω) : (nan : XR Ω) / x = nan := rfl
@[simp] theorem neg_nan : -(nan : XR Ω) = nan := rfl

/-- A number times infinity is not finite, and that divided by infinity is NaN. -/
theorem mul_pinf_div (g : XR Ω) : g * pinf / pinf = nan ∧ g * pinf * (fin 1 / pinf) = nan := by
  have e : (fin 1 / pinf : XR Ω) = fin 0 := rfl
  have m0 : (pinf : XR Ω) * fin 0 = nan := by
    change scaled 0 pinf = _; simp [scaled]
  have m1 : (minf : XR Ω) * fin 0 = nan := by
    change scaled 0 minf = _; simp [scaled]
  rw [e]
  cases g with
  | nan => simp
  | pinf => exact ⟨rfl, m0⟩
  | minf => exact ⟨rfl, m1⟩
  | fin y =>
    have h : (fin y * pinf : XR Ω) = pinf ∨ (fin y * pinf : XR Ω) = minf ∨ (fin y * pinf : XR Ω) = nan := by
      change scaled y pinf = _ ∨ scaled y pinf = _ ∨ scaled y pinf = _
      unfold scaled
      split_ifs
      · exact .inl rfl
      · exact .inr (.inl rfl)
      · exact .inr (.inr rfl)
    rcases h with h | h | h <;> rw [h]
    · exact ⟨rfl, m0⟩
    · exact ⟨rfl, m1⟩
    · simp

/-- A cotangent divided by infinity is zero or NaN, and that times infinity is NaN. -/
theorem div_pinf_mul (hp : 0 < Ω) (g : XR Ω) : g / pinf * pinf = nan ∧ g * (fin 1 / pinf) * pinf = nan := by
  have e : (fin 1 / pinf : XR Ω) = fin 0 := rfl
  have m0 : (fin 0 : XR Ω) * pinf = nan := by
    change scaled 0 pinf = _; simp [scaled]
  rw [e]
  cases g with
  | nan => simp
  | pinf =>
    refine ⟨rfl, ?_⟩
    have : (pinf : XR Ω) * fin 0 = nan := by change scaled 0 pinf = _; simp [scaled]
    rw [this]; rfl
  | minf =>
    refine ⟨rfl, ?_⟩
    have : (minf : XR Ω) * fin 0 = nan := by change scaled 0 minf = _; simp [scaled]
    rw [this]; rfl
  | fin y =>
    refine ⟨m0, ?_⟩
    change (res (y * 0) : XR Ω) * pinf = nan
    rw [mul_zero]
    rw [res_fin (by simpa using hp)]
    exact m0

/-- The tape of the limiter. -/
theorem limiter_t (x : XT ca Ω ι) {s : Tape Ω ι} (hx : x.t = some s) :
    (limiter (tape ca w Ω ι) x).p = limiter (ovf Ω) x.p ∧
    (limiter (tape ca w Ω ι) x).t = some (.scale
      (if ca then (· * (fin 1 / (ovf Ω).log (1.0 + (ovf Ω).exp 50.0))) else
        (· / (ovf Ω).log (1.0 + (ovf Ω).exp 50.0)))
      (.add
        (.scale (if ca then (· * (fin 1 / (1.0 + (ovf Ω).exp (50.0 * (x.p - 0.03))))) else
            (· / (1.0 + (ovf Ω).exp (50.0 * (x.p - 0.03)))))
          (.scale (· * (ovf Ω).exp (50.0 * (x.p - 0.03))) (.scale (50.0 * ·) s)))
        (.scale (- ·)
          (.scale (if ca then (· * (fin 1 / (1.0 + (ovf Ω).exp (45.0 * (x.p - 1.2))))) else
              (· / (1.0 + (ovf Ω).exp (45.0 * (x.p - 1.2)))))
            (.scale (· * (ovf Ω).exp (45.0 * (x.p - 1.2))) (.scale (45.0 * ·) s)))))) := by
  obtain ⟨p, t⟩ := x
  subst hx
  cases ca <;> exact ⟨rfl, rfl⟩

/-- The tape of the fuel curve. -/
theorem funcFuel_t (f : Fuel.Params ℝ) (x : XT ca Ω ι) {s : Tape Ω ι} (hx : x.t = some s) :
    (funcFuel (tape ca w Ω ι) (Rec.fuel const f) x).p = funcFuel (ovf Ω) (Rec.fuel fin f) x.p ∧
    (funcFuel (tape ca w Ω ι) (Rec.fuel const f) x).t = some (.scale (fin f.scale * ·) (.scale (- ·)
      (.scale (· * (ovf Ω).exp (-fin f.c2 * (x.p * (ovf Ω).exp (fin f.c3 * x.p) -
          (ovf Ω).log (fin f.c1) / fin f.c2)))
        (.scale (-fin f.c2 * ·) (.add
          (.scale (· * (ovf Ω).exp (fin f.c3 * x.p)) s)
          (.scale (x.p * ·) (.scale (· * (ovf Ω).exp (fin f.c3 * x.p)) (.scale (fin f.c3 * ·) s)))))))) := by
  obtain ⟨p, t⟩ := x
  subst hx
  cases ca <;> exact ⟨rfl, rfl⟩

/-- The tape of a ratio of thrusts. -/
theorem ratio_t (n m : ℝ) (x : XT ca Ω ι) {s : Tape Ω ι} (hx : x.t = some s) :
    (x / const n / const m).p = x.p / fin n / fin m ∧
    (x / const n / const m).t = some (.scale (if ca then (· * (fin 1 / fin m)) else (· / fin m))
      (.scale (if ca then (· * (fin 1 / fin n)) else (· / fin n)) s)) := by
  obtain ⟨p, t⟩ := x
  subst hx
  cases ca <;> exact ⟨rfl, rfl⟩

/-- Every step maps NaN to NaN. -/
def _root_.Verif.Tape.Strict : Tape Ω ι → Prop
  | .input _ => True
  | .scale f s => f nan = nan ∧ s.Strict
  | .add s t => s.Strict ∧ t.Strict

/-- The input occurs. -/
def _root_.Verif.Tape.Uses (i : ι) : Tape Ω ι → Prop
  | .input j => i = j
  | .scale _ s => s.Uses i
  | .add s t => s.Uses i ∨ t.Uses i

/-- A NaN going back reaches every input that occurs. -/
theorem backward_nan {i : ι} : ∀ {s : Tape Ω ι}, s.Strict → s.Uses i → Tape.backward nan s i = nan
  | .input j, _, h => if_pos h
  | .scale f s, h, u => by
    change Tape.backward (f nan) s i = nan
    rw [h.1]; exact backward_nan h.2 u
  | .add s t, h, u => by
    change Tape.backward nan s i + Tape.backward nan t i = nan
    rcases u with u | u
    · rw [backward_nan h.1 u]; rfl
    · rw [backward_nan h.2 u]; simp

variable {f : Fuel.Params ℝ}

/-- **The gradient is NaN once the first exponential overflows**, in both directions. -/
theorem atThrust_t_nan (hp : 0 < Ω) {x : XT ca Ω ι} {s : Tape Ω ι} (hx : x.t = some s) {r : ℝ}
    (hr : x.p / fin f.number / fin f.maxThrust = fin r)
    (he : (ovf Ω).exp ((50.0 : XR Ω) * (fin r - 0.03)) = pinf) :
    ∃ t, (atThrust (tape ca w Ω ι) (Rec.fuel const f) x).t = some t ∧
      (∀ v, t.forward v = nan) ∧
      (s.Strict → ∀ i, s.Uses i → ∀ ct, Tape.backward ct t i = nan) := by
  obtain ⟨r1, r2⟩ := ratio_t (ca := ca) f.number f.maxThrust x hx
  rw [hr] at r1
  obtain ⟨l1, l2⟩ := limiter_t (w := w) _ r2
  obtain ⟨g1, g2⟩ := funcFuel_t (w := w) f _ l2
  have e : (atThrust (tape ca w Ω ι) (Rec.fuel const f) x).t =
      step (· * fin f.number) (funcFuel (tape ca w Ω ι) (Rec.fuel const f)
        (limiter (tape ca w Ω ι) (x / const f.number / const f.maxThrust))).t := by
    rw [g2]
    change join (step _ (funcFuel (tape ca w Ω ι) (Rec.fuel const f)
        (limiter (tape ca w Ω ι) (x / const f.number / const f.maxThrust))).t) (step _ none) = _
    rw [g2]; rfl
  rw [g2] at e
  have hu : (1.0 : XR Ω) + pinf = pinf := rfl
  refine ⟨_, e, fun v => ?_, fun hs i hi ct => ?_⟩
  · simp only [Tape.forward, r1, he, hu]
    cases ca
    · simp [(mul_pinf_div _).1]
    · simp [(mul_pinf_div _).2]
  · simp only [Tape.backward, r1, he, hu]
    have hb : Tape.backward nan (.scale (if ca then (· * (fin 1 / fin f.maxThrust)) else
        (· / fin f.maxThrust)) (.scale (if ca then (· * (fin 1 / fin f.number)) else
        (· / fin f.number)) s)) i = nan := by
      refine backward_nan ⟨?_, ?_, hs⟩ hi <;> cases ca <;> rfl
    simp only [Tape.backward] at hb
    cases ca
    · simp only [Bool.false_eq_true, if_false] at hb ⊢
      simp only [(div_pinf_mul hp _).1, mul_nan, hb, nan_add]
    · simp only [if_true] at hb ⊢
      simp only [(div_pinf_mul hp _).2, mul_nan, hb, nan_add]

end Verif.XT
