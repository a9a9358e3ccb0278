import Verif.Lemmas.Tape

/-! Derivatives of the fuel flow below overflow. -/

namespace Verif.XT
open Verif.XR Verif.Aero Verif.Spec Verif.Fuel Real

variable {ca : Bool} {Ω : ℝ} {ι : Type} {w : ℝ}

/-- The step multiplies by `c`, unless the product overflows. -/
def Lin (f : XR Ω → XR Ω) (c : ℝ) : Prop := ∀ g, |g * c| < Ω → f (fin g) = fin (g * c)

theorem lin_mul (c : ℝ) : Lin (Ω := Ω) (· * fin c) c := fun _ h => fin_mul h
theorem lin_mul' (c : ℝ) : Lin (Ω := Ω) (fin c * ·) c := fun g h => by
  rw [mul_comm] at h ⊢; exact fin_mul h
theorem lin_neg : Lin (Ω := Ω) (- ·) (-1) := fun g _ => by
  change fin (-g) = _; rw [mul_neg_one]
theorem lin_quot {c : ℝ} (h0 : c ≠ 0) (h1 : |1 / c| < Ω) :
    Lin (Ω := Ω) (if ca then (· * (fin 1 / fin c)) else (· / fin c)) (1 / c) := fun g h => by
  cases ca
  · simp only [Bool.false_eq_true, if_false]
    rw [mul_one_div] at h ⊢
    exact fin_div h0 h
  · simp only [if_true]
    rw [fin_div h0 h1, fin_mul h]

theorem Lin.at {f : XR Ω → XR Ω} {c : ℝ} (h : Lin f c) {g B : ℝ} (hb : |g * c| ≤ B) (hB : B < Ω) :
    f (fin g) = fin (g * c) := h g (hb.trans_lt hB)

theorem abs_mul_le {a c A C : ℝ} (h1 : |a| ≤ A) (h2 : |c| ≤ C) : |a * c| ≤ A * C := by
  rw [abs_mul]; exact mul_le_mul h1 h2 (abs_nonneg c) ((abs_nonneg a).trans h1)

theorem abs_add_le' {a c A C : ℝ} (h1 : |a| ≤ A) (h2 : |c| ≤ C) : |a + c| ≤ A + C :=
  (abs_add_le a c).trans (add_le_add h1 h2)

/-- The tape of the limiter on one input in both directions. -/
theorem limiter_exact (hΩ : 1 < Ω) {i : ι} {n m e1 e2 L : ℝ}
    (n0 : 1 ≤ n) (m0 : 1000 ≤ m) (e10 : 0 < e1) (e1Ω : e1 < Ω)
    (e20 : 0 < e2) (e2Ω : e2 < Ω) (L0 : 50 ≤ L)
    {fn fm f50 fe1 fu1 f45 fe2 fu2 fng fL : XR Ω → XR Ω}
    (hn : Lin fn (1 / n)) (hm : Lin fm (1 / m)) (h50 : Lin f50 50) (he1 : Lin fe1 e1)
    (hu1 : Lin fu1 (1 / (1 + e1))) (h45 : Lin f45 45) (he2 : Lin fe2 e2) (hu2 : Lin fu2 (1 / (1 + e2)))
    (hng : Lin fng (-1)) (hL : Lin fL (1 / L)) :
    let r : Tape Ω ι := .scale fm (.scale fn (.input i))
    let l : Tape Ω ι := .scale fL (.add (.scale fu1 (.scale fe1 (.scale f50 r)))
      (.scale fng (.scale fu2 (.scale fe2 (.scale f45 r)))))
    let d : ℝ := (50 * (e1 / (1 + e1)) - 45 * (e2 / (1 + e2))) / L / (n * m)
    |d| ≤ 1 / 500 ∧ (∀ v : ℝ, |v| ≤ 1 → l.forward (fun _ => fin v) = fin (v * d)) ∧
    (∀ c : ℝ, 100 * |c| < Ω → l.backward (fin c) i = fin (c * d)) := by
  intro r l d
  have hn1 : |1 / n| ≤ 1 := by
    rw [abs_of_pos (by positivity), div_le_one (by linarith)]; exact n0
  have hm1 : |1 / m| ≤ 1 / 1000 := by
    rw [abs_of_pos (by positivity)]; exact one_div_le_one_div_of_le (by norm_num) m0
  have q1 : |e1 * (1 / (1 + e1))| ≤ 1 := by
    rw [abs_of_pos (by positivity), mul_one_div, div_le_one (by linarith)]; linarith
  have q2 : |e2 * (1 / (1 + e2))| ≤ 1 := by
    rw [abs_of_pos (by positivity), mul_one_div, div_le_one (by linarith)]; linarith
  have q1' : |1 / (1 + e1)| ≤ 1 := by
    rw [abs_of_pos (by positivity), div_le_one (by linarith)]; linarith
  have q2' : |1 / (1 + e2)| ≤ 1 := by
    rw [abs_of_pos (by positivity), div_le_one (by linarith)]; linarith
  have q3 : |1 / L| ≤ 1 / 50 := by
    rw [abs_of_pos (by positivity)]; exact one_div_le_one_div_of_le (by norm_num) L0
  have a1 : |e1| ≤ e1 := (abs_of_pos e10).le
  have a2 : |e2| ≤ e2 := (abs_of_pos e20).le
  have v1 : |(-1 : ℝ)| ≤ 1 := by norm_num
  have w50 : |(50 : ℝ)| ≤ 50 := by norm_num
  have w45 : |(45 : ℝ)| ≤ 45 := by norm_num
  have hd : d = (50 * (e1 * (1 / (1 + e1))) + 45 * (e2 * (1 / (1 + e2))) * -1) * (1 / L) * (1 / m) *
      (1 / n) := by
    simp only [d]; rw [div_div]; simp only [div_eq_mul_inv, mul_inv]; ring
  refine ⟨?_, ?_, ?_⟩
  · rw [hd]
    exact (abs_mul_le (abs_mul_le (abs_mul_le (abs_add_le' (abs_mul_le w50 q1)
      (abs_mul_le (abs_mul_le w45 q2) v1)) q3) hm1) hn1).trans (by norm_num)
  · intro v hv
    have b1 := abs_mul_le hv hn1
    have b2 := abs_mul_le b1 hm1
    have b3 := abs_mul_le b2 w50
    have b4 := abs_mul_le b3 a1
    have b5 : |v * (1 / n) * (1 / m) * 50 * e1 * (1 / (1 + e1))| ≤ 1 / 20 := by
      rw [mul_assoc _ e1]
      exact (abs_mul_le b3 q1).trans (by norm_num)
    have d3 := abs_mul_le b2 w45
    have d4 := abs_mul_le d3 a2
    have d5 : |v * (1 / n) * (1 / m) * 45 * e2 * (1 / (1 + e2))| ≤ 1 / 20 := by
      rw [mul_assoc _ e2]
      exact (abs_mul_le d3 q2).trans (by norm_num)
    have d6 := abs_mul_le d5 v1
    have s1 := abs_add_le' b5 d6
    have s2 := abs_mul_le s1 q3
    simp only [l, r, Tape.forward]
    rw [hn.at b1 (by linarith only [hΩ]), hm.at b2 (by linarith only [hΩ]),
      h50.at b3 (by linarith only [hΩ]), he1.at b4 (by linarith only [e1Ω, e10]),
      hu1.at b5 (by linarith only [hΩ]), h45.at d3 (by linarith only [hΩ]),
      he2.at d4 (by linarith only [e2Ω, e20]), hu2.at d5 (by linarith only [hΩ]),
      hng.at d6 (by linarith only [hΩ]), fin_add (s1.trans_lt (by linarith only [hΩ])),
      hL.at s2 (by linarith only [hΩ]), hd]
    congr 1
    ring
  · intro c hc
    have c0 := abs_nonneg c
    have b1 := abs_mul_le (le_refl |c|) q3
    have b2 := abs_mul_le b1 q1'
    have b3 : |c * (1 / L) * (1 / (1 + e1)) * e1| ≤ |c| := by
      rw [mul_assoc, mul_comm (1 / (1 + e1))]
      exact (abs_mul_le b1 q1).trans (by linarith only [c0])
    have b4 := abs_mul_le b3 w50
    have b5 := abs_mul_le b4 hm1
    have b6 := abs_mul_le b5 hn1
    have d2 := abs_mul_le b1 v1
    have d3 := abs_mul_le d2 q2'
    have d4 : |c * (1 / L) * -1 * (1 / (1 + e2)) * e2| ≤ |c| := by
      rw [mul_assoc, mul_comm (1 / (1 + e2))]
      exact (abs_mul_le d2 q2).trans (by linarith only [c0])
    have d5 := abs_mul_le d4 w45
    have d6 := abs_mul_le d5 hm1
    have d7 := abs_mul_le d6 hn1
    have s1 := abs_add_le' b6 d7
    simp only [l, r, Tape.backward, if_true]
    rw [hL.at b1 (by linarith only [hc, c0]), hu1.at b2 (by linarith only [hc, c0]),
      he1.at b3 (by linarith only [hc, c0]), h50.at b4 (by linarith only [hc, c0]),
      hm.at b5 (by linarith only [hc, c0]), hn.at b6 (by linarith only [hc, c0]),
      hng.at d2 (by linarith only [hc, c0]), hu2.at d3 (by linarith only [hc, c0]),
      he2.at d4 (by linarith only [hc, c0]), h45.at d5 (by linarith only [hc, c0]),
      hm.at d6 (by linarith only [hc, c0]), hn.at d7 (by linarith only [hc, c0]),
      fin_add (s1.trans_lt (by linarith only [hc, c0])), hd]
    congr 1
    ring

/-- The tape of the fuel curve after a tape that is exact in both directions. -/
theorem curve_exact {l : Tape Ω ι} {i : ι} {d B : ℝ} (hd : |d| ≤ 1 / 500) (hB : 0 ≤ B)
    (hΩ : 1000000000 * (B + 1) < Ω)
    (hf : ∀ v : ℝ, |v| ≤ 1 → l.forward (fun _ => fin v) = fin (v * d))
    (hb : ∀ c : ℝ, 100 * |c| < Ω → l.backward (fin c) i = fin (c * d))
    {n E c3 x c2 e' scale : ℝ} (n0 : 0 ≤ n ∧ n ≤ 10) (E0 : 0 ≤ E) (EB : E ≤ B)
    (c30 : 0 ≤ c3 ∧ c3 ≤ 4) (x0 : 0 ≤ x) (xE : x * E ≤ B) (xB : x ≤ B + 1)
    (c20 : 0 ≤ c2 ∧ c2 ≤ 3) (e'0 : 0 ≤ e' ∧ e' ≤ 4) (s0 : 0 ≤ scale ∧ scale ≤ 1000)
    {fE fc3 fE' fx fc2 fe' fng' fs fn' : XR Ω → XR Ω} (hE : Lin fE E) (hc3 : Lin fc3 c3)
    (hE' : Lin fE' E) (hx : Lin fx x) (hc2 : Lin fc2 (-c2)) (he' : Lin fe' e')
    (hng' : Lin fng' (-1)) (hs : Lin fs scale) (hn' : Lin fn' n) :
    let t : Tape Ω ι := .scale fn' (.scale fs (.scale fng' (.scale fe' (.scale fc2 (.add (.scale fE l)
      (.scale fx (.scale fE' (.scale fc3 l))))))))
    let D : ℝ := d * (scale * (e' * (c2 * (E + x * (c3 * E))))) * n
    (∀ v : ℝ, |v| ≤ 1 → t.forward (fun _ => fin v) = fin (v * D)) ∧
    t.backward (fin 1) i = fin D := by
  intro t D
  have aE : |E| ≤ B := by rwa [abs_of_nonneg E0]
  have ac3 : |c3| ≤ 4 := by rw [abs_of_nonneg c30.1]; exact c30.2
  have ax : |x| ≤ B + 1 := by rwa [abs_of_nonneg x0]
  have axE : |E * x| ≤ B := by rw [mul_comm, abs_of_nonneg (by positivity)]; exact xE
  have ac2 : |-c2| ≤ 3 := by rw [abs_neg, abs_of_nonneg c20.1]; exact c20.2
  have ae' : |e'| ≤ 4 := by rw [abs_of_nonneg e'0.1]; exact e'0.2
  have as : |scale| ≤ 1000 := by rw [abs_of_nonneg s0.1]; exact s0.2
  have an : |n| ≤ 10 := by rw [abs_of_nonneg n0.1]; exact n0.2
  have v1 : |(-1 : ℝ)| ≤ 1 := by norm_num
  constructor
  · intro v hv
    have s2 := abs_mul_le hv hd
    have k1 := abs_mul_le s2 aE
    have k2 := abs_mul_le s2 ac3
    have k3 := abs_mul_le k2 aE
    have k4 : |v * d * c3 * E * x| ≤ B := by
      rw [mul_assoc _ E]
      exact (abs_mul_le k2 axE).trans (by linarith only [hB])
    have s3 := abs_add_le' k1 k4
    have s4 := abs_mul_le s3 ac2
    have s5 := abs_mul_le s4 ae'
    have s6 := abs_mul_le s5 v1
    have s7 := abs_mul_le s6 as
    have s8 := abs_mul_le s7 an
    simp only [t, Tape.forward]
    rw [hf v hv, hE.at k1 (by linarith only [hΩ, hB]),
      hc3.at k2 (by linarith only [hΩ, hB]), hE'.at k3 (by linarith only [hΩ, hB]),
      hx.at k4 (by linarith only [hΩ, hB]), fin_add (s3.trans_lt (by linarith only [hΩ, hB])),
      hc2.at s4 (by linarith only [hΩ, hB]), he'.at s5 (by linarith only [hΩ, hB]),
      hng'.at s6 (by linarith only [hΩ, hB]), hs.at s7 (by linarith only [hΩ, hB]),
      hn'.at s8 (by linarith only [hΩ, hB])]
    congr 1
    simp only [D]
    ring
  · have w1 : |(1 : ℝ)| ≤ 1 := by norm_num
    have b1 := abs_mul_le w1 an
    have b2 := abs_mul_le b1 as
    have b3 := abs_mul_le b2 v1
    have b4 := abs_mul_le b3 ae'
    have b5 := abs_mul_le b4 ac2
    have b6 := abs_mul_le b5 aE
    have d6 := abs_mul_le b5 ax
    have d7 : |1 * n * scale * -1 * e' * -c2 * x * E| ≤ 120000 * B := by
      rw [mul_assoc _ x, mul_comm x]
      exact (abs_mul_le b5 axE).trans (by linarith only [hB])
    have d8 := abs_mul_le d7 ac3
    have e1 := abs_mul_le b6 hd
    have e2 := abs_mul_le d8 hd
    have s := abs_add_le' e1 e2
    simp only [t, Tape.backward]
    rw [hn'.at b1 (by linarith only [hΩ, hB]), hs.at b2 (by linarith only [hΩ, hB]),
      hng'.at b3 (by linarith only [hΩ, hB]), he'.at b4 (by linarith only [hΩ, hB]),
      hc2.at b5 (by linarith only [hΩ, hB]), hE.at b6 (by linarith only [hΩ, hB]),
      hx.at d6 (by linarith only [hΩ, hB]), hE'.at d7 (by linarith only [hΩ, hB]),
      hc3.at d8 (by linarith only [hΩ, hB]),
      hb _ (by linarith only [b6, hΩ, hB]), hb _ (by linarith only [d8, hΩ, hB]),
      fin_add (s.trans_lt (by linarith only [hΩ, hB]))]
    congr 1
    simp only [D]
    ring

variable {f : Fuel.Params ℝ}

/-- The derivative of the limiter. -/
theorem hasDerivAt_limiter (r : ℝ) : HasDerivAt (limiter np)
    ((50 * (exp (50 * (r - 0.03)) / (1 + exp (50 * (r - 0.03)))) -
      45 * (exp (45 * (r - 1.2)) / (1 + exp (45 * (r - 1.2))))) / sp 50) r := by
  have e : limiter np = fun r => (sp (50 * (r - 0.03)) - sp (45 * (r - 1.2))) / sp 50 + 0.03 :=
    funext limiter_eq
  rw [e]
  have h1 : HasDerivAt (fun r : ℝ => 50 * (r - 0.03)) 50 r := by
    simpa using ((hasDerivAt_id r).sub_const 0.03).const_mul 50
  have h2 : HasDerivAt (fun r : ℝ => 45 * (r - 1.2)) 45 r := by
    simpa using ((hasDerivAt_id r).sub_const 1.2).const_mul 45
  have q : ∀ y : ℝ, 1 - 1 / (1 + exp y) = exp y / (1 + exp y) := fun y => by
    have := exp_pos y
    field_simp
    ring
  refine (((((hasDerivAt_sp _).comp r h1).sub ((hasDerivAt_sp _).comp r h2)).div_const _).add_const
    0.03).congr_deriv ?_
  rw [q, q]
  ring

/-- The derivative of the fuel curve. -/
theorem hasDerivAt_funcFuel (h1 : 0 < f.c1) (h2 : 0 < f.c2) (x : ℝ) : HasDerivAt (funcFuel np f)
    (f.scale * (f.c1 * exp (-(f.c2 * (x * exp (f.c3 * x)))) *
      (f.c2 * (exp (f.c3 * x) + x * (f.c3 * exp (f.c3 * x)))))) x := by
  have e : funcFuel np f = fun x => f.scale * (f.c1 * (1 - exp (-(f.c2 * (x * exp (f.c3 * x)))))) :=
    funext (funcFuel_eq f h1 h2)
  rw [e]
  have k1 : HasDerivAt (fun x : ℝ => exp (f.c3 * x)) (exp (f.c3 * x) * f.c3) x := by
    simpa using ((hasDerivAt_id x).const_mul f.c3).exp
  have k2 := (hasDerivAt_id x).mul k1
  refine (((((k2.const_mul f.c2).neg.exp).const_sub 1).const_mul f.c1).const_mul f.scale).congr_deriv ?_
  simp only [id, Pi.mul_apply, Pi.neg_apply]
  ring

/-- The derivative of the fuel flow at a thrust. -/
theorem hasDerivAt_atThrust (h1 : 0 < f.c1) (h2 : 0 < f.c2) (T : ℝ) {r x : ℝ}
    (hr : T / f.number / f.maxThrust = r) (hx : limiter np r = x) : HasDerivAt (atThrust np f)
    ((50 * (exp (50 * (r - 0.03)) / (1 + exp (50 * (r - 0.03)))) -
      45 * (exp (45 * (r - 1.2)) / (1 + exp (45 * (r - 1.2))))) / sp 50 / (f.number * f.maxThrust) *
      (f.scale * (f.c1 * exp (-(f.c2 * (x * exp (f.c3 * x)))) *
      (f.c2 * (exp (f.c3 * x) + x * (f.c3 * exp (f.c3 * x)))))) * f.number) T := by
  subst hr
  subst hx
  have k : HasDerivAt (fun T : ℝ => T / f.number / f.maxThrust) (1 / f.number / f.maxThrust) T :=
    ((hasDerivAt_id T).div_const _).div_const _
  refine ((((hasDerivAt_funcFuel h1 h2 _).comp T ((hasDerivAt_limiter _).comp T k))).mul_const
    f.number).congr_deriv ?_
  simp only [Function.comp_apply, div_eq_mul_inv, mul_inv]
  ring

/-- Exponentials of the fuel curve below overflow. -/
theorem curve_fin (hΩ : (10 : ℝ) ^ 30 < Ω)
    (hf : FuelRange f.scale f.c1 f.c2 f.c3 f.maxThrust f.number) {x : ℝ}
    (h0 : 0 < x) (hx : x ≤ 0.002 * log Ω + 1.1) :
    ∃ B : ℝ, 0 ≤ B ∧ 1000000000 * (B + 1) < Ω ∧ exp (f.c3 * x) ≤ B ∧ x * exp (f.c3 * x) ≤ B ∧
    x ≤ B + 1 ∧ (ovf Ω).exp (fin f.c3 * fin x) = fin (exp (f.c3 * x)) ∧
    (ovf Ω).exp (-fin f.c2 * (fin x * (ovf Ω).exp (fin f.c3 * fin x) -
      (ovf Ω).log (fin f.c1) / fin f.c2)) = fin (f.c1 * exp (-(f.c2 * (x * exp (f.c3 * x))))) ∧
    f.c1 * exp (-(f.c2 * (x * exp (f.c3 * x)))) ≤ 4 := by
  obtain ⟨hs, h1, h2, h3, -, -⟩ := hf
  have hl := log_Ω hΩ
  have hp : 0 < Ω := lt_trans (by positivity) hΩ
  have c1p : 0 < f.c1 := by linarith
  have c2p : 0 < f.c2 := by linarith
  have c3p : 0 < f.c3 := by linarith
  set E := exp (0.1 * log Ω) with hE
  have E1 : 100 ≤ E := by
    have e5 : exp 5 = exp 1 ^ 5 := by rw [← exp_nat_mul]; norm_num
    calc (100 : ℝ) ≤ 2.7 ^ 5 := by norm_num
      _ ≤ exp 1 ^ 5 := pow_le_pow_left₀ (by norm_num) (by have := exp_one_gt_d9; linarith) 5
      _ = exp 5 := e5.symm
      _ ≤ E := exp_le_exp.2 (by linarith)
  have E2 : E * 10 ^ 18 ≤ Ω := by
    have e10 : E ^ 10 = Ω := by
      rw [hE, ← exp_nat_mul, show ((10 : ℕ) : ℝ) * (0.1 * log Ω) = log Ω by push_cast; ring, exp_log hp]
    have : (100 : ℝ) ^ 9 ≤ E ^ 9 := pow_le_pow_left₀ (by norm_num) E1 9
    calc E * 10 ^ 18 = E * 100 ^ 9 := by norm_num
      _ ≤ E * E ^ 9 := by gcongr
      _ = Ω := by rw [← e10]; ring
  have k1 : f.c3 * x ≤ 3.5 * x := by nlinarith
  have k2 : exp (f.c3 * x) ≤ E := exp_le_exp.2 (by linarith)
  have k3 : x * exp (f.c3 * x) ≤ E := by
    have : x ≤ exp x := by have := add_one_le_exp x; linarith
    calc x * exp (f.c3 * x) ≤ exp x * exp (f.c3 * x) := by gcongr
      _ = exp (x + f.c3 * x) := (exp_add _ _).symm
      _ ≤ E := exp_le_exp.2 (by linarith)
  have k4 : 0 < x * exp (f.c3 * x) := by positivity
  have k6 : x ≤ x * exp (f.c3 * x) :=
    le_mul_of_one_le_right h0.le (one_le_exp (by positivity))
  have hΩb : 10 ^ 20 ≤ Ω := by linarith
  have l1 : log f.c1 ≤ 3 := by
    have := log_le_sub_one_of_pos c1p; linarith
  have l2 : -1 ≤ log f.c1 := by
    have := log_le_sub_one_of_pos (inv_pos.2 c1p)
    rw [log_inv] at this
    have : (f.c1)⁻¹ ≤ 2 := by
      rw [inv_le_comm₀ c1p (by norm_num)]; linarith
    linarith
  have l3 : |log f.c1 / f.c2| ≤ 6 := by
    rw [abs_div, abs_of_pos c2p, div_le_iff₀ c2p]
    have : |log f.c1| ≤ 3 := abs_le.2 ⟨by linarith, l1⟩
    linarith
  obtain ⟨l4, l5⟩ := abs_le.1 l3
  have m1 : |f.c2 * (x * exp (f.c3 * x) - log f.c1 / f.c2)| ≤ 3 * (E + 6) := by
    rw [abs_mul, abs_of_pos c2p]
    refine mul_le_mul h2.2 (abs_le.2 ⟨by linarith, by linarith⟩) (abs_nonneg _) (by norm_num)
  have m2 : exp (-f.c2 * (x * exp (f.c3 * x) - log f.c1 / f.c2)) =
      f.c1 * exp (-(f.c2 * (x * exp (f.c3 * x)))) := by
    rw [show -f.c2 * (x * exp (f.c3 * x) - log f.c1 / f.c2) =
      log f.c1 + -(f.c2 * (x * exp (f.c3 * x))) by field_simp; ring, exp_add, exp_log c1p]
  have m3 : exp (-(f.c2 * (x * exp (f.c3 * x)))) ≤ 1 := by
    rw [exp_le_one_iff]; have := mul_pos c2p k4; linarith
  have m4 := exp_pos (-(f.c2 * (x * exp (f.c3 * x))))
  have m5 : f.c1 * exp (-(f.c2 * (x * exp (f.c3 * x)))) ≤ f.c1 := by nlinarith
  have k5 := add_one_le_exp (f.c3 * x)
  have e1 : (ovf Ω).exp (fin f.c3 * fin x) = fin (exp (f.c3 * x)) := by
    rw [fin_mul (x := f.c3) (by rw [abs_of_pos (by positivity)]; linarith), fin_exp (by linarith)]
  refine ⟨E, by linarith, by linarith, k2, k3, by linarith, e1, ?_, by linarith⟩
  rw [e1, fin_mul (x := x) (by rw [abs_of_pos k4]; linarith), fin_log c1p,
    fin_div c2p.ne' (by linarith), fin_sub (abs_lt.2 ⟨by linarith, by linarith⟩), fin_neg,
    fin_mul (x := -f.c2) (by rw [neg_mul, abs_neg]; linarith),
    fin_exp (by rw [m2]; linarith), m2]

/-- **Below overflow** both directions give the derivative. -/
theorem atThrust_t_exact (hΩ : (10 : ℝ) ^ 30 < Ω)
    (hf : FuelRange f.scale f.c1 f.c2 f.c3 f.maxThrust f.number) {T : ℝ}
    (hT : |T| ≤ 10 ^ 25) (h : 1 + exp (50 * (T / f.number / f.maxThrust - 0.03)) < Ω) (i : ι) :
    ∃ t D, (atThrust (tape ca w Ω ι) (Rec.fuel const f) (input T i)).t = some t ∧
      HasDerivAt (atThrust np f) D T ∧
      (∀ v : ℝ, |v| ≤ 1 → t.forward (fun _ => fin v) = fin (v * D)) ∧
      Tape.backward (fin 1) t i = fin D := by
  obtain ⟨e1, hr⟩ := ratio_fin hΩ hT hf
  generalize hrr : T / f.number / f.maxThrust = r at e1 hr h
  obtain ⟨h2, hlim, hx⟩ := limiter_fin hΩ hr h
  have x0 := limiter_pos r
  generalize hxx : limiter np r = x at hlim hx x0
  obtain ⟨B, hB, hB', EB, xE, xB, v1, v2, v3⟩ := curve_fin hΩ hf x0 hx
  obtain ⟨hs, hc1, hc2, hc3, hm, hn⟩ := hf
  have c1p : 0 < f.c1 := by linarith
  have c2p : 0 < f.c2 := by linarith
  obtain ⟨a1, a2⟩ := args_fin hΩ hr
  obtain ⟨r1, r2⟩ := ratio_t (ca := ca) f.number f.maxThrust (input T i : XT ca Ω ι) rfl
  have r1' : (input T i / const f.number / const f.maxThrust : XT ca Ω ι).p = fin r := r1.trans e1
  obtain ⟨l1, l2⟩ := limiter_t (w := w) _ r2
  obtain ⟨g1, g2⟩ := funcFuel_t (w := w) f _ l2
  rw [r1'] at l1
  have l1' := l1.trans hlim
  have e : (atThrust (tape ca w Ω ι) (Rec.fuel const f) (input T i)).t =
      step (· * fin f.number) (funcFuel (tape ca w Ω ι) (Rec.fuel const f)
        (limiter (tape ca w Ω ι) (input T i / const f.number / const f.maxThrust))).t := by
    rw [g2]
    change join (step _ (funcFuel (tape ca w Ω ι) (Rec.fuel const f)
        (limiter (tape ca w Ω ι) (input T i / const f.number / const f.maxThrust))).t) (step _ none) = _
    rw [g2]; rfl
  rw [g2, l1', r1', a1, a2, v2, v1] at e
  have p1 := exp_pos (50 * (r - 0.03))
  have p2 := exp_pos (45 * (r - 1.2))
  have w1 : (1.0 : XR Ω) + (ovf Ω).exp (fin (50 * (r - 0.03))) = fin (1 + exp (50 * (r - 0.03))) := by
    rw [fin_exp (by linarith), fin_sci, fin_add (by
      rw [abs_of_pos (by positivity)]; norm_num; linarith)]
    norm_num
  have w2 : (1.0 : XR Ω) + (ovf Ω).exp (fin (45 * (r - 1.2))) = fin (1 + exp (45 * (r - 1.2))) := by
    rw [fin_exp (by linarith), fin_sci, fin_add (by
      rw [abs_of_pos (by positivity)]; norm_num; linarith)]
    norm_num
  have w3 : (50.0 : XR Ω) = fin 50 := by rw [fin_sci]; norm_num
  have w4 : (45.0 : XR Ω) = fin 45 := by rw [fin_sci]; norm_num
  rw [w1, w2, sp50_fin hΩ, fin_exp (by linarith), fin_exp (by linarith), w3, w4, fin_neg] at e
  have hp1 : (1 : ℝ) < Ω := by linarith
  have inv1 : ∀ {c : ℝ}, 1 ≤ c → |1 / c| < Ω := fun {c} hc => by
    rw [abs_of_pos (by positivity), div_lt_iff₀ (by linarith)]; nlinarith
  have p5 := sp50
  obtain ⟨q1, q2, q3⟩ := limiter_exact (ι := ι) (i := i) hp1 hn.1 hm.1 p1 (by linarith) p2
    (by linarith) p5.le (lin_quot (ca := ca) (by linarith) (inv1 hn.1))
    (lin_quot (ca := ca) (by linarith) (inv1 (by linarith)))
    (lin_mul' 50) (lin_mul _) (lin_quot (ca := ca) (by linarith) (inv1 (by linarith))) (lin_mul' 45)
    (lin_mul _) (lin_quot (ca := ca) (by linarith) (inv1 (by linarith))) lin_neg
    (lin_quot (ca := ca) (by linarith) (inv1 (by linarith)))
  obtain ⟨s1, s2⟩ := curve_exact q1 hB hB' q2 q3 (n := f.number) ⟨by linarith, hn.2⟩ (exp_pos _).le EB
    (c3 := f.c3) ⟨by linarith, by linarith⟩ x0.le xE xB (c2 := f.c2) ⟨c2p.le, hc2.2⟩ ⟨by positivity, v3⟩
    (scale := f.scale) ⟨by linarith, hs.2⟩ (lin_mul _) (lin_mul' _) (lin_mul _) (lin_mul' _)
    (lin_mul' _) (lin_mul _) lin_neg (lin_mul' _) (lin_mul _)
  exact ⟨_, _, e, hasDerivAt_atThrust c1p c2p T hrr hxx, s1, s2⟩

end Verif.XT
