import Verif.Lemmas.GenFloatDescent

/-!
# The cruise loop in double precision, clocks, and steps that are too small
-/

namespace Verif.GenLoop
open Verif Verif.Gen Verif.Aero

/-! ### Cruise -/

section
variable (M : Machine .binary64) {P : Cruise ℝ}

noncomputable abbrev cpass (P : Cruise ℝ) (x : State (Fl M)) : State (Fl M) × Bool :=
  cruisePass flLt (P.on M) x

/-- Speed during the cruise. -/
noncomputable def pace (P : Cruise ℝ) : ℝ := (mach2tas (flt M) ⟨P.mach⟩ ⟨P.hCr⟩ 0.0).val

structure CInv (P : Cruise ℝ) (x : State (Fl M)) : Prop where
  h : x.h.val = P.hCr
  v : x.v.val = pace M P
  vs : x.vs.val = 0
  t0 : 0 ≤ x.t.val
  t1 : x.t.val ≤ 1 + x.s.val
  s0 : 0 ≤ x.s.val
  s1 : x.s.val ≤ max P.distance 0

theorem cruise_move (hP : P.Ordinary) {x : State (Fl M)} (hx : CInv M P x) :
    x.s.val + 0.99 * (pace M P * P.dt) ≤ (cpass M P x).1.s.val ∧
      (cpass M P x).1.s.val ≤ x.s.val + 1.01 * (pace M P * P.dt) ∧
      29 * P.dt ≤ pace M P * P.dt ∧
      x.t.val + 0.99 * P.dt ≤ (cpass M P x).1.t.val ∧ (cpass M P x).1.t.val ≤ x.t.val + 1.01 * P.dt := by
  obtain ⟨d0, d1⟩ := hP.dt
  obtain ⟨m1, m2⟩ := hP.mach
  obtain ⟨l, r⟩ := mach2tas64 M m1 m2 hP.hCr
  have l' : 29 ≤ pace M P := by unfold pace; linarith
  have r' : pace M P ≤ 2200000 := by unfold pace; linarith
  have p0 : 29 * P.dt ≤ pace M P * P.dt := mul_le_mul_of_nonneg_right l' (by linarith)
  have p1 : pace M P * P.dt ≤ 2200000 * 60 := mul_le_mul r' d1 (by linarith) (by norm_num)
  have hs1 : x.s.val ≤ 10000000 := hx.s1.trans (max_le hP.distance (by norm_num))
  have hs0 := hx.s0
  have es : (cpass M P x).1.s.val = M.rnd (x.s.val + M.rnd (pace M P * P.dt)) := by
    rw [← hx.v]; rfl
  have e1 := abs_rnd64 M (x := pace M P * P.dt) (by rw [abs_of_pos (by linarith)]; linarith)
  rw [abs_of_pos (show 0 < pace M P * P.dt by linarith)] at e1
  obtain ⟨a1, a2⟩ := abs_le.1 e1
  have e2 := abs_rnd64 M (x := x.s.val + M.rnd (pace M P * P.dt)) (by
    rw [abs_of_pos (by linarith)]; linarith)
  rw [abs_of_pos (show 0 < x.s.val + M.rnd (pace M P * P.dt) by linarith), ← es] at e2
  obtain ⟨b1, b2⟩ := abs_le.1 e2
  have et : (cpass M P x).1.t.val = M.rnd (x.t.val + P.dt) := rfl
  have := add64 M (a := x.t.val) (p := P.dt) (by rw [abs_of_nonneg hx.t0]; linarith [hx.t1])
    (by rw [abs_of_pos (by linarith)]; linarith) (by rw [abs_of_pos (by linarith)]; linarith)
  rw [abs_of_pos (show 0 < P.dt by linarith), ← et] at this
  obtain ⟨c1, c2⟩ := abs_le.1 this
  exact ⟨by linarith, by linarith, p0, by linarith, by linarith⟩

theorem cinv_step (hP : P.Ordinary) {x : State (Fl M)} (hx : CInv M P x)
    (hb : (cpass M P x).2 = false) : CInv M P (cpass M P x).1 := by
  obtain ⟨s1, s2, p0, t1, t2⟩ := cruise_move M hP hx
  obtain ⟨d0, d1⟩ := hP.dt
  refine ⟨hx.h, hx.v, hx.vs, by linarith [hx.t0], by linarith [hx.t1], by linarith [hx.s0], ?_⟩
  have : ¬ P.distance < (cpass M P x).1.s.val := by
    have h : decide (flLt (P.on M).distance (cpass M P x).1.s) = false := hb
    exact of_decide_eq_false h
  exact le_max_of_le_left (not_lt.1 this)

theorem cinv_init : CInv M P (cruiseStart (flt M) (P.on M)) := by
  have z' : (0.0 : Fl M).val = 0 := zero64 M
  refine ⟨rfl, rfl, z', z'.ge, ?_, z'.ge, ?_⟩
  · show (0.0 : Fl M).val ≤ 1 + (0.0 : Fl M).val
    rw [z']; norm_num
  · show (0.0 : Fl M).val ≤ _
    rw [z']; exact le_max_right _ _

theorem cruise_ends (hP : P.Ordinary) :
    ∃ ss, Trace (cpass M P) (cruiseStart (flt M) (P.on M)) ss := by
  obtain ⟨d0, d1⟩ := hP.dt
  refine trace_exists Nat.lt_wfRel.wf (fun x => ⌈(max P.distance 0 + 1 - x.s.val) / P.dt⌉₊)
    (Inv := CInv M P) (fun x hx hb => ⟨cinv_step M hP hx hb, ?_⟩) _ (cinv_init M)
  obtain ⟨s1, s2, p0, t1, t2⟩ := cruise_move M hP hx
  exact ceil_drop (by linarith) (by linarith [hx.s1]) (by linarith)

end

/-! ### Clocks -/

/-- A quantity that every pass changes in the same way. -/
theorem trace_iter {σ β : Type} {body : σ → σ × Bool} {F : σ → β} {g : β → β}
    (hF : ∀ x, F (body x).1 = g (F x)) {s : σ} {ss : List σ} (h : Trace body s ss) (i : ℕ) (x : σ)
    (hx : ss[i]? = some x) : F x = g^[i] (F s) := by
  induction h generalizing i with
  | last =>
    cases i with
    | zero => simp at hx; subst hx; rfl
    | succ i => simp at hx
  | step hb ht ih =>
    cases i with
    | zero => simp at hx; subst hx; rfl
    | succ i =>
      rw [Function.iterate_succ_apply, ← hF]
      exact ih i (by simpa using hx)

theorem sums_iter {f : Format} (M : Machine f) (w : ℝ) (n : ℕ) :
    (fun t => M.rnd (t + w))^[n] 0 = M.sums w n := by
  induction n with
  | zero => rfl
  | succ n ih => rw [Function.iterate_succ_apply', ih]; rfl

/-! ### Steps that are too small -/

section
variable (M : Machine .binary64)

theorem climb_stalls (P : Climb ℝ) (h1 : 32 < P.vTof) (h2 : 0 ≤ P.aTof * P.dt)
    (h3 : P.aTof * P.dt ≤ 2 ^ (-49 : ℤ)) : ¬ ∃ ss, Trace (pass M P) climbStart ss := by
  have hw : 0 ≤ M.rnd (P.aTof * P.dt) ∧ M.rnd (P.aTof * P.dt) ≤ 2 ^ (-49 : ℤ) := by
    have hb : |P.aTof * P.dt| ≤ Format.binary64.max := by
      refine big_of_huge ?_
      rw [abs_of_nonneg h2]
      exact h3.trans (le_trans (by norm_num) (by linarith [huge_ge] : (1 : ℝ) ≤ 2 * huge))
    exact ⟨M.rnd_ge hb (Format.repr_zero _ (by decide)) h2,
      M.rnd_le hb (Format.repr_pow (by decide) (by decide) (by decide)) h3⟩
  refine no_trace (Inv := fun x => 0 ≤ x.v.val ∧ x.v.val ≤ 32) ?_ ?_
  · rintro x ⟨v0, v1⟩
    have e : (pass M P x).1.v.val = M.rnd (x.v.val + M.rnd (P.aTof * P.dt)) ∧
        (pass M P x).2 = false := by
      unfold pass climbPass
      dsimp only
      rw [if_pos (show flLt x.v (P.on M).vTof from lt_of_le_of_lt v1 h1)]
      exact ⟨rfl, rfl⟩
    obtain ⟨w0, w1⟩ := hw
    have hsm : (2 : ℝ) ^ (-49 : ℤ) ≤ 1 := by norm_num
    have w2 := w1.trans hsm
    have hb : |x.v.val + M.rnd (P.aTof * P.dt)| ≤ Format.binary64.max := by
      refine big_of_huge ?_
      rw [abs_of_nonneg (by linarith)]
      linarith [huge_ge]
    refine ⟨e.2, ?_, ?_⟩
    · rw [e.1]
      exact M.rnd_ge hb (Format.repr_zero _ (by decide)) (by linarith)
    · rw [e.1]
      have h5 := M.rnd_stall (k := 5) hb (Format.repr_pow (by decide) (by decide) (by decide)) (by
        have : (2 : ℝ) ^ (-49 : ℤ) < 2 ^ ((5 : ℤ) - (Format.binary64.prec : ℤ)) := by
          show (2 : ℝ) ^ (-49 : ℤ) < 2 ^ ((5 : ℤ) - 53)
          exact zpow_lt_zpow_right₀ (by norm_num) (by norm_num)
        have e5 : (2 : ℝ) ^ (5 : ℤ) = 32 := by norm_num
        have hlt := lt_of_le_of_lt w1 this
        rw [e5]
        linarith)
      have e5 : (2 : ℝ) ^ (5 : ℤ) = 32 := by norm_num
      rwa [e5] at h5
  · have z' : (0.0 : Fl M).val = 0 := zero64 M
    show 0 ≤ (0.0 : Fl M).val ∧ (0.0 : Fl M).val ≤ 32
    rw [z']
    norm_num

end

end Verif.GenLoop
