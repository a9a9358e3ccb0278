import Verif.Lemmas.IntsPerf
import Verif.Lemmas.Aero
import Mathlib.Analysis.Complex.ExponentialBounds

/-!
# C131: arrays of integers

Which results depend on whether a number is passed as a float or as an integer of some type.
-/

namespace Verif.Props
open Verif Verif.Spec INum IntType

/-- **C131, drag.** Integers of any type count as the equal floats. -/
theorem C131_drag (A : Drag.Airframe ℝ) (P : Drag.Polar ℝ) (wave gear : Bool)
    {mass tas alt flap vs dT : INum} (hm : Arg mass) (ht : Arg tas) (ha : Arg alt) (hf : Arg flap)
    (hv : Arg vs) (hd : Arg dT) :
    Drag.clean npInt (Rec.airframe flt A) (Rec.polar flt P) wave mass tas alt vs dT =
      flt (Drag.clean np A P wave mass.val tas.val alt.val vs.val dT.val) ∧
    Drag.nonclean npInt (Rec.airframe flt A) (Rec.polar flt P) mass tas alt flap vs dT gear =
      flt (Drag.nonclean np A P mass.val tas.val alt.val flap.val vs.val dT.val gear) :=
  ⟨G.clean A P (arg_any hm) (arg_any ht) (arg_any ha) (arg_any hv) (arg_any hd) wave,
    G.nonclean A P (arg_any hm) (arg_any ht) (arg_any ha) (arg_any hf) (arg_any hv) (arg_any hd) gear⟩

theorem fits_abs {d : IntType} {n : ℤ} (h : d.Fits (n ^ 2)) : d.Fits |n| := by
  obtain ⟨h1, h2⟩ := h
  have h3 : |n| ≤ n ^ 2 := by
    rw [← sq_abs]
    rcases eq_or_ne n 0 with rfl | h
    · simp
    · have : 1 ≤ |n| := Int.one_le_abs h
      nlinarith
  refine ⟨?_, h3.trans h2⟩
  have : d.lo ≤ 0 := by cases d <;> decide
  exact this.trans (abs_nonneg n)

theorem val_abs {roc : INum} (hr : Arg roc) (h : ∀ d n, roc = .int d n → d.Fits (n ^ 2)) :
    G .any (npInt.abs roc) |roc.val| ∧ G .any (npInt.abs roc ^ 2) (roc.val ^ 2) := by
  cases roc with
  | flt x => exact ⟨⟨by simp [npInt, INum.abs], rfl⟩, ⟨by change INum.flt _ ≠ _; simp,
      by change |x| ^ 2 = x ^ 2; exact sq_abs x⟩⟩
  | err => exact hr.elim
  | py n =>
    refine ⟨⟨by simp [npInt, INum.abs], by simp [npInt, INum.abs, val]⟩, ⟨by change INum.py _ ≠ _; simp, ?_⟩⟩
    change (((|n| ^ 2 : ℤ)) : ℝ) = (n : ℝ) ^ 2
    rw [sq_abs]; push_cast; rfl
  | int d n =>
    have h2 := h d n rfl
    have h1 := fits_abs h2
    have e1 : npInt.abs (.int d n) = .int d |n| := by
      change INum.int d (d.wrap |n|) = _
      rw [wrap_of_fits h1]
    have e2 : (INum.int d |n|) ^ 2 = .int d (n ^ 2) := by
      change INum.int d (d.wrap (|n| ^ 2)) = _
      rw [sq_abs, wrap_of_fits h2]
    rw [e1, e2]
    exact ⟨⟨by simp, by simp [val]⟩, ⟨by simp, by simp [val]⟩⟩

/-- **C131, thrust.** Integers of any type count as the equal floats, also the vertical rate in
`climb` provided its square is representable. -/
theorem C131_thrust (E : Thrust.Params ℝ) {tas alt roc dT : INum} (ht : Arg tas) (ha : Arg alt)
    (hr : Arg roc) (hd : Arg dT) :
    Thrust.takeoff npInt (Rec.thrust flt E) tas alt dT =
      flt (Thrust.takeoff np E tas.val alt.val dT.val) ∧
    Thrust.descentIdle npInt (Rec.thrust flt E) tas alt dT =
      flt (Thrust.descentIdle np E tas.val alt.val dT.val) ∧
    Thrust.cruise npInt (Rec.thrust flt E) tas alt dT =
      flt (Thrust.cruise np E tas.val alt.val dT.val) ∧
    ((∀ d n, roc = .int d n → d.Fits (n ^ 2)) →
      Thrust.climb npInt (Rec.thrust flt E) tas alt roc dT =
        flt (Thrust.climb np E tas.val alt.val roc.val dT.val)) := by
  have hc : ∀ r, Arg r → (∀ d n, r = .int d n → d.Fits (n ^ 2)) →
      Thrust.climb npInt (Rec.thrust flt E) tas alt r dT =
        flt (Thrust.climb np E tas.val alt.val r.val dT.val) := by
    intro r hr h
    obtain ⟨h1, h2⟩ := val_abs hr h
    have := G.climb E ht (arg_any ha) (arg_any hd) h1 h2
    simp only [sub_self, mul_zero, zero_mul, ite_self, add_zero] at this
    exact this
  refine ⟨G.takeoff E (arg_any ht) (arg_any ha) (arg_any hd),
    G.idle E (arg_any ht) (arg_any ha) (arg_any hd), ?_, hc roc hr⟩
  have e : (0.0 : INum) = .py 0 := by
    change (if whole 0 true 1 then _ else _) = _
    rw [if_pos (by decide)]; norm_num
  have := hc (.py 0) rfl (by simp)
  simp only [Thrust.cruise, e]
  rw [this]
  norm_num [val]

theorem wrap_le_hi (d : IntType) (n : ℤ) : d.wrap n ≤ d.hi := by
  have h1 := Int.emod_lt_of_pos (n - d.lo) (b := 2 ^ d.bits) (by positivity)
  unfold wrap
  cases d <;> simp [lo, hi, bits, signed] at * <;> omega

/-- **C131 (failure), climb thrust.** At or below 10000 ft the square of a vertical rate that is an
integer of type `d` is taken modulo `2 ^ d.bits`: the thrust changes by
`8.8889e-9 (n^2 - wrap n^2) (P - P10) / Pcr` cruise thrusts. (The most negative number of a signed type
has no absolute value and is left out.) Below 10000 ft it is always too large when the square is not
representable. -/
theorem C131_climb (E : Thrust.Params ℝ) {tas alt dT : INum} (ht : Arg tas) (ha : Arg alt)
    (hd : Arg dT) (d : IntType) (n : ℤ) (hn : d.Fits n) (hn' : d.Fits |n|) (h10 : alt.val ≤ 10000) :
    Thrust.climb npInt (Rec.thrust flt E) tas alt (.int d n) dT =
      flt (Thrust.climb np E tas.val alt.val n dT.val +
        8.8889e-9 * (n ^ 2 - d.wrap (n ^ 2)) *
          ((Aero.pressure np (alt.val * 0.3048) dT.val - Aero.pressure np 3048 dT.val) /
            Aero.pressure np (E.cruiseAlt * 0.3048) dT.val) * (E.cruiseThrust * E.number)) ∧
    (alt.val < 10000 → 0 < E.cruiseThrust * E.number → ¬ d.Fits (n ^ 2) →
      ∃ F, Thrust.climb npInt (Rec.thrust flt E) tas alt (.int d n) dT = flt F ∧
        Thrust.climb np E tas.val alt.val n dT.val < F) := by
  have e1 : npInt.abs (.int d n) = .int d |n| := by
    change INum.int d (d.wrap |n|) = _
    rw [wrap_of_fits hn']
  have h1 : G .any (npInt.abs (.int d n)) |(n : ℝ)| := by
    rw [e1]; exact ⟨by simp, by simp [val]⟩
  have h2 : G .any (npInt.abs (.int d n) ^ 2) (d.wrap (n ^ 2)) := by
    rw [e1]
    refine ⟨by change INum.int _ _ ≠ _; simp, ?_⟩
    change ((d.wrap (|n| ^ 2) : ℤ) : ℝ) = _
    rw [sq_abs]
  have h := G.climb E ht (arg_any ha) (arg_any hd) h1 h2
  rw [if_pos h10] at h
  have e3 : (10000 * Aero.ft : ℝ) = 3048 := by norm_num [Aero.ft]
  rw [e3] at h
  refine ⟨h, fun h11 hF hq => ⟨_, h, ?_⟩⟩
  have hq' : d.hi < n ^ 2 := by
    by_contra hc
    have : d.lo ≤ 0 := by cases d <;> decide
    exact hq ⟨this.trans (sq_nonneg n), not_lt.1 hc⟩
  have h3 : (0 : ℝ) < n ^ 2 - d.wrap (n ^ 2) := by
    have := (wrap_le_hi d (n ^ 2)).trans_lt hq'
    have h' : ((d.wrap (n ^ 2) : ℤ) : ℝ) < ((n ^ 2 : ℤ) : ℝ) := by exact_mod_cast this
    push_cast at h'
    linarith
  have h4 : Aero.pressure np 3048 dT.val < Aero.pressure np (alt.val * Aero.ft) dT.val :=
    Aero.pressure_strictAnti dT.val (by norm_num [Aero.ft]; linarith)
  have h5 := Aero.pressure_pos (E.cruiseAlt * Aero.ft) dT.val
  have : 0 < 8.8889e-9 * ((n : ℝ) ^ 2 - d.wrap (n ^ 2)) *
      ((Aero.pressure np (alt.val * Aero.ft) dT.val - Aero.pressure np 3048 dT.val) /
        Aero.pressure np (E.cruiseAlt * Aero.ft) dT.val) * (E.cruiseThrust * E.number) := by
    have := sub_pos.2 h4
    positivity
  linarith

/-- Which vertical rates have a square that is representable. -/
theorem C131_squares (n : ℤ) :
    (i8.Fits (n ^ 2) ↔ |n| ≤ 11) ∧ (u8.Fits (n ^ 2) ↔ |n| ≤ 15) ∧
    (i16.Fits (n ^ 2) ↔ |n| ≤ 181) ∧ (u16.Fits (n ^ 2) ↔ |n| ≤ 255) ∧
    (i32.Fits (n ^ 2) ↔ |n| ≤ 46340) ∧ (u32.Fits (n ^ 2) ↔ |n| ≤ 65535) ∧
    (i64.Fits (n ^ 2) ↔ |n| ≤ 3037000499) ∧ (u64.Fits (n ^ 2) ↔ |n| ≤ 4294967295) := by
  have key : ∀ d : IntType, ∀ c : ℤ, 0 ≤ c → c ^ 2 ≤ d.hi → d.hi < (c + 1) ^ 2 →
      (d.Fits (n ^ 2) ↔ |n| ≤ c) := by
    intro d c hc h1 h2
    have hlo : d.lo ≤ 0 := by cases d <;> decide
    rw [← sq_abs]
    have := abs_nonneg n
    constructor
    · rintro ⟨-, h⟩
      by_contra h3
      have : c + 1 ≤ |n| := by omega
      nlinarith
    · intro h
      exact ⟨hlo.trans (sq_nonneg _), by nlinarith⟩
  exact ⟨key _ _ (by decide) (by decide) (by decide), key _ _ (by decide) (by decide) (by decide),
    key _ _ (by decide) (by decide) (by decide), key _ _ (by decide) (by decide) (by decide),
    key _ _ (by decide) (by decide) (by decide), key _ _ (by decide) (by decide) (by decide),
    key _ _ (by decide) (by decide) (by decide), key _ _ (by decide) (by decide) (by decide)⟩

theorem val_mul {a c : INum} (ha : Arg a) (hc : Arg c) (h : ProductFits a c) :
    G .any (a * c) (a.val * c.val) := by
  cases a with
  | flt x => exact (G.mul (k := .flt) rfl (arg_any hc) rfl).any
  | err => exact ha.elim
  | py m =>
    cases c with
    | flt y => exact (G.mul (k := .any) (k' := .flt) (arg_any ha) rfl rfl).any
    | err => exact hc.elim
    | py n => exact (G.mul (k := .py) (k' := .py) (.inr ⟨m, rfl, rfl⟩) (.inr ⟨n, rfl, rfl⟩) rfl).any
    | int e n =>
      cases (show m = 0 from ha)
      have h0 : e.Fits 0 := by cases e <;> decide
      have e1 : INum.py 0 * .int e n = .int e 0 := by
        change (if e.Fits 0 then INum.int e (e.wrap (0 * n)) else .err) = _
        rw [if_pos h0, zero_mul, wrap_of_fits h0]
      rw [e1]; exact ⟨by simp, by simp [val]⟩
  | int d m =>
    cases c with
    | flt y => exact (G.mul (k := .any) (k' := .flt) (arg_any ha) rfl rfl).any
    | err => exact hc.elim
    | py n =>
      cases (show n = 0 from hc)
      have h0 : d.Fits 0 := by cases d <;> decide
      have e1 : INum.int d m * .py 0 = .int d 0 := by
        change (if d.Fits 0 then INum.int d (d.wrap (m * 0)) else .err) = _
        rw [if_pos h0, mul_zero, wrap_of_fits h0]
      rw [e1]; exact ⟨by simp, by simp [val]⟩
    | int e n =>
      have e1 : INum.int d m * .int e n = match d.promote e with
        | some t => .int t (t.wrap (m * n))
        | none => .flt ((m : ℝ) * n) := rfl
      rw [e1]
      cases hp : d.promote e with
      | none => exact ⟨by simp, rfl⟩
      | some t =>
        simp only [wrap_of_fits (h t hp)]
        exact ⟨by simp, by simp [val]⟩

/-- **C131, fuel flow.** Integers of any type count as the equal floats; in `enroute` the product of
mass and acceleration has to be representable if both are integers. -/
theorem C131_fuel (F : Fuel.Params ℝ) (E : Thrust.Params ℝ) (A : Drag.Airframe ℝ) (P : Drag.Polar ℝ)
    (wave limit : Bool) {thrust throttle mass tas alt vs acc dT : INum} (hT : Arg thrust)
    (hth : Arg throttle) (hm : Arg mass) (ht : Arg tas) (ha : Arg alt) (hv : Arg vs) (hc : Arg acc)
    (hd : Arg dT) :
    Fuel.atThrust npInt (Rec.fuel flt F) thrust = flt (Fuel.atThrust np F thrust.val) ∧
    Fuel.takeoff npInt (Rec.fuel flt F) (Rec.thrust flt E) tas alt throttle =
      flt (Fuel.takeoff np F E tas.val alt.val throttle.val) ∧
    (ProductFits mass acc →
      Fuel.enroute npInt (Rec.fuel flt F) (Rec.airframe flt A) (Rec.polar flt P) wave
        mass tas alt vs acc dT limit =
      flt (Fuel.enroute np F A P wave mass.val tas.val alt.val vs.val acc.val dT.val limit)) := by
  refine ⟨G.atThrust F (arg_any hT), ?_, fun h => ?_⟩
  · have h1 := G.takeoff E (arg_any ht) (arg_any ha) (G.lit 0 true 1).any
    have h2 := G.atThrust F h1.any
    exact G.mul (k := .any) (k' := .flt) (arg_any hth) h2 rfl
  · have h1 := G.clean A P (arg_any hm) (arg_any ht) (arg_any ha) (arg_any hv) (arg_any hd) wave
    have h2 := val_mul hm hc h
    have h3 := (arg_any hv).fpm
    have h4 := (arg_any ht).kts
    have h5 := arg_any hm
    have h6 : G .flt (Fuel.enrouteThrust npInt (Rec.airframe flt A) (Rec.polar flt P) wave
        mass tas alt vs acc dT)
        (Fuel.enrouteThrust np A P wave mass.val tas.val alt.val vs.val acc.val dT.val) := by
      simp only [Fuel.enrouteThrust]
      exact_steps
    exact G.atThrust F h6.any

theorem lit_12900 : (12900.0 : INum) = .py 12900 := by
  change (if whole 129000 true 1 then _ else _) = _
  rw [if_pos (by decide)]; norm_num

/-- **C131, emissions.** CO, HC, soot and SOx of integers of any type are those of the equal floats;
NOx as well if the altitude less 12900 ft is representable. -/
theorem C131_emission (E : Emission.Params ℝ) {ffac tas alt dT : INum} (hf : Arg ffac) (ht : Arg tas)
    (ha : Arg alt) (hd : Arg dT) :
    Emission.co npInt (Rec.emission flt E) ffac tas alt dT =
      flt (Emission.co np E ffac.val tas.val alt.val dT.val) ∧
    Emission.hc npInt (Rec.emission flt E) ffac tas alt dT =
      flt (Emission.hc np E ffac.val tas.val alt.val dT.val) ∧
    Emission.soot ffac = flt (Emission.soot ffac.val) ∧
    Emission.sox ffac = flt (Emission.sox ffac.val) ∧
    ((∀ d n, alt = .int d n → d.Fits 12900 ∧ d.Fits (n - 12900)) →
      Emission.nox npInt (Rec.emission flt E) ffac tas alt dT =
        flt (Emission.nox np E ffac.val tas.val alt.val dT.val)) := by
  have hf' := arg_any hf
  refine ⟨G.co E hf' (arg_any ht) (arg_any ha) (arg_any hd),
    G.hc E hf' (arg_any ht) (arg_any ha) (arg_any hd), ?_, ?_, fun h => ?_⟩
  · change G .flt _ _
    simp only [Emission.soot]
    exact_steps
  · change G .flt _ _
    simp only [Emission.sox]
    exact_steps
  · have hq : G .any (alt - 12900.0) (alt.val - 12900) := by
      rw [lit_12900]
      cases alt with
      | flt x => exact ⟨by change INum.flt _ ≠ _; simp, by change x - ((12900 : ℤ) : ℝ) = _; norm_num [val]⟩
      | err => exact ha.elim
      | py n => exact ⟨by change INum.py _ ≠ _; simp, by change ((n - 12900 : ℤ) : ℝ) = _; simp [val]⟩
      | int d n =>
        obtain ⟨h1, h2⟩ := h d n rfl
        have e : INum.int d n - .py 12900 = .int d (n - 12900) := by
          change (if d.Fits 12900 then INum.int d (d.wrap (n - 12900)) else .err) = _
          rw [if_pos h1, wrap_of_fits h2]
        rw [e]; exact ⟨by simp, by simp [val]⟩
    have := G.nox E hf' (arg_any ht) (arg_any ha) (arg_any hd) hq
    simp only [sub_self, mul_zero, Real.exp_zero, mul_one] at this
    exact this

theorem nox_wrap_factor {p q : ℝ} (h1 : 1 ≤ p) (h2 : p ≤ 6.298) (h3 : 0 < q) (h4 : q ≤ 0.001) :
    1.018 < Real.exp (19 * (0.001 * (p - q))) ∧ Real.exp (19 * (0.001 * (p - q))) < 1.13 := by
  constructor
  · have := Real.add_one_le_exp (19 * (0.001 * (p - q)))
    norm_num at this h4 ⊢
    linarith
  · refine (Real.exp_le_exp.2 (show _ ≤ (4 : ℕ) * (0.03 : ℝ) by
      norm_num at h2 ⊢
      linarith)).trans_lt ?_
    rw [Real.exp_nat_mul]
    have k1 : Real.exp 0.03 ≤ 1 / 0.97 := by
      have := Real.add_one_le_exp (-0.03)
      rw [Real.exp_neg] at this
      rw [le_div_iff₀ (by norm_num)]
      have hp := Real.exp_pos 0.03
      have h3 : (0.97 : ℝ) ≤ (Real.exp 0.03)⁻¹ := by linarith
      calc Real.exp 0.03 * 0.97 ≤ Real.exp 0.03 * (Real.exp 0.03)⁻¹ := by gcongr
        _ = 1 := mul_inv_cancel₀ hp.ne'
    calc Real.exp 0.03 ^ 4 ≤ (1 / 0.97) ^ 4 := pow_le_pow_left₀ (Real.exp_pos _).le k1 4
      _ < 1.13 := by norm_num

/-- **C131 (failure), NOx.** For an altitude below 12900 ft that is an unsigned integer of 16 bits or
more, the altitude less 12900 ft wraps around to a large number. The result is too large by a factor
between 1.018 and 1.13. With 8 bits, `OverflowError` is raised. -/
theorem C131_nox (E : Emission.Params ℝ) {ffac tas dT : INum} (hf : Arg ffac) (ht : Arg tas)
    (hd : Arg dT) (d : IntType) (n : ℤ) (hn : d.Fits n) :
    (d.signed = false → d ≠ u8 → n < 12900 →
      ∃ c : ℝ, 1.018 < c ∧ c < 1.13 ∧
        Emission.nox npInt (Rec.emission flt E) ffac tas (.int d n) dT =
          flt (Emission.nox np E ffac.val tas.val n dT.val * c)) ∧
    (d = i8 ∨ d = u8 → Emission.nox npInt (Rec.emission flt E) ffac tas (.int d n) dT = err) := by
  have ha : Arg (.int d n) := hn
  constructor
  · intro hs h8 hlt
    have h1 : d.Fits 12900 := by revert hs h8; cases d <;> decide
    have hn0 : 0 ≤ n := by
      have := hn.1; revert this hs; cases d <;> simp [signed, lo]
    have hw : d.wrap (n - 12900) = n - 12900 + 2 ^ d.bits := by
      have hb : (65536 : ℤ) ≤ 2 ^ d.bits := by revert hs h8; cases d <;> decide
      have hl : d.lo = 0 := by revert hs; cases d <;> simp [signed, lo]
      unfold wrap
      rw [hl, sub_zero, add_zero, ← Int.add_emod_right, Int.emod_eq_of_lt (by omega) (by omega)]
    have e : INum.int d n - .py 12900 = .int d (n - 12900 + 2 ^ d.bits) := by
      change (if d.Fits 12900 then INum.int d (d.wrap (n - 12900)) else .err) = _
      rw [if_pos h1, hw]
    have hq : G .any (.int d n - 12900.0) ((n : ℝ) - 12900 + 2 ^ d.bits) := by
      rw [lit_12900, e]; exact ⟨by simp, by simp [val]⟩
    have h := G.nox E (arg_any hf) (arg_any ht) (arg_any ha) (arg_any hd) hq
    refine ⟨_, ?_, ?_, h⟩
    all_goals
      have hn1 : (n : ℝ) < 12900 := by exact_mod_cast hlt
      have hn2 : (0 : ℝ) ≤ n := by exact_mod_cast hn0
      have hb : (65536 : ℝ) ≤ 2 ^ d.bits := by
        revert hs h8; cases d <;> norm_num [signed, bits]
      have g1 : 1 ≤ Real.exp (-0.0001426 * ((n : ℝ) - 12900)) := Real.one_le_exp (by nlinarith)
      have g2 : Real.exp (-0.0001426 * ((n : ℝ) - 12900)) ≤ 6.298 := by
        refine (Real.exp_le_exp.2 (show _ ≤ (2 : ℝ) - 0.1604 by nlinarith)).trans ?_
        rw [Real.exp_sub]
        have k1 := Real.quadratic_le_exp_of_nonneg (show (0 : ℝ) ≤ 0.1604 by norm_num)
        have k2 : Real.exp 2 ≤ 7.38906 := by
          rw [show (2 : ℝ) = 1 + 1 by norm_num, Real.exp_add]
          have := Real.exp_one_lt_d9
          have := Real.exp_pos 1
          nlinarith
        rw [div_le_iff₀ (Real.exp_pos _)]
        norm_num at k1 k2 ⊢
        linarith
      have g3 : Real.exp (-0.0001426 * ((n : ℝ) - 12900 + 2 ^ d.bits)) ≤ 0.001 := by
        refine (Real.exp_le_exp.2 (show _ ≤ (-7 : ℝ) by nlinarith)).trans ?_
        rw [Real.exp_neg, show (7 : ℝ) = ((7 : ℕ) : ℝ) * 1 by norm_num, Real.exp_nat_mul]
        have := Real.exp_one_gt_d9
        have h7 : (2.7 : ℝ) ^ 7 ≤ Real.exp 1 ^ 7 := pow_le_pow_left₀ (by norm_num) (by linarith) 7
        rw [show (0.001 : ℝ) = 1000⁻¹ by norm_num]
        exact inv_anti₀ (by norm_num) (le_trans (by norm_num) h7)
      have g4 := Real.exp_pos (-0.0001426 * ((n : ℝ) - 12900 + 2 ^ d.bits))
    · exact (nox_wrap_factor g1 g2 g4 g3).1
    · exact (nox_wrap_factor g1 g2 g4 g3).2
  · intro h8
    have h1 : ¬ d.Fits 12900 := by rcases h8 with rfl | rfl <;> decide
    have e : INum.int d n - .py 12900 = err := by
      change (if d.Fits 12900 then INum.int d (d.wrap (n - 12900)) else .err) = _
      rw [if_neg h1]
    have m1 : ∀ a : INum, a * err = err := fun a => by cases a <;> rfl
    have m2 : ∀ a : INum, err * a = err := fun a => by cases a <;> rfl
    have m3 : ∀ a : INum, err - a = err := fun a => by cases a <;> rfl
    have m4 : npInt.exp err = err := rfl
    simp only [Emission.nox, lit_12900, e, m1, m2, m3, m4]

/-- **C131, CO2 and water.** Integers give integers: with 16 bits or more the product wraps around,
with 8 bits `OverflowError` is raised. -/
theorem C131_co2 (x : ℝ) (d : IntType) (n : ℤ) :
    Emission.co2 (flt x) = flt (Emission.co2 x) ∧ Emission.h2o (flt x) = flt (Emission.h2o x) ∧
    (d = i8 ∨ d = u8 → Emission.co2 (INum.int d n) = err ∧ Emission.h2o (INum.int d n) = err) ∧
    (d ≠ i8 → d ≠ u8 → Emission.co2 (INum.int d n) = .int d (d.wrap (n * 3160)) ∧
      Emission.h2o (INum.int d n) = .int d (d.wrap (n * 1230)) ∧
      (d.Fits (n * 3160) → (Emission.co2 (INum.int d n)).val = Emission.co2 (n : ℝ)) ∧
      (d.Fits (n * 1230) → (Emission.h2o (INum.int d n)).val = Emission.h2o (n : ℝ))) := by
  have e1 : (3160.0 : INum) = .py 3160 := by
    change (if whole 31600 true 1 then _ else _) = _
    rw [if_pos (by decide)]; norm_num
  have e2 : (1230.0 : INum) = .py 1230 := by
    change (if whole 12300 true 1 then _ else _) = _
    rw [if_pos (by decide)]; norm_num
  simp only [Emission.co2, Emission.h2o, e1, e2]
  refine ⟨?_, ?_, ?_, ?_⟩
  · change flt (x * ((3160 : ℤ) : ℝ)) = _; norm_num
  · change flt (x * ((1230 : ℤ) : ℝ)) = _; norm_num
  · intro h
    have h1 : ¬ d.Fits 3160 := by rcases h with rfl | rfl <;> decide
    have h2 : ¬ d.Fits 1230 := by rcases h with rfl | rfl <;> decide
    exact ⟨if_neg h1, if_neg h2⟩
  · intro h8 h8'
    have h1 : d.Fits 3160 := by revert h8 h8'; cases d <;> decide
    have h2 : d.Fits 1230 := by revert h8 h8'; cases d <;> decide
    have e3 : INum.int d n * .py 3160 = .int d (d.wrap (n * 3160)) := if_pos h1
    have e4 : INum.int d n * .py 1230 = .int d (d.wrap (n * 1230)) := if_pos h2
    refine ⟨e3, e4, fun h => ?_, fun h => ?_⟩
    · rw [e3, wrap_of_fits h]; simp [val]; norm_num
    · rw [e4, wrap_of_fits h]; simp [val]; norm_num

theorem python_arg {v : INum} (h : PythonNumber v) : Arg v := by
  cases v with
  | flt x => trivial
  | int d n =>
    obtain ⟨rfl, h⟩ := h
    obtain ⟨h1, h2⟩ := abs_le.1 h
    refine ⟨?_, ?_⟩ <;> simp only [lo, hi, signed, bits] <;> norm_num at * <;> omega
  | _ => exact h.elim

/-- **C131, numbers in Python code.** For Python integers and lists of them up to `10 ^ 9` every method
gives what it gives for the equal floats. -/
theorem C131_python (Th : Thrust.Params ℝ) (F : Fuel.Params ℝ) (A : Drag.Airframe ℝ)
    (P : Drag.Polar ℝ) (Em : Emission.Params ℝ) (wave limit : Bool)
    {mass tas alt vs acc dT ffac : INum} (hm : PythonNumber mass) (ht : PythonNumber tas)
    (ha : PythonNumber alt) (hv : PythonNumber vs) (hc : PythonNumber acc) (hd : PythonNumber dT)
    (hf : PythonNumber ffac) :
    Thrust.climb npInt (Rec.thrust flt Th) tas alt vs dT =
      flt (Thrust.climb np Th tas.val alt.val vs.val dT.val) ∧
    Fuel.enroute npInt (Rec.fuel flt F) (Rec.airframe flt A) (Rec.polar flt P) wave
        mass tas alt vs acc dT limit =
      flt (Fuel.enroute np F A P wave mass.val tas.val alt.val vs.val acc.val dT.val limit) ∧
    Emission.nox npInt (Rec.emission flt Em) ffac tas alt dT =
      flt (Emission.nox np Em ffac.val tas.val alt.val dT.val) ∧
    (Emission.co2 ffac).val = Emission.co2 ffac.val ∧
    (Emission.h2o ffac).val = Emission.h2o ffac.val := by
  refine ⟨?_, ?_, ?_, ?_, ?_⟩
  · refine (C131_thrust Th (python_arg ht) (python_arg ha) (python_arg hv) (python_arg hd)).2.2.2 ?_
    rintro d n rfl
    obtain ⟨rfl, h⟩ := hv
    exact (C131_squares n).2.2.2.2.2.2.1.2 (h.trans (by norm_num))
  · refine (C131_fuel F Th A P wave limit (python_arg hm) (python_arg hm) (python_arg hm) (python_arg ht) (python_arg ha) (python_arg hv) (python_arg hc)
      (python_arg hd)).2.2 ?_
    cases mass with
    | int d m =>
      cases acc with
      | int e n =>
        obtain ⟨rfl, h1⟩ := hm
        obtain ⟨rfl, h2⟩ := hc
        rintro t ht'
        cases ht'
        have h3 : |m * n| ≤ 10 ^ 18 := by
          rw [abs_mul]
          calc |m| * |n| ≤ 10 ^ 9 * 10 ^ 9 := by gcongr
            _ = 10 ^ 18 := by norm_num
        obtain ⟨h4, h5⟩ := abs_le.1 h3
        refine ⟨?_, ?_⟩ <;> simp only [lo, hi, signed, bits] <;> norm_num at * <;> omega
      | _ => trivial
    | _ => trivial
  · refine (C131_emission Em (python_arg hf) (python_arg ht) (python_arg ha) (python_arg hd)).2.2.2.2 ?_
    rintro d n rfl
    obtain ⟨rfl, h⟩ := ha
    obtain ⟨h4, h5⟩ := abs_le.1 h
    refine ⟨by decide, ?_, ?_⟩ <;> simp only [lo, hi, signed, bits] <;> norm_num at * <;> omega
  all_goals
    cases ffac with
    | flt x => first | rw [(C131_co2 x i8 0).1] | rw [(C131_co2 x i8 0).2.1]
               rfl
    | int d n =>
      obtain ⟨rfl, h⟩ := hf
      obtain ⟨h4, h5⟩ := abs_le.1 h
      have := (C131_co2 0 i64 n).2.2.2 (by decide) (by decide)
      first
        | exact this.2.2.1 (by
            refine ⟨?_, ?_⟩ <;> simp only [lo, hi, signed, bits] <;> norm_num at * <;> omega)
        | exact this.2.2.2 (by
            refine ⟨?_, ?_⟩ <;> simp only [lo, hi, signed, bits] <;> norm_num at * <;> omega)
    | _ => exact hf.elim

/-- 2000 ft/min as a 16-bit integer: the square 4000000 becomes 2304. -/
example : i16.Fits 2000 ∧ i16.Fits |2000| ∧ ¬ i16.Fits (2000 ^ 2) ∧ i16.wrap (2000 ^ 2) = 2304 := by
  decide

/-- 5000 ft as an unsigned 16-bit integer, and what `alt - 12900` is then. -/
example : u16.Fits 5000 ∧ u16.signed = false ∧ u16.wrap (5000 - 12900) = 57636 := by decide

/-- Arguments of different types, and a product that has to be representable. -/
example : Arg (.int u8 250) ∧ Arg (.int i16 (-1500)) ∧ Arg (.flt 0.5) ∧
    ProductFits (.int i32 60000) (.int i16 2) ∧ ¬ ProductFits (.int u16 60000) (.int u8 2) := by
  refine ⟨show u8.Fits 250 by decide, show i16.Fits (-1500) by decide, trivial, ?_, fun h => ?_⟩
  · intro t h; cases h; decide
  · exact absurd (h u16 rfl) (by decide)

/-- Fuel flow 11 kg/s as a 16-bit integer: 34760 g/s of CO2 come out as -30776. -/
example : Emission.co2 (INum.int i16 11) = .int i16 (-30776) := by
  rw [((C131_co2 0 i16 11).2.2.2 (by decide) (by decide)).1]
  rfl

end Verif.Props
