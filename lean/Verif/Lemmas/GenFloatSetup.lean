import Verif.Spec.GenFloatSetup
import Verif.Props.GenFloatShipped
import Verif.Lemmas.FloatCrossover

/-!
# The setups of the generator in floating point
-/

namespace Verif.GenLoop
open Verif Verif.Gen Verif.Aero Verif.Kinematic Verif.Tables Verif.Registry Verif.Props
open Verif.Data (shipped)

/-- The keywords of a flight without random parameters. -/
def keys (kw : Kw) : Keys ℝ :=
  ⟨kw.dt, kw.casCl, kw.machCl, kw.casDe, kw.machDe, kw.rangeCr, kw.altCr, kw.machCr, kw.withcr⟩

/-- `looped` of a descent. -/
def loopedDescent (P : DescentParams) : Descent ℝ :=
  ⟨P.dt, P.withcr, P.aLnd, P.vApp, P.mach, P.vcas, P.hCr, P.vsMach, P.vsCas, P.vsPost, P.vsFa, P.hCas,
    P.hMach⟩

/-- `looped` of a cruise. -/
def loopedCruise (P : CruiseParams) : Cruise ℝ := ⟨P.dt, P.distance, P.mach, P.hCr⟩

private theorem lits : (1.0 : ℝ) = 1 ∧ (0.0 : ℝ) = 0 ∧ (1000.0 : ℝ) = 1000 := by norm_num

section
variable {G : Type} {R : Rng G}

theorem climbParams_np {f : FlightGen G} {kw : Kw} (hr : kw.random.getD false = false) :
    climbParams np wreal roundHundreds f.wrap (keys kw) =
      (climbSetup R f kw).map fun q => looped q.1 := by
  unfold climbParams climbSetup
  obtain ⟨l1, l2, l3⟩ := lits
  rcases getVar f.wrap takeoffAcceleration with _ | _ <;> try rfl
  rcases getVar f.wrap takeoffSpeed with _ | _ <;> try rfl
  rcases getVar f.wrap climbConstVcas with _ | _ <;> try rfl
  rcases getVar f.wrap climbConstMach with _ | _ <;> try rfl
  rcases getVar f.wrap cruiseAlt with _ | _ <;> try rfl
  rcases getVar f.wrap climbVsPreConcas with _ | _ <;> try rfl
  rcases getVar f.wrap climbVsConcas with _ | _ <;> try rfl
  rcases getVar f.wrap climbVsConmach with _ | _ <;> try rfl
  rcases getVar f.wrap initclimbVs with _ | _ <;> try rfl
  rcases getVar f.wrap climbCrossAltConcas with _ | _ <;> try rfl
  simp only [bind, Except.bind, pure, Except.pure, l1, l2, l3]
  rw [if_neg (by simp [hr])]
  rfl

theorem descentParams_np {f : FlightGen G} {kw : Kw} (hr : kw.random.getD false = false) :
    descentParams np wreal roundHundreds f.wrap (keys kw) =
      (descentSetup R f kw).map fun q => loopedDescent q.1 := by
  unfold descentParams descentSetup
  obtain ⟨l1, l2, l3⟩ := lits
  rcases getVar f.wrap landingAcceleration with _ | _ <;> try rfl
  rcases getVar f.wrap finalappVcas with _ | _ <;> try rfl
  rcases getVar f.wrap cruiseAlt with _ | _ <;> try rfl
  rcases getVar f.wrap descentConstMach with _ | _ <;> try rfl
  rcases getVar f.wrap descentConstVcas with _ | _ <;> try rfl
  rcases getVar f.wrap descentVsConmach with _ | _ <;> try rfl
  rcases getVar f.wrap descentVsConcas with _ | _ <;> try rfl
  rcases getVar f.wrap descentVsPostConcas with _ | _ <;> try rfl
  rcases getVar f.wrap finalappVs with _ | _ <;> try rfl
  rcases getVar f.wrap descentCrossAltConcas with _ | _ <;> try rfl
  simp only [bind, Except.bind, pure, Except.pure, l1, l2, l3]
  rw [if_neg (by simp [hr])]
  rfl

theorem cruiseParams_np {f : FlightGen G} {kw : Kw} (hr : kw.random.getD false = false) :
    cruiseParams wreal roundHundreds f.wrap (keys kw) =
      (cruiseSetup R f kw).map fun q => loopedCruise q.1 := by
  unfold cruiseParams cruiseSetup
  obtain ⟨l1, l2, l3⟩ := lits
  rcases getVar f.wrap cruiseRange with _ | _ <;> try rfl
  rcases getVar f.wrap cruiseAlt with _ | _ <;> try rfl
  rcases getVar f.wrap cruiseMach with _ | _ <;> try rfl
  simp only [bind, Except.bind, pure, Except.pure, l1, l3]
  rw [if_neg (by simp [hr])]
  rfl

end

section
variable {α : Type} [Add α] [Sub α] [Mul α] [Div α] [Neg α] [OfScientific α] [Pow α ℕ]
variable (b : Backend α) (num : ℤ → α) (round2 : α → α)

theorem climbParams_eq {w : List WrapRow} (hw : tableOk w = true) (d : Option α) :
    climbParams b num round2 w { dt := d } = .ok
      ⟨d.getD 1.0, num (look w takeoffAcceleration).opt, num (look w takeoffSpeed).opt,
        num (look w climbConstMach).opt,
        b.maximum (num (look w climbConstVcas).opt / kts) (num (look w takeoffSpeed).opt / kts) * kts,
        round2 (num (look w cruiseAlt).opt * 1000.0 / ft) * ft, num (look w initclimbVs).opt,
        num (look w climbVsPreConcas).opt, num (look w climbVsConcas).opt,
        num (look w climbVsConmach).opt, num (look w climbCrossAltConcas).opt * 1000.0,
        crossoverAlt b (b.maximum (num (look w climbConstVcas).opt / kts)
          (num (look w takeoffSpeed).opt / kts) * kts) (num (look w climbConstMach).opt) 0.0⟩ := by
  simp only [tableOk, Bool.and_eq_true, List.all_cons, List.all_nil, Bool.and_true] at hw
  obtain ⟨⟨⟨⟨⟨⟨⟨⟨⟨⟨⟨⟨x1, x2, x3, x4, x5⟩, x6⟩, y1⟩, y2⟩, z1, z2, z3⟩, y3⟩, y4⟩, y5⟩, y6⟩, y7⟩, y8⟩,
    v1, v2, v3, v4⟩ := hw
  obtain ⟨aTof, e1, -⟩ := entry_of x1
  obtain ⟨wPre, e2, -⟩ := entry_of x2
  obtain ⟨wCon, e3, -⟩ := entry_of x3
  obtain ⟨wCom, e4, -⟩ := entry_of x4
  obtain ⟨wIc, e5, -⟩ := entry_of x5
  obtain ⟨wCas, e6, -⟩ := entry_of y2
  obtain ⟨wMach, e7, -⟩ := entry_of z1
  obtain ⟨wAlt, e8, -⟩ := entry_of y3
  obtain ⟨vTof, e9, -⟩ := entry_of' y1
  obtain ⟨wX, e10, -⟩ := entry_of' y4
  unfold climbParams
  rw [look_eq e1, look_eq e2, look_eq e3, look_eq e4, look_eq e5, look_eq e6, look_eq e7,
    look_eq e8, look_eq e9, look_eq e10]
  simp only [e1, e2, e3, e4, e5, e6, e7, e8, e9, e10, bind, Except.bind, pure, Except.pure,
    Option.getD_none]

theorem descentParams_eq {w : List WrapRow} (hw : tableOk w = true) (d : Option α)
    (c : Option Bool) :
    descentParams b num round2 w { dt := d, withcr := c } = .ok
      ⟨d.getD 1.0, c.getD true, num (look w landingAcceleration).opt, num (look w finalappVcas).opt,
        num (look w descentConstMach).opt, num (look w descentConstVcas).opt / kts * kts,
        round2 (num (look w cruiseAlt).opt * 1000.0 / ft) * ft, num (look w descentVsConmach).opt,
        num (look w descentVsConcas).opt, num (look w descentVsPostConcas).opt,
        num (look w finalappVs).opt, num (look w descentCrossAltConcas).opt * 1000.0,
        crossoverAlt b (num (look w descentConstVcas).opt / kts * kts)
          (num (look w descentConstMach).opt) 0.0⟩ := by
  simp only [tableOk, Bool.and_eq_true, List.all_cons, List.all_nil, Bool.and_true] at hw
  obtain ⟨⟨⟨⟨⟨⟨⟨⟨⟨⟨⟨⟨x1, x2, x3, x4, x5⟩, x6⟩, y1⟩, y2⟩, z1, z2, z3⟩, y3⟩, y4⟩, y5⟩, y6⟩, y7⟩, y8⟩,
    v1, v2, v3, v4⟩ := hw
  obtain ⟨_, e1, -⟩ := entry_of' y8
  obtain ⟨_, e2, -⟩ := entry_of x6
  obtain ⟨_, e3, -⟩ := entry_of y3
  obtain ⟨_, e4, -⟩ := entry_of z2
  obtain ⟨_, e5, -⟩ := entry_of' y6
  obtain ⟨_, e6, -⟩ := entry_of v1
  obtain ⟨_, e7, -⟩ := entry_of v2
  obtain ⟨_, e8, -⟩ := entry_of v3
  obtain ⟨_, e9, -⟩ := entry_of v4
  obtain ⟨_, e10, p⟩ := entry_of' y7
  unfold descentParams
  rw [look_eq e1, look_eq e2, look_eq e3, look_eq e4, look_eq e5, look_eq e6, look_eq e7,
    look_eq e8, look_eq e9, look_eq e10]
  simp only [e1, e2, e3, e4, e5, e6, e7, e8, e9, e10, bind, Except.bind, pure, Except.pure,
    Option.getD_none]

theorem cruiseParams_eq {w : List WrapRow} (hw : tableOk w = true) (d : Option α) :
    cruiseParams num round2 w { dt := d } = .ok
      ⟨d.getD 1.0, num (look w cruiseRange).opt * 1000.0, num (look w cruiseMach).opt,
        round2 (num (look w cruiseAlt).opt * 1000.0 / ft) * ft⟩ := by
  simp only [tableOk, Bool.and_eq_true, List.all_cons, List.all_nil, Bool.and_true] at hw
  obtain ⟨⟨⟨⟨⟨⟨⟨⟨⟨⟨⟨⟨x1, x2, x3, x4, x5⟩, x6⟩, y1⟩, y2⟩, z1, z2, z3⟩, y3⟩, y4⟩, y5⟩, y6⟩, y7⟩, y8⟩,
    v1, v2, v3, v4⟩ := hw
  obtain ⟨_, e1, -⟩ := entry_of' y5
  obtain ⟨_, e2, -⟩ := entry_of y3
  obtain ⟨_, e3, -⟩ := entry_of z3
  unfold cruiseParams
  rw [look_eq e1, look_eq e2, look_eq e3]
  simp only [e1, e2, e3, bind, Except.bind, pure, Except.pure, Option.getD_none]

end

/-! ### Sizes of the shipped tables -/

/-- The variables the generator reads. -/
def readVars : List Str :=
  [takeoffAcceleration, takeoffSpeed, climbConstVcas, climbConstMach, cruiseAlt, climbVsPreConcas,
    climbVsConcas, climbVsConmach, initclimbVs, climbCrossAltConcas, landingAcceleration, finalappVcas,
    descentConstMach, descentConstVcas, descentVsConmach, descentVsConcas, descentVsPostConcas,
    finalappVs, descentCrossAltConcas, cruiseRange, cruiseMach]

/-- Bounds beyond those of `tableOk`, `scheduleOk` and `sizeOk`. -/
def readOk (w : List WrapRow) : Bool :=
  readVars.all (fun v => decide ((look w v).opt.natAbs ≤ 1000000000)) &&
  crossIn (look w descentConstVcas).opt (look w descentConstMach).opt 10000
    (min 110000 ((look w cruiseAlt).opt - 153))

theorem shipped_reads : (availableAircraft shipped true).all (fun ac =>
    match Gen.init shipped ac () true with
    | .ok f => readOk f.wrap
    | .error _ => false) = true := by
  decide +kernel

/-! ### Numbers -/

variable {M : Machine .binary64} {num : ℤ → Fl M}

theorem num_err (h : Reads M num) {z : ℤ} (hz : z.natAbs ≤ 1000000000) :
    |(num z).val - wreal z| ≤ 1e-15 * |wreal z| := by
  have := (h z (by
    have : |z| ≤ 1000000000 := by rw [Int.abs_eq_natAbs]; exact_mod_cast hz
    exact this.trans (by norm_num))).2
  refine this.trans (mul_le_mul_of_nonneg_right ?_ (abs_nonneg _))
  have := Format.u64_le
  linarith

theorem near_num (h : Reads M num) {z : ℤ} (hz : z.natAbs ≤ 1000000000) :
    Near (num z).val (wreal z) := by
  unfold Near
  have := num_err h hz
  have := abs_nonneg (wreal z)
  linarith

theorem rnd_1000 (M : Machine .binary64) : M.rnd 1000.0 = 1000 := by
  have := M.rnd_nat Format.binary64_wide 1000 (by norm_num)
  norm_num at this ⊢; exact this

theorem wreal_size {z : ℤ} (hz : z.natAbs ≤ 1000000000) : |wreal z| ≤ 100000 ∧
    (z ≠ 0 → 1e-4 ≤ |wreal z|) := by
  have e : |wreal z| = (z.natAbs : ℝ) / 10 ^ 4 := by
    unfold wreal
    rw [abs_div, Nat.cast_natAbs, abs_of_pos (show (0:ℝ) < 10 ^ 4 by norm_num)]
    push_cast
    rfl
  rw [e]
  have h1 : (z.natAbs : ℝ) ≤ 1000000000 := by exact_mod_cast hz
  refine ⟨by rw [div_le_iff₀ (by norm_num)]; linarith, fun h0 => ?_⟩
  have h2 : (1 : ℝ) ≤ z.natAbs := by exact_mod_cast Int.natAbs_pos.2 h0
  rw [le_div_iff₀ (by norm_num)]
  linarith

/-- An entry in kilometres, in metres. -/
theorem metres (h : Reads M num) {z : ℤ} (hz : z.natAbs ≤ 1000000000) :
    |M.rnd ((num z).val * M.rnd 1000.0) - wreal z * 1000| ≤ 2e-15 * |wreal z * 1000| := by
  have e := num_err h hz
  obtain ⟨s1, s2⟩ := wreal_size hz
  rw [rnd_1000]
  by_cases h0 : z = 0
  · have w0 : wreal z = 0 := by rw [h0]; unfold wreal; norm_num
    rw [w0] at e ⊢
    rw [abs_zero, mul_zero, sub_zero] at e
    rw [abs_eq_zero.1 (le_antisymm e (abs_nonneg _))]
    rw [zero_mul, M.rnd_zero Format.binary64_wide]
    simp
  · have s2 := s2 h0
    have e1 : |(num z).val * 1000 - wreal z * 1000| ≤ 1e-15 * |wreal z| * 1000 := by
      rw [← sub_mul, abs_mul, abs_of_pos (show (0:ℝ) < 1000 by norm_num)]
      exact mul_le_mul_of_nonneg_right e (by norm_num)
    have e2 : |(num z).val * 1000| ≤ |wreal z| * 1000 + 1e-15 * |wreal z| * 1000 := by
      have := abs_add_le ((num z).val * 1000 - wreal z * 1000) (wreal z * 1000)
      rw [sub_add_cancel, abs_mul (wreal z), abs_of_pos (show (0:ℝ) < 1000 by norm_num)] at this
      linarith
    have e3 := abs_rnd64 M (x := (num z).val * 1000) (by linarith)
    have e4 := abs_sub_le (M.rnd ((num z).val * 1000)) ((num z).val * 1000) (wreal z * 1000)
    rw [abs_mul (wreal z), abs_of_pos (show (0:ℝ) < 1000 by norm_num)]
    generalize |wreal z| = W at *
    linarith

theorem near_metres (h : Reads M num) {z : ℤ} (hz : z.natAbs ≤ 1000000000) :
    Near (M.rnd ((num z).val * M.rnd 1000.0)) (wreal z * 1000) := by
  unfold Near
  have := metres h hz
  have := abs_nonneg (wreal z * 1000)
  linarith

private theorem feet_close {a x k : ℝ} (h1 : 9000 ≤ a) (h2 : a ≤ 14000) (xl : -(2e-15 * a) ≤ x - a)
    (xu : x - a ≤ 2e-15 * a) (kl : -(1.2e-16 * 0.3048 + 1e-40) ≤ k - 0.3048)
    (ku : k - 0.3048 ≤ 1.2e-16 * 0.3048 + 1e-40) :
    a / 0.3048 - 1e-6 ≤ x / k ∧ x / k ≤ a / 0.3048 + 1e-6 := by
  have k0 : 0 < k := by linarith
  have k1 : 0.3048 - 1e-16 ≤ k := by linarith
  have k2 : k ≤ 0.3048 + 1e-16 := by linarith
  have m1 := mul_le_mul_of_nonneg_left k1 (show 0 ≤ a by linarith)
  have m2 := mul_le_mul_of_nonneg_left k2 (show 0 ≤ a by linarith)
  constructor
  · rw [le_div_iff₀ k0, div_sub' (by norm_num), div_mul_eq_mul_div, div_le_iff₀ (by norm_num)]
    linarith
  · rw [div_le_iff₀ k0, div_add' _ _ _ (by norm_num), div_mul_eq_mul_div, le_div_iff₀ (by norm_num)]
    linarith

private theorem level_close {r t k : ℝ} (t1 : 0 ≤ r) (t2 : r ≤ 50000) (d1 : r - t ≤ 100.01)
    (d2 : -100.01 ≤ r - t) (kl : -(1.2e-16 * 0.3048 + 1e-40) ≤ k - 0.3048)
    (ku : k - 0.3048 ≤ 1.2e-16 * 0.3048 + 1e-40) :
    t * 0.3048 - 31 ≤ r * k ∧ r * k ≤ t * 0.3048 + 31 := by
  have m1 := mul_le_mul_of_nonneg_left (show 0.3048 - 1e-16 ≤ k by linarith) t1
  have m2 := mul_le_mul_of_nonneg_left (show k ≤ 0.3048 + 1e-16 by linarith) t1
  constructor <;> linarith

/-- The cruise altitude. -/
theorem near_level (h : Reads M num) {z : ℤ} (hz : z.natAbs ≤ 1000000000)
    (h1 : 9000 ≤ wreal z * 1000) (h2 : wreal z * 1000 ≤ 14000) :
    Near (flRound2 (M := M) (num z * 1000.0 / ft) * ft).val
      (roundHundreds (wreal z * 1000 / ft) * ft) ∧
    Format.binary64.Repr (flRound2 (M := M) (num z * 1000.0 / ft) * ft).val := by
  set a := wreal z * 1000 with ha
  have m1 := metres h hz
  rw [← ha, abs_of_pos (show 0 < a by linarith)] at m1
  have e : (flRound2 (M := M) (num z * 1000.0 / ft) * ft).val =
      M.rnd (M.rnd (roundHundreds (100 * M.rnd (M.rnd (M.rnd ((num z).val * M.rnd 1000.0) /
        M.rnd 0.3048) / 100))) * M.rnd 0.3048) := rfl
  rw [e]
  have hft : (ft : ℝ) = 0.3048 := rfl
  rw [hft]
  set x := M.rnd ((num z).val * M.rnd 1000.0) with hx
  obtain ⟨xl, xu⟩ := abs_le.1 m1
  have k1 := abs_rnd64 M (x := 0.3048) (by rw [abs_of_pos (by norm_num)]; norm_num)
  rw [abs_of_pos (show (0:ℝ) < 0.3048 by norm_num)] at k1
  obtain ⟨kl, ku⟩ := abs_le.1 k1
  set k := M.rnd 0.3048 with hk
  have k0 : 0 < k := by linarith
  -- in feet
  obtain ⟨q2, q1⟩ := feet_close h1 h2 xl xu kl ku
  have f1 : 29000 ≤ a / 0.3048 := by rw [le_div_iff₀ (by norm_num)]; linarith
  have f2 : a / 0.3048 ≤ 46000 := by rw [div_le_iff₀ (by norm_num)]; linarith
  set y := x / k with hy
  have y1 := abs_rnd64 M (x := y) (abs_le.2 ⟨by linarith, by linarith⟩)
  rw [abs_of_pos (show 0 < y by linarith)] at y1
  obtain ⟨yl, yu⟩ := abs_le.1 y1
  set y' := M.rnd y with hy'
  have z1 := abs_rnd64 M (x := y' / 100) (abs_le.2 ⟨by linarith, by linarith⟩)
  rw [abs_of_pos (show 0 < y' / 100 by linarith)] at z1
  obtain ⟨zl, zu⟩ := abs_le.1 z1
  set z' := M.rnd (y' / 100) with hz'
  obtain ⟨rl, ru⟩ := abs_le.1 (round_near (100 * z'))
  obtain ⟨tl, tu⟩ := abs_le.1 (round_near (a / 0.3048))
  set r := roundHundreds (100 * z') with hr
  set t := roundHundreds (a / 0.3048) with ht
  have r1 := abs_rnd64 M (x := r) (abs_le.2 ⟨by linarith, by linarith⟩)
  rw [abs_of_pos (show 0 < r by linarith)] at r1
  obtain ⟨wl, wu⟩ := abs_le.1 r1
  set r' := M.rnd r with hr'
  have d1 : r' - t ≤ 100.01 := by linarith
  have d2 : -100.01 ≤ r' - t := by linarith
  obtain ⟨p2, p1⟩ := level_close (k := k) (r := r') (t := t) (by linarith) (by linarith) d1 d2 kl ku
  have v1 := abs_rnd64 M (x := r' * k) (abs_le.2 ⟨by linarith, by linarith⟩)
  rw [abs_of_pos (show 0 < r' * k by linarith)] at v1
  obtain ⟨vl, vu⟩ := abs_le.1 v1
  constructor
  · unfold Near
    rw [abs_of_pos (show 0 < t * 0.3048 by linarith)]
    exact abs_le.2 ⟨by linarith, by linarith⟩
  · refine M.rnd_repr _ (big_of_huge (abs_le.2 ⟨?_, ?_⟩))
    · have := huge_ge; linarith
    · have := huge_ge; linarith

/-- The calibrated airspeed: through knots and back. -/
theorem ap_vcas (h : Reads M num) {z : ℤ} (hz : z.natAbs ≤ 1000000000) (h1 : 130 ≤ wreal z)
    (h2 : wreal z ≤ 390) :
    Ap Format.binary64.u 12.2 9 (num z / kts * kts).val (wreal z) ∧
    250 ≤ (num z / kts).val := by
  have hw := Format.binary64_wide
  have hu := Format.u_pos .binary64
  have hu2 := Format.u64_le
  have e := (h z (by
    have : |z| ≤ 1000000000 := by rw [Int.abs_eq_natAbs]; exact_mod_cast hz
    exact this.trans (by norm_num))).2
  rw [abs_of_pos (show 0 < wreal z by linarith)] at e
  have a0 := Ap.of_rel (L := 9) e (by linarith) (by norm_num) hu (by linarith)
    (le_trans (by norm_num) h1) (h2.trans (by norm_num))
  have kt := Ap.lit M hw (L := 1) (b := 0.514444) (by norm_num) (by norm_num) (by norm_num)
  have a1 := (a0.div kt).rnd M hw (by norm_num) (by norm_num)
  have a2 := (a1.mul kt).rnd M hw (by norm_num) (by norm_num)
  rw [div_mul_cancel₀ _ (by norm_num)] at a2
  constructor
  · exact (a2.mono hu.le (by norm_num)).range (le_trans (by norm_num) h1) (h2.trans (by norm_num))
  · have := a1.rel (by norm_num) hu.le (by linarith)
    obtain ⟨l, -⟩ := abs_le.1 this
    have hb : 252 ≤ wreal z / 0.514444 := by rw [le_div_iff₀ (by norm_num)]; linarith
    show 250 ≤ M.rnd ((num z).val / M.rnd 0.514444)
    set q := wreal z / 0.514444
    nlinarith

theorem ap_mach (h : Reads M num) {z : ℤ} (hz : z.natAbs ≤ 1000000000) (h1 : 0.5 ≤ wreal z)
    (h2 : wreal z ≤ 1) : Ap Format.binary64.u 8.08 4 (num z).val (wreal z) := by
  have hu := Format.u_pos .binary64
  have hu2 := Format.u64_le
  have e := (h z (by
    have : |z| ≤ 1000000000 := by rw [Int.abs_eq_natAbs]; exact_mod_cast hz
    exact this.trans (by norm_num))).2
  rw [abs_of_pos (show 0 < wreal z by linarith)] at e
  have := Ap.of_rel (L := 4) e (by linarith) (by norm_num) hu (by linarith)
    (le_trans (by norm_num) h1) (h2.trans (by norm_num))
  exact this.mono hu.le (by norm_num)

/-- The crossover altitude. -/
theorem near_cross {c m : ℝ} {c' m' : Fl M} (hc : Ap Format.binary64.u 12.2 9 c'.val c)
    (hm : Ap Format.binary64.u 8.08 4 m'.val m) (c1 : 130 ≤ c) (c2 : c ≤ 390) (m1 : 0.5 ≤ m)
    (m2 : m ≤ 1) (hx : 1000 ≤ crossoverAlt np c m 0) :
    Near (crossoverAlt (flt M) c' m' 0.0).val (crossoverAlt np c m 0) := by
  have z0 : (0.0 : Fl M) = ⟨0⟩ := by
    show (⟨M.rnd 0.0⟩ : Fl M) = ⟨0⟩
    rw [show (0.0 : ℝ) = 0 by norm_num, M.rnd_zero Format.binary64_wide]
  have := fl_crossover M Format.binary64_wide hc hm (by norm_num) (by norm_num) (by norm_num)
    (by norm_num) (by linarith) (by linarith) (by linarith) m2 (dT := 0) (by norm_num)
  unfold Near
  rw [z0]
  rw [abs_of_pos (show 0 < crossoverAlt np c m 0 by linarith)]
  refine this.trans ?_
  have i1 : 9.5e10 / c ^ 2 ≤ 9.5e10 / 130 ^ 2 :=
    div_le_div_of_nonneg_left (by norm_num) (by norm_num) (by nlinarith)
  have i2 : 8.3e5 / m ^ 2 ≤ 8.3e5 / 0.5 ^ 2 :=
    div_le_div_of_nonneg_left (by norm_num) (by norm_num) (by nlinarith)
  have hu2 := Format.u64_le
  have hu := Format.u_pos .binary64
  calc _ ≤ (1e8 : ℝ) * Format.binary64.u := mul_le_mul_of_nonneg_right (by
        norm_num at i1 i2 ⊢; linarith) hu.le
    _ ≤ _ := by linarith

end Verif.GenLoop
