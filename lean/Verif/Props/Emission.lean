import Verif.Lemmas.Emission
import Verif.Lemmas.Construct

/-!
# C20, C38-C40, C81: emissions
-/

namespace Verif.Props
open Verif Verif.Emission Verif.Spec Verif.Aero Real
open Verif.Data (shipped)

/-- Sea-level equivalent fuel flow of one engine, as computed. -/
noncomputable abbrev ffSl (e : Params ℝ) (w v alt dT : ℝ) : ℝ := (fl2sl np e w v alt dT).1

theorem lto_top_iff (e : Params ℝ) (ei : Fin 4 → ℝ) (h : Ordered e.ff) {x : ℝ} (hx : e.ff 3 < x) :
    lto casadi e ei x = lto np e ei x ↔ ei 2 = ei 3 := by
  have h1 := (lto_spec e ei h x).2.1 hx.le
  have h2 := lto_spec_casadi e ei h x 2 (Or.inr (by have := h.2.2; change e.ff 2 ≤ x; linarith))
    (Or.inl rfl)
  change _ * (e.ff 3 - e.ff 2) = ei 2 * (e.ff 3 - x) + ei 3 * (x - e.ff 2) at h2
  have h3 := h.2.2
  rw [h1]
  constructor
  · intro hh
    rw [hh] at h2
    have : (ei 2 - ei 3) * (e.ff 3 - x) = 0 := by linarith
    rcases mul_eq_zero.1 this with h | h <;> linarith
  · intro hh
    rw [hh] at h2
    have : (lto casadi e ei x - ei 3) * (e.ff 3 - e.ff 2) = 0 := by linarith
    rcases mul_eq_zero.1 this with h | h <;> linarith

theorem lto_bot_iff (e : Params ℝ) (ei : Fin 4 → ℝ) (h : Ordered e.ff) {x : ℝ} (hx : x < e.ff 0) :
    lto casadi e ei x = lto np e ei x ↔ ei 0 = ei 1 := by
  have h1 := (lto_spec e ei h x).1 hx.le
  have h2 := lto_spec_casadi e ei h x 0 (Or.inl rfl)
    (Or.inr (by have := h.1; change x ≤ e.ff 1; linarith))
  change _ * (e.ff 1 - e.ff 0) = ei 0 * (e.ff 1 - x) + ei 1 * (x - e.ff 0) at h2
  have h3 := h.1
  rw [h1]
  constructor
  · intro hh
    rw [hh] at h2
    have : (ei 0 - ei 1) * (x - e.ff 0) = 0 := by linarith
    rcases mul_eq_zero.1 this with h | h <;> linarith
  · intro hh
    rw [hh] at h2
    have : (lto casadi e ei x - ei 1) * (e.ff 1 - e.ff 0) = 0 := by linarith
    rcases mul_eq_zero.1 this with h | h <;> linarith

theorem lto_mid (e : Params ℝ) (ei : Fin 4 → ℝ) (h : Ordered e.ff) {x : ℝ} (h0 : e.ff 0 ≤ x)
    (h3 : x ≤ e.ff 3) : lto casadi e ei x = lto np e ei x := by
  have key : ∃ k : Fin 3, e.ff k.castSucc ≤ x ∧ x ≤ e.ff k.succ := by
    by_cases b : x ≤ e.ff 1
    · exact ⟨0, h0, b⟩
    by_cases c : x ≤ e.ff 2
    · exact ⟨1, (not_le.1 b).le, c⟩
    · exact ⟨2, (not_le.1 c).le, h3⟩
  obtain ⟨k, k1, k2⟩ := key
  have e1 := (lto_spec e ei h x).2.2 k k1 k2
  have e2 := lto_spec_casadi e ei h x k (Or.inr k1) (Or.inr k2)
  have := step h k
  exact mul_right_cancel₀ (by linarith : e.ff k.succ - e.ff k.castSucc ≠ 0) (e2.trans e1.symm)

theorem nox_factor (b : Backend ℝ) (e : Params ℝ) (w v alt dT : ℝ)
    (hb : b.exp = np.exp ∧ b.sqrt = np.sqrt) (hf : fl2sl b e w v alt dT = fl2sl np e w v alt dT) :
    nox b e w v alt dT = lto b e e.nox (ffSl e w v alt dT) *
      √(1 / (fl2sl np e w v alt dT).2) *
      exp (-19 * (0.001 * exp (-0.0001426 * (alt - 12900)) - 0.00634)) * w := by
  simp only [nox, hf, hb.1, hb.2, ffSl]
  have e1 : (1.0:ℝ) = 1 := by norm_num
  have e2 : (-19.0:ℝ) = -19 := by norm_num
  have e3 : (12900.0:ℝ) = 12900 := by norm_num
  rw [e1, e2, e3]
  rfl

theorem co_factor (b : Backend ℝ) (e : Params ℝ) (w v alt dT : ℝ)
    (hf : fl2sl b e w v alt dT = fl2sl np e w v alt dT) :
    co b e w v alt dT =
      lto b e e.co (ffSl e w v alt dT) * (fl2sl np e w v alt dT).2 * w ∧
    hc b e w v alt dT =
      lto b e e.hc (ffSl e w v alt dT) * (fl2sl np e w v alt dT).2 * w := by
  simp only [co, hc, hf, ffSl, and_self]

theorem ratio_pos' (e : Params ℝ) (w v alt dT : ℝ) (ha : 0.0019812 * alt < 288.15) :
    0 < (fl2sl np e w v alt dT).2 := by
  rw [(fl2sl_eq e w v alt dT ha).2]
  have hT : 0 < temperature np (alt * 0.3048) dT := by rw [temperature_eq]; exact temp_pos _ _
  have hd : 0 < 1 - 0.0019812 * alt / 288.15 := by
    rw [sub_pos, div_lt_iff₀ (by norm_num)]; linarith
  unfold bffmRatio bffmDelta
  positivity

/-- **C20 (inside the table).** When the sea-level fuel flow lies between idle and take-off,
CasADi and NumPy agree on NOx, CO and HC. -/
theorem C20_agree_inside (e : Params ℝ) (h : e.ff 0 < e.ff 1 ∧ e.ff 1 < e.ff 2 ∧ e.ff 2 < e.ff 3)
    (w v alt dT : ℝ) (h0 : e.ff 0 ≤ ffSl e w v alt dT) (h3 : ffSl e w v alt dT ≤ e.ff 3) :
    nox casadi e w v alt dT = nox np e w v alt dT ∧
    co casadi e w v alt dT = co np e w v alt dT ∧
    hc casadi e w v alt dT = hc np e w v alt dT := by
  have hf : fl2sl casadi e w v alt dT = fl2sl np e w v alt dT := by rw [fl2sl_casadi]
  refine ⟨?_, ?_, ?_⟩
  · rw [nox_factor casadi e w v alt dT ⟨rfl, rfl⟩ hf, nox_factor np e w v alt dT ⟨rfl, rfl⟩ rfl,
      lto_mid e e.nox h h0 h3]
  · rw [(co_factor casadi e w v alt dT hf).1, (co_factor np e w v alt dT rfl).1,
      lto_mid e e.co h h0 h3]
  · rw [(co_factor casadi e w v alt dT hf).2, (co_factor np e w v alt dT rfl).2,
      lto_mid e e.hc h h0 h3]

/-- **C20 (outside the table).** Above the take-off fuel flow the two backends agree only for a
species whose climb-out and take-off indices coincide; below the idle fuel flow only when the
idle and approach indices coincide. -/
theorem C20_differ_outside (e : Params ℝ)
    (h : e.ff 0 < e.ff 1 ∧ e.ff 1 < e.ff 2 ∧ e.ff 2 < e.ff 3) (w v alt dT : ℝ) (hw : w ≠ 0)
    (ha : 0.0019812 * alt < 288.15) :
    (e.ff 3 < ffSl e w v alt dT →
      (nox casadi e w v alt dT = nox np e w v alt dT ↔ e.nox 2 = e.nox 3) ∧
      (co casadi e w v alt dT = co np e w v alt dT ↔ e.co 2 = e.co 3) ∧
      (hc casadi e w v alt dT = hc np e w v alt dT ↔ e.hc 2 = e.hc 3)) ∧
    (ffSl e w v alt dT < e.ff 0 →
      (nox casadi e w v alt dT = nox np e w v alt dT ↔ e.nox 0 = e.nox 1) ∧
      (co casadi e w v alt dT = co np e w v alt dT ↔ e.co 0 = e.co 1) ∧
      (hc casadi e w v alt dT = hc np e w v alt dT ↔ e.hc 0 = e.hc 1)) := by
  have hf : fl2sl casadi e w v alt dT = fl2sl np e w v alt dT := by rw [fl2sl_casadi]
  have hr := ratio_pos' e w v alt dT ha
  have hs : √(1 / (fl2sl np e w v alt dT).2) ≠ 0 := by positivity
  have hx : exp (-19 * (0.001 * exp (-0.0001426 * (alt - 12900)) - 0.00634)) ≠ 0 := (exp_pos _).ne'
  rw [nox_factor casadi e w v alt dT ⟨rfl, rfl⟩ hf, nox_factor np e w v alt dT ⟨rfl, rfl⟩ rfl,
    (co_factor casadi e w v alt dT hf).1, (co_factor np e w v alt dT rfl).1,
    (co_factor casadi e w v alt dT hf).2, (co_factor np e w v alt dT rfl).2]
  rw [mul_left_inj' hw, mul_left_inj' hw, mul_left_inj' hw, mul_left_inj' hx, mul_left_inj' hs,
    mul_left_inj' hr.ne', mul_left_inj' hr.ne']
  refine ⟨fun hh => ⟨lto_top_iff e _ h hh, lto_top_iff e _ h hh, lto_top_iff e _ h hh⟩,
    fun hh => ⟨lto_bot_iff e _ h hh, lto_bot_iff e _ h hh, lto_bot_iff e _ h hh⟩⟩

/-- A two-engine aircraft with the published CFM56-5B4 values, rounded. -/
noncomputable def cfm56em : Params ℝ :=
  ⟨2, ![0.1, 0.3, 0.9, 1.1], ![4, 8, 21, 26], ![30, 3, 0.9, 0.9], ![4, 0.5, 0.2, 0.2]⟩

theorem cfm56em_ordered : Ordered cfm56em.ff :=
  ⟨show (0.1:ℝ) < 0.3 by norm_num, show (0.3:ℝ) < 0.9 by norm_num,
    show (0.9:ℝ) < 1.1 by norm_num⟩

/-- Fuel flow enters the sea-level conversion linearly, so both sides of the table are reached. -/
theorem ffSl_linear (e : Params ℝ) (hn : 0 < e.number) (v alt dT : ℝ)
    (ha : 0.0019812 * alt < 288.15) :
    ∃ c > 0, ∀ w, ffSl e w v alt dT = c * w := by
  have hT : 0 < temperature np (alt * 0.3048) dT := by rw [temperature_eq]; exact temp_pos _ _
  have hd : 0 < 1 - 0.0019812 * alt / 288.15 := by
    rw [sub_pos, div_lt_iff₀ (by norm_num)]; linarith
  refine ⟨1 / e.number * (temperature np (alt * 0.3048) dT / 288.15) ^ (3.8 : ℝ) /
    bffmDelta alt * exp (0.2 * tas2mach np (v * 0.514444) (alt * 0.3048) dT ^ 2) *
    exp (-0.06 * tas2mach np (v * 0.514444) (alt * 0.3048) dT ^ 2), ?_, ?_⟩
  · unfold bffmDelta
    positivity
  · intro w
    rw [show ffSl e w v alt dT = _ from (fl2sl_eq e w v alt dT ha).1]
    unfold bffmFuel
    ring

example (v dT : ℝ) : ∃ w > 0, nox casadi cfm56em w v 35000 dT ≠ nox np cfm56em w v 35000 dT := by
  have ha : 0.0019812 * (35000:ℝ) < 288.15 := by norm_num
  obtain ⟨c, hc, hl⟩ := ffSl_linear cfm56em (by norm_num [cfm56em]) v 35000 dT ha
  refine ⟨2 / c, by positivity, ?_⟩
  have hx : ffSl cfm56em (2 / c) v 35000 dT = 2 := by rw [hl]; field_simp
  have := (C20_differ_outside cfm56em cfm56em_ordered (2 / c) v 35000 dT (by positivity) ha).1
    (by rw [hx]; show (1.1:ℝ) < 2; norm_num)
  rw [ne_eq, this.1]
  simp [cfm56em]

/-- **C38.** The four species are proportional to fuel with the documented indices. -/
theorem C38_proportional (x y a : ℝ) :
    Emission.co2 x = 3160 * x ∧ Emission.h2o x = 1230 * x ∧ Emission.soot x = 0.03 * x ∧
    Emission.sox x = 1.2 * x ∧
    (∀ f ∈ [Emission.co2, Emission.h2o, Emission.soot, Emission.sox],
      f (x + y) = f x + f y ∧ f (a * x) = a * f x ∧ (0 < x → 0 < f x)) ∧
    (0 < x → Emission.h2o x / Emission.co2 x = 123 / 316) := by
  have h1 : ∀ x : ℝ, Emission.co2 x = 3160 * x := fun x => by
    unfold Emission.co2; rw [mul_comm]; congr 1; norm_num
  have h2 : ∀ x : ℝ, Emission.h2o x = 1230 * x := fun x => by
    unfold Emission.h2o; rw [mul_comm]; congr 1; norm_num
  have h3 : ∀ x : ℝ, Emission.soot x = 0.03 * x := fun x => by
    unfold Emission.soot; rw [mul_comm]
  have h4 : ∀ x : ℝ, Emission.sox x = 1.2 * x := fun x => by
    unfold Emission.sox; rw [mul_comm]
  refine ⟨h1 x, h2 x, h3 x, h4 x, ?_, ?_⟩
  · intro f hf
    simp only [List.mem_cons, List.not_mem_nil, or_false] at hf
    have key : ∃ c : ℝ, 0 < c ∧ ∀ x, f x = c * x := by
      rcases hf with rfl | rfl | rfl | rfl
      · exact ⟨3160, by norm_num, h1⟩
      · exact ⟨1230, by norm_num, h2⟩
      · exact ⟨0.03, by norm_num, h3⟩
      · exact ⟨1.2, by norm_num, h4⟩
    obtain ⟨c, hc, hf⟩ := key
    rw [hf, hf, hf, hf]
    exact ⟨by ring, by ring, fun h => by positivity⟩
  · intro h
    rw [h1, h2]
    have := h.ne'
    field_simp
    norm_num

/-- **C39.** For non-negative fuel flow below 145442 ft the rates of NOx, CO and HC are
non-negative and zero at zero fuel; each is fuel flow times a positive flight correction times
an index read off the engine's piecewise-linear LTO curve at the sea-level fuel flow, which
therefore lies between the smallest and largest certified index. -/
theorem C39_bounded_by_table (e : Params ℝ)
    (h : e.ff 0 < e.ff 1 ∧ e.ff 1 < e.ff 2 ∧ e.ff 2 < e.ff 3)
    (hnox : ∀ k, 0 ≤ e.nox k) (hco : ∀ k, 0 ≤ e.co k) (hhc : ∀ k, 0 ≤ e.hc k)
    (w v alt dT : ℝ) (hw : 0 ≤ w) (ha : alt ≤ 145442) :
    (0 ≤ nox np e w v alt dT ∧ 0 ≤ co np e w v alt dT ∧ 0 ≤ hc np e w v alt dT) ∧
    (w = 0 → nox np e w v alt dT = 0 ∧ co np e w v alt dT = 0 ∧ hc np e w v alt dT = 0) ∧
    ∃ N C H rn rc : ℝ, 0 < rn ∧ 0 < rc ∧
      nox np e w v alt dT = N * rn * w ∧ co np e w v alt dT = C * rc * w ∧
      hc np e w v alt dT = H * rc * w ∧
      IsLto e.ff e.nox (ffSl e w v alt dT) N ∧ IsLto e.ff e.co (ffSl e w v alt dT) C ∧
      IsLto e.ff e.hc (ffSl e w v alt dT) H ∧
      (∀ lo hi, (∀ k, lo ≤ e.nox k) → (∀ k, e.nox k ≤ hi) → lo ≤ N ∧ N ≤ hi) ∧
      (∀ lo hi, (∀ k, lo ≤ e.co k) → (∀ k, e.co k ≤ hi) → lo ≤ C ∧ C ≤ hi) ∧
      (∀ lo hi, (∀ k, lo ≤ e.hc k) → (∀ k, e.hc k ≤ hi) → lo ≤ H ∧ H ≤ hi) := by
  have ha' : 0.0019812 * alt < 288.15 := by
    norm_num; linarith
  have hr := ratio_pos' e w v alt dT ha'
  set x := ffSl e w v alt dT with hx
  have sN := lto_spec e e.nox h x
  have sC := lto_spec e e.co h x
  have sH := lto_spec e e.hc h x
  have bN : 0 ≤ lto np e e.nox x := by
    by_cases h0 : True
    · exact (IsLto.bounds (hi := e.nox 0 + e.nox 1 + e.nox 2 + e.nox 3) sN h hnox (by
        intro k
        have := hnox 0; have := hnox 1; have := hnox 2; have := hnox 3
        fin_cases k <;> simp <;> linarith)).1
    · exact absurd trivial h0
  have bC : 0 ≤ lto np e e.co x := (IsLto.bounds (hi := e.co 0 + e.co 1 + e.co 2 + e.co 3) sC h
    hco (by
        intro k
        have := hco 0; have := hco 1; have := hco 2; have := hco 3
        fin_cases k <;> simp <;> linarith)).1
  have bH : 0 ≤ lto np e e.hc x := (IsLto.bounds (hi := e.hc 0 + e.hc 1 + e.hc 2 + e.hc 3) sH h
    hhc (by
        intro k
        have := hhc 0; have := hhc 1; have := hhc 2; have := hhc 3
        fin_cases k <;> simp <;> linarith)).1
  have en := nox_factor np e w v alt dT ⟨rfl, rfl⟩ rfl
  have ec := co_factor np e w v alt dT rfl
  rw [← hx] at en ec
  have hs : 0 < √(1 / (fl2sl np e w v alt dT).2) := by positivity
  refine ⟨⟨?_, ?_, ?_⟩, ?_, lto np e e.nox x, lto np e e.co x, lto np e e.hc x,
    √(1 / (fl2sl np e w v alt dT).2) *
      exp (-19 * (0.001 * exp (-0.0001426 * (alt - 12900)) - 0.00634)),
    (fl2sl np e w v alt dT).2, by positivity, hr, ?_, ec.1, ec.2, sN, sC, sH, ?_, ?_, ?_⟩
  · rw [en]; positivity
  · rw [ec.1]; positivity
  · rw [ec.2]; positivity
  · intro h0
    rw [en, ec.1, ec.2, h0]
    simp
  · rw [en]; ring
  · exact fun lo hi a b => IsLto.bounds sN h a b
  · exact fun lo hi a b => IsLto.bounds sC h a b
  · exact fun lo hi a b => IsLto.bounds sH h a b

example : 0 ≤ nox np cfm56em 0.7 450 35000 0 :=
  (C39_bounded_by_table cfm56em cfm56em_ordered
    (by intro k; fin_cases k <;> simp [cfm56em])
    (by intro k; fin_cases k <;> simp [cfm56em] <;> norm_num)
    (by intro k; fin_cases k <;> simp [cfm56em] <;> norm_num) 0.7 450 35000 0 (by norm_num)
    (by norm_num)).1.1

/-- Every row of the shipped engine table has increasing, positive LTO fuel flows. -/
theorem shipped_ordered : ∀ r ∈ shipped.engines,
    0 < r.ff.idl ∧ r.ff.idl < r.ff.app ∧ r.ff.app < r.ff.cout ∧ r.ff.cout < r.ff.toff := by
  decide +kernel

/-- **C40.** For every engine of the shipped table on any aircraft: when the sea-level fuel
flow equals the certified fuel flow of one of the four modes, the index used is the certified
index of that mode; the fuel flows are strictly increasing, so the mode is unique. -/
theorem C40_certification_points (a : Tables.AircraftRow) (r : Tables.EngineRow)
    (hr : r ∈ shipped.engines) (w v alt dT : ℝ) (k : Fin 4) :
    StrictMono (Construct.emissionParams a r).ff ∧ 0 < (Construct.emissionParams a r).ff 0 ∧
    (ffSl (Construct.emissionParams a r) w v alt dT = (Construct.emissionParams a r).ff k →
      co np (Construct.emissionParams a r) w v alt dT =
        Construct.quad r.ei_co k * (fl2sl np (Construct.emissionParams a r) w v alt dT).2 * w ∧
      hc np (Construct.emissionParams a r) w v alt dT =
        Construct.quad r.hc k * (fl2sl np (Construct.emissionParams a r) w v alt dT).2 * w ∧
      nox np (Construct.emissionParams a r) w v alt dT = Construct.quad r.nox k *
        √(1 / (fl2sl np (Construct.emissionParams a r) w v alt dT).2) *
        exp (-19 * (0.001 * exp (-0.0001426 * (alt - 12900)) - 0.00634)) * w) := by
  obtain ⟨h0, h1, h2, h3⟩ := shipped_ordered r hr
  set e := Construct.emissionParams a r with he
  have hord : Ordered e.ff := ⟨Construct.real_lt h1, Construct.real_lt h2, Construct.real_lt h3⟩
  have hmono : StrictMono e.ff := Fin.strictMono_iff_lt_succ.2 (step hord)
  refine ⟨hmono, Construct.real_pos h0, ?_⟩
  intro hx
  have key : ∀ ei : Fin 4 → ℝ, lto np e ei (ffSl e w v alt dT) = ei k := by
    intro ei
    have hs := lto_spec e ei hord (ffSl e w v alt dT)
    have hc : ∃ j : Fin 3, k = j.castSucc ∨ k = j.succ := by
      fin_cases k
      · exact ⟨0, Or.inl rfl⟩
      · exact ⟨0, Or.inr rfl⟩
      · exact ⟨1, Or.inr rfl⟩
      · exact ⟨2, Or.inr rfl⟩
    obtain ⟨j, hj⟩ := hc
    have hj' := step hord j
    rcases hj with hj | hj
    · rw [hj] at hx
      have := hs.2.2 j hx.ge (hx.le.trans hj'.le)
      rw [hx] at this ⊢
      rw [hj]
      refine mul_right_cancel₀ (b := e.ff j.succ - e.ff j.castSucc) (by linarith) ?_
      rw [this]; ring
    · rw [hj] at hx
      have := hs.2.2 j (hj'.le.trans hx.ge) hx.le
      rw [hx] at this ⊢
      rw [hj]
      refine mul_right_cancel₀ (b := e.ff j.succ - e.ff j.castSucc) (by linarith) ?_
      rw [this]; ring
  have en := nox_factor np e w v alt dT ⟨rfl, rfl⟩ rfl
  have ec := co_factor np e w v alt dT rfl
  rw [key] at en
  rw [key, key] at ec
  exact ⟨ec.1, ec.2, en⟩

/-- The hypothesis is met: some fuel flow realises any chosen mode (two engines, 35000 ft). -/
example (a : Tables.AircraftRow) (ha : 0 < a.number) (r : Tables.EngineRow)
    (_hr : r ∈ shipped.engines) (k : Fin 4) (v dT : ℝ) :
    ∃ w, ffSl (Construct.emissionParams a r) w v 35000 dT = (Construct.emissionParams a r).ff k := by
  obtain ⟨c, hc, hl⟩ := ffSl_linear (Construct.emissionParams a r) (Construct.real_pos ha) v 35000
    dT (by norm_num)
  exact ⟨(Construct.emissionParams a r).ff k / c, by rw [hl]; field_simp⟩

/-- **C81.** Deviation from the published Boeing Fuel Flow Method 2, at every speed, shift and
altitude below 145442 ft; there is none exactly at Mach 0. -/
theorem C81_deviation (e : Params ℝ) (w v alt dT : ℝ) (ha : alt ≤ 145442) :
    ∃ M, M = tas2mach np (v * 0.514444) (alt * 0.3048) dT ∧
    (fl2sl np e w v alt dT).1 =
      bffmFuel (w / e.number) (temperature np (alt * 0.3048) dT) alt M * exp (-0.06 * M ^ 2) ∧
    (fl2sl np e w v alt dT).2 =
      bffmRatio (temperature np (alt * 0.3048) dT) alt * exp (0.054 * M ^ 2) ∧
    ((fl2sl np e w v alt dT).2 = bffmRatio (temperature np (alt * 0.3048) dT) alt ↔ M = 0) ∧
    (w ≠ 0 → e.number ≠ 0 → ((fl2sl np e w v alt dT).1 =
      bffmFuel (w / e.number) (temperature np (alt * 0.3048) dT) alt M ↔ M = 0)) := by
  have ha' : 0.0019812 * alt < 288.15 := by norm_num; linarith
  obtain ⟨h1, h2⟩ := fl2sl_eq e w v alt dT ha'
  have hT : 0 < temperature np (alt * 0.3048) dT := by rw [temperature_eq]; exact temp_pos _ _
  have hd : 0 < 1 - 0.0019812 * alt / 288.15 := by
    rw [sub_pos, div_lt_iff₀ (by norm_num)]; linarith
  refine ⟨_, rfl, h1, h2, ?_, ?_⟩
  · rw [h2]
    have : bffmRatio (temperature np (alt * 0.3048) dT) alt ≠ 0 := by
      unfold bffmRatio bffmDelta; positivity
    rw [mul_eq_left₀ this, exp_eq_one_iff]
    constructor
    · intro h
      have : tas2mach np (v * 0.514444) (alt * 0.3048) dT ^ 2 = 0 := by linarith
      exact pow_eq_zero_iff (two_ne_zero) |>.1 this
    · intro h; rw [h]; norm_num
  · intro hw hn
    rw [h1]
    have : bffmFuel (w / e.number) (temperature np (alt * 0.3048) dT) alt
        (tas2mach np (v * 0.514444) (alt * 0.3048) dT) ≠ 0 := by
      unfold bffmFuel bffmDelta
      have : w / e.number ≠ 0 := div_ne_zero hw hn
      positivity
    rw [mul_eq_left₀ this, exp_eq_one_iff]
    constructor
    · intro h
      have : tas2mach np (v * 0.514444) (alt * 0.3048) dT ^ 2 = 0 := by linarith
      exact pow_eq_zero_iff (two_ne_zero) |>.1 this
    · intro h; rw [h]; norm_num

example : (fl2sl np cfm56em 1 0 35000 0).1 =
    bffmFuel (1 / cfm56em.number) (temperature np (35000 * 0.3048) 0) 35000 0 := by
  obtain ⟨M, hM, h1, -⟩ := C81_deviation cfm56em 1 0 35000 0 (by norm_num)
  have : M = 0 := by rw [hM, zero_mul]; unfold tas2mach; simp
  rw [h1, this]
  norm_num

end Verif.Props
