import Verif.Model.Bada3
import Verif.Lemmas.Aero

/-!
# C77, C78: BADA3 drag, thrust and fuel flow
-/

namespace Verif.Props
open Verif Verif.Bada3 Verif.Aero

/-! ### C77: objects as constructed -/

theorem mkDrag_base {backend : Option (Backend ℝ)} {model : Option Record} {loaded : Except PyError Record}
    {o : Bada3.Drag} (h : mkDrag backend model loaded = .ok o) : o.base.getSci = .error .attributeError := by
  unfold mkDrag at h
  simp only [bind, Except.bind, pure, Except.pure] at h
  split at h
  · simp at h
  · rw [← Except.ok.inj h]; rfl

theorem mkThrust_base {backend : Option (Backend ℝ)} {model : Option Record} {loaded : Except PyError Record}
    {o : Bada3.Thrust} (h : mkThrust backend model loaded = .ok o) :
    o.base.getSci = .error .attributeError := by
  unfold mkThrust at h
  simp only [bind, Except.bind, pure, Except.pure] at h
  split at h
  · simp at h
  · split_ifs at h
    · simp [Bada3.base, Base.getSci] at h
    · rw [← Except.ok.inj h]; rfl

/-- **C77, drag.** Every drag object raises AttributeError for every input, except that an unknown phase
gives ValueError. -/
theorem C77_drag_raises (backend : Option (Backend ℝ)) (model : Option Record)
    (loaded : Except PyError Record) (o : Bada3.Drag) (h : mkDrag backend model loaded = .ok o)
    (mass tas alt : ℝ) (gear : Bool) (phase : Config) :
    o.clean mass tas alt = .error .attributeError ∧
    o.nonclean mass tas alt gear phase =
      .error (if phase = .ap ∨ phase = .ld then .attributeError else .valueError) := by
  have hb := mkDrag_base h
  constructor
  · simp [Bada3.Drag.clean, Bada3.Drag.cl, hb, bind, Except.bind]
  · cases phase <;>
      simp [Bada3.Drag.nonclean, Bada3.Drag.cl, hb, bind, Except.bind, throw, throwThe, MonadExceptOf.throw]

/-- **C77, thrust.** Every thrust object raises for every input: ValueError for an unknown engine type,
AttributeError otherwise. -/
theorem C77_thrust_raises (backend : Option (Backend ℝ)) (model : Option Record)
    (loaded : Except PyError Record) (o : Bada3.Thrust) (h : mkThrust backend model loaded = .ok o)
    (tas alt dT : ℝ) (config : Config) :
    let e : PyError := if o.engine = .other then .valueError else .attributeError
    o.climb tas alt dT = .error e ∧ o.cruise tas alt dT = .error e ∧ o.takeoff tas alt dT = .error e ∧
    o.idle tas alt dT config = .error e := by
  have hb := mkThrust_base h
  have hc : o.climb tas alt dT = .error (if o.engine = .other then .valueError else .attributeError) := by
    cases he : o.engine <;>
      simp [Bada3.Thrust.climb, he, hb, bind, Except.bind, throw, throwThe, MonadExceptOf.throw, pure,
        Except.pure]
  refine ⟨hc, ?_, hc, ?_⟩
  · rw [Bada3.Thrust.cruise, hc]; rfl
  · rw [Bada3.Thrust.idle, hc]; rfl

/-- **C77, constructors.** With a record given, the drag object can always be made; the thrust and fuel
flow objects exactly when some coefficient of the approach or landing configuration is not zero,
otherwise AttributeError. -/
theorem C77_constructors (backend : Option (Backend ℝ)) (m : Record) (loaded : Except PyError Record) :
    (∃ o, mkDrag backend (some m) loaded = .ok o) ∧
    ((m.cd0ap = 0 ∧ m.cd0ld = 0 ∧ m.lgear = 0 ∧ m.cd2ap = 0 ∧ m.cd2ld = 0) →
      mkThrust backend (some m) loaded = .error .attributeError ∧
      mkFuelFlow backend (some m) loaded = .error .attributeError) ∧
    (¬ (m.cd0ap = 0 ∧ m.cd0ld = 0 ∧ m.lgear = 0 ∧ m.cd2ap = 0 ∧ m.cd2ld = 0) →
      (∃ o, mkThrust backend (some m) loaded = .ok o) ∧ ∃ o, mkFuelFlow backend (some m) loaded = .ok o) := by
  refine ⟨⟨_, rfl⟩, ?_, ?_⟩
  · intro h
    have : ∀ b, mkThrust b (some m) loaded = .error .attributeError := by
      intro b
      unfold mkThrust
      simp only [bind, Except.bind, pure, Except.pure, resolve]
      rw [if_pos h]; rfl
    refine ⟨this _, ?_⟩
    unfold mkFuelFlow
    simp only [bind, Except.bind, resolve, this]
  · intro h
    have : ∀ b, ∃ o, mkThrust b (some m) loaded = .ok o := by
      intro b
      unfold mkThrust
      simp only [bind, Except.bind, pure, Except.pure, resolve]
      rw [if_neg h]
      exact ⟨_, rfl⟩
    refine ⟨this _, ?_⟩
    obtain ⟨o, ho⟩ := this none
    unfold mkFuelFlow
    simp only [bind, Except.bind, resolve, ho]
    exact ⟨_, rfl⟩

/-- **C77** Every number of an object comes from the entry of the record that is named like it; the
record is the argument `model` if given and the file otherwise, whose errors are passed on. -/
theorem C77_fields (backend : Option (Backend ℝ)) (model : Option Record)
    (loaded : Except PyError Record) :
    (∀ e, model = none → loaded = .error e → mkDrag backend model loaded = .error e ∧
      mkThrust backend model loaded = .error e ∧ mkFuelFlow backend model loaded = .error e) ∧
    (∀ m, model = some m ∨ (model = none ∧ loaded = .ok m) →
      (∀ o, mkDrag backend model loaded = .ok o → o.area = m.area ∧ o.cd0cr = m.cd0cr ∧
        o.cd2cr = m.cd2cr ∧ o.cd0ap = m.cd0ap ∧ o.cd2ap = m.cd2ap ∧ o.cd0ld = m.cd0ld ∧
        o.cd2ld = m.cd2ld ∧ o.lgear = m.lgear) ∧
      (∀ o, mkThrust backend model loaded = .ok o → o.engine = m.engine ∧ o.ct = m.ct ∧
        o.deshigh = m.deshigh ∧ o.deslow = m.deslow ∧ o.desapp = m.desapp ∧ o.desld = m.desld ∧
        o.hpdes = m.hpdes) ∧
      (∀ o, mkFuelFlow backend model loaded = .ok o → o.engine = m.engine ∧ o.cf1 = m.cf1 ∧
        o.cf2 = m.cf2 ∧ o.cf3 = m.cf3 ∧ o.cf4 = m.cf4 ∧ o.cfcr = m.cfcr ∧
        mkDrag none (some m) loaded = .ok o.drag ∧ mkThrust none (some m) loaded = .ok o.thrust)) := by
  have thrust : ∀ b (m : Record) o, mkThrust b (some m) loaded = .ok o → o.engine = m.engine ∧
      o.ct = m.ct ∧ o.deshigh = m.deshigh ∧ o.deslow = m.deslow ∧ o.desapp = m.desapp ∧
      o.desld = m.desld ∧ o.hpdes = m.hpdes := by
    intro b m o h
    simp only [mkThrust, resolve, bind, Except.bind, pure, Except.pure] at h
    split_ifs at h
    · simp [Base.getSci, Bada3.base] at h
    · simp only [Except.ok.injEq] at h
      subst h
      simp
  refine ⟨?_, ?_⟩
  · rintro e rfl rfl
    exact ⟨rfl, rfl, rfl⟩
  · intro m hm
    have e1 : mkDrag backend model loaded = mkDrag backend (some m) loaded := by
      rcases hm with rfl | ⟨rfl, rfl⟩ <;> rfl
    have e2 : mkThrust backend model loaded = mkThrust backend (some m) loaded := by
      rcases hm with rfl | ⟨rfl, rfl⟩ <;> rfl
    have e3 : mkFuelFlow backend model loaded = mkFuelFlow backend (some m) loaded := by
      rcases hm with rfl | ⟨rfl, rfl⟩ <;> rfl
    rw [e1, e2, e3]
    refine ⟨?_, thrust backend m, ?_⟩
    · intro o h
      simp only [mkDrag, resolve, bind, Except.bind, pure, Except.pure, Except.ok.injEq] at h
      subst h
      simp
    · intro o h
      simp only [mkFuelFlow, resolve, bind, Except.bind, pure, Except.pure] at h
      rcases e : mkThrust none (some m) loaded with x | t
      · rw [e] at h; simp at h
      · rw [e] at h
        rcases e' : mkDrag none (some m) loaded with x | d
        · rw [e'] at h; simp at h
        · rw [e'] at h
          simp only [Except.ok.injEq] at h
          subst h
          simp

/-- **C77, fuel flow.** Every fuel flow object raises for every input of `nominal`, `enroute` and
`approach`; `idle` alone works: the fuel flow coefficient per minute, for jets and turboprops falling
linearly to zero at the altitude `cf4`. -/
theorem C77_fuel_raises (backend : Option (Backend ℝ)) (model : Option Record)
    (loaded : Except PyError Record) (o : Bada3.FuelFlow) (h : mkFuelFlow backend model loaded = .ok o)
    (mass tas alt vs : ℝ) :
    o.nominal mass tas alt vs = .error .attributeError ∧
    o.enroute mass tas alt vs = .error .attributeError ∧
    o.approach mass tas alt vs =
      .error (if o.engine = .turbofan ∨ o.engine = .turboprop then .attributeError else .valueError) ∧
    o.idle alt = match o.engine with
      | .turbofan | .turboprop => .ok (o.cf3 / 60 * (1 - alt / o.cf4))
      | .piston | .electric => .ok (o.cf3 / 60)
      | .other => .error .valueError := by
  have hb : o.base.getSci = .error .attributeError := by
    unfold mkFuelFlow at h
    simp only [bind, Except.bind, pure, Except.pure] at h
    split at h
    · simp at h
    · split at h
      · simp at h
      · split at h
        · simp at h
        · rw [← Except.ok.inj h]; rfl
  have hn : o.nominal mass tas alt vs = .error .attributeError := by
    simp [Bada3.FuelFlow.nominal, hb, bind, Except.bind]
  refine ⟨hn, by rw [Bada3.FuelFlow.enroute, hn]; rfl, ?_, ?_⟩
  · cases he : o.engine <;>
      simp [Bada3.FuelFlow.approach, he, hn, bind, Except.bind, throw, throwThe, MonadExceptOf.throw]
  · cases he : o.engine <;>
      simp only [Bada3.FuelFlow.idle, he, bind, Except.bind, throw, throwThe, MonadExceptOf.throw, pure,
        Except.pure] <;> norm_num <;> ring

/-- A jet with landing gear drag; it can be constructed. -/
noncomputable def someJet : Record where
  area := 122
  cd0cr := 0.026
  cd2cr := 0.036
  cd0ap := 0.045
  cd2ap := 0.037
  cd0ld := 0.09
  cd2ld := 0.037
  lgear := 0.03
  engine := .turbofan
  ct := ![140000, 50000, 0, 10, 0.008]
  deshigh := 0.05
  deslow := 0.04
  desapp := 0.14
  desld := 0.3
  hpdes := 8000
  cf1 := 0.75
  cf2 := 1000
  cf3 := 9
  cf4 := 80000
  cfcr := 0.95

example : ∃ o, mkFuelFlow none (some someJet) (.error .ioError) = .ok o ∧
    o.nominal 60000 450 35000 0 = .error .attributeError := by
  obtain ⟨o, ho⟩ := ((C77_constructors none someJet (.error .ioError)).2.2 (by norm_num [someJet])).2
  exact ⟨o, ho, (C77_fuel_raises none (some someJet) _ o ho 60000 450 35000 0).1⟩

/-! ### C77: with `sci` supplied -/

/-- Dynamic pressure times wing area, from knots and feet. -/
noncomputable def dynArea (area tas alt : ℝ) : ℝ :=
  1 / 2 * density np (alt * 0.3048) 0 * (tas * 0.514444) ^ 2 * area

/-- Drag for given coefficients: parasitic part proportional to dynamic pressure, induced part
proportional to weight squared over dynamic pressure (floored at 0.001 N). -/
noncomputable def polarDrag (cd0 cd2 area mass tas alt : ℝ) : ℝ :=
  let q := dynArea area tas alt
  q * cd0 + cd2 * (mass * 9.80665) ^ 2 * q / max q 0.001 ^ 2

theorem cl_with_sci {o : Bada3.Drag} (hb : o.base = ⟨np, some np⟩) (mass tas alt : ℝ) :
    o.cl mass tas alt = .ok (mass * 9.80665 / max (dynArea o.area tas alt) 0.001,
      dynArea o.area tas alt) := by
  simp only [Bada3.Drag.cl, hb, Base.getSci, bind, Except.bind, pure, Except.pure, dynArea, g0, kts, ft]
  have : (0.5 : ℝ) = 1 / 2 := by norm_num
  have h3 : (1e-3 : ℝ) = 0.001 := by norm_num
  rw [this, h3]; rfl

theorem cd_polar (cd0 cd2 lg area mass tas alt : ℝ) :
    cd (mass * 9.80665 / max (dynArea area tas alt) 0.001) cd0 cd2 lg * dynArea area tas alt =
      polarDrag (cd0 + lg) cd2 area mass tas alt := by
  unfold cd polarDrag
  rw [div_pow]; ring

/-- **C77, drag with `sci` supplied.** The drag is the parabolic polar with the cruise coefficients in
clean configuration; in approach and landing with the coefficients of that configuration unless both
are zero; the landing gear counts only in landing configuration with own coefficients. -/
theorem C77_drag_values (o : Bada3.Drag) (hb : o.base = ⟨np, some np⟩) (mass tas alt : ℝ) (gear : Bool) :
    o.clean mass tas alt = .ok (polarDrag o.cd0cr o.cd2cr o.area mass tas alt) ∧
    ((o.cd0ap = 0 ∧ o.cd2ap = 0) → o.nonclean mass tas alt gear .ap = o.clean mass tas alt) ∧
    (¬ (o.cd0ap = 0 ∧ o.cd2ap = 0) →
      o.nonclean mass tas alt gear .ap = .ok (polarDrag o.cd0ap o.cd2ap o.area mass tas alt)) ∧
    ((o.cd0ld = 0 ∧ o.cd2ld = 0) → o.nonclean mass tas alt gear .ld = o.clean mass tas alt) ∧
    (¬ (o.cd0ld = 0 ∧ o.cd2ld = 0) →
      o.nonclean mass tas alt false .ld = .ok (polarDrag o.cd0ld o.cd2ld o.area mass tas alt) ∧
      o.nonclean mass tas alt true .ld =
        .ok (polarDrag o.cd0ld o.cd2ld o.area mass tas alt + o.lgear * dynArea o.area tas alt)) := by
  have hcl := cl_with_sci hb mass tas alt
  have h0 : (0.0 : ℝ) = 0 := by norm_num
  have hc : o.clean mass tas alt = .ok (polarDrag o.cd0cr o.cd2cr o.area mass tas alt) := by
    simp only [Bada3.Drag.clean, hcl, bind, Except.bind, pure, Except.pure, cd_polar, h0, add_zero]
  refine ⟨hc, ?_, ?_, ?_, ?_⟩
  · intro h
    rw [hc]
    simp [Bada3.Drag.nonclean, hcl, bind, Except.bind, pure, Except.pure, cd_polar, h, h0]
  · intro h
    simp [Bada3.Drag.nonclean, hcl, bind, Except.bind, pure, Except.pure, cd_polar, if_neg h, h0]
  · intro h
    rw [hc]
    simp [Bada3.Drag.nonclean, hcl, bind, Except.bind, pure, Except.pure, cd_polar, h, h0]
  · intro h
    constructor
    · simp [Bada3.Drag.nonclean, hcl, bind, Except.bind, pure, Except.pure, cd_polar, if_neg h, h0]
    · simp only [Bada3.Drag.nonclean, hcl, bind, Except.bind, pure, Except.pure, cd_polar, if_neg h, if_true,
        reduceCtorEq, ne_eq, not_true_eq_false, and_false, if_false]
      unfold polarDrag
      simp only [Except.ok.injEq]
      ring

/-- **C77, drag is positive in flight and zero at rest.** -/
theorem C77_drag_sign (cd0 cd2 area mass tas alt : ℝ) (h0 : 0 < cd0) (h2 : 0 ≤ cd2) (ha : 0 < area) :
    (tas ≠ 0 → 0 < polarDrag cd0 cd2 area mass tas alt) ∧ polarDrag cd0 cd2 area mass 0 alt = 0 ∧
    (0.001 ≤ dynArea area tas alt → 0 ≤ mass →
      2 * (mass * 9.80665) * Real.sqrt (cd0 * cd2) ≤ polarDrag cd0 cd2 area mass tas alt) := by
  have hq : tas ≠ 0 → 0 < dynArea area tas alt := by
    intro ht
    unfold dynArea
    have := density_pos (alt * 0.3048) 0
    positivity
  refine ⟨?_, by simp [polarDrag, dynArea], ?_⟩
  · intro ht
    have := hq ht
    have hm : 0 < max (dynArea area tas alt) 0.001 := lt_max_of_lt_left this
    unfold polarDrag
    simp only
    have : 0 < dynArea area tas alt * cd0 := by positivity
    have : 0 ≤ cd2 * (mass * 9.80665) ^ 2 * dynArea area tas alt / max (dynArea area tas alt) 0.001 ^ 2 := by
      positivity
    linarith
  · intro hge hm
    unfold polarDrag
    simp only
    rw [max_eq_left hge]
    have hpos : 0 < dynArea area tas alt := by linarith
    set q := dynArea area tas alt
    set W := mass * 9.80665 with hW
    have hW0 : 0 ≤ W := by positivity
    have e : cd2 * W ^ 2 * q / q ^ 2 = cd2 * W ^ 2 / q := by field_simp
    rw [e, Real.sqrt_mul h0.le]
    have s1 := Real.sq_sqrt h0.le
    have s2 := Real.sq_sqrt h2
    set a := Real.sqrt cd0
    set c := Real.sqrt cd2
    rw [← s1, ← s2]
    have : q * a ^ 2 + c ^ 2 * W ^ 2 / q - 2 * W * (a * c) = (q * a - c * W) ^ 2 / q := by
      field_simp; ring
    have h := div_nonneg (sq_nonneg (q * a - c * W)) hpos.le
    linarith

/-- Climb thrust in the standard atmosphere, BADA3 equations 3.7-1 to 3.7-3. -/
noncomputable def isaThrust (e : Engine) (ct : Fin 5 → ℝ) (tas alt : ℝ) : ℝ :=
  match e with
  | .turbofan => ct 0 * (1 - alt / ct 1 + ct 2 * alt ^ 2)
  | .turboprop => ct 0 / tas * (1 - alt / ct 1) + ct 2
  | _ => ct 0 * (1 - alt / ct 1) + ct 2 / tas

/-- **C77, thrust with `sci` supplied.** Climb thrust is the standard thrust times a factor that depends
on the temperature deviation only, lies in [0.6, 1], is 1 up to the threshold (or everywhere if the
slope is not positive) and does not increase with temperature. Take-off thrust is the climb thrust,
cruise thrust 0.95 of it, and idle thrust without a configuration always raises ValueError. -/
theorem C77_thrust_values (o : Bada3.Thrust) (b : Backend ℝ) (hb : o.base = ⟨b, some np⟩)
    (he : o.engine ≠ .other) :
    ∃ factor : ℝ → ℝ, (∀ dT, 0.6 ≤ factor dT ∧ factor dT ≤ 1) ∧ Antitone factor ∧
      (∀ dT, (dT ≤ o.ct 3 ∨ o.ct 4 ≤ 0) → factor dT = 1) ∧
      (∀ dT, 0 < o.ct 4 → o.ct 3 ≤ dT → factor dT = max (1 - o.ct 4 * (dT - o.ct 3)) 0.6) ∧
      ∀ tas alt dT,
        o.climb tas alt dT = .ok (isaThrust o.engine o.ct tas alt * factor dT) ∧
        o.takeoff tas alt dT = .ok (isaThrust o.engine o.ct tas alt * factor dT) ∧
        o.cruise tas alt dT = .ok (95 / 100 * (isaThrust o.engine o.ct tas alt * factor dT)) ∧
        o.idle tas alt dT .other = .error .valueError ∧
        (o.hpdes < alt → ∀ c, c ≠ .other →
          o.idle tas alt dT c = .ok (o.deshigh * (isaThrust o.engine o.ct tas alt * factor dT))) ∧
        (alt ≤ o.hpdes →
          o.idle tas alt dT .cr = .ok (o.deslow * (isaThrust o.engine o.ct tas alt * factor dT)) ∧
          o.idle tas alt dT .ap = .ok (o.desapp * (isaThrust o.engine o.ct tas alt * factor dT)) ∧
          o.idle tas alt dT .ld = .ok (o.desld * (isaThrust o.engine o.ct tas alt * factor dT))) := by
  have h0 : (0.0 : ℝ) = 0 := by norm_num
  have hcl : ∀ tas alt dT, o.climb tas alt dT = .ok (isaThrust o.engine o.ct tas alt *
      (1 - max 0 (min (max (o.ct 4) 0 * (dT - o.ct 3)) 0.4))) := by
    intro tas alt dT
    cases hen : o.engine <;>
      simp only [Bada3.Thrust.climb, hen, hb, Base.getSci, bind, Except.bind, pure, Except.pure, isaThrust,
        h0] <;> first | rfl | exact absurd hen he
  refine ⟨fun dT => 1 - max 0 (min (max (o.ct 4) 0 * (dT - o.ct 3)) 0.4), ?_, ?_, ?_, ?_, ?_⟩
  · intro dT
    have h1 := le_max_left 0 (min (max (o.ct 4) 0 * (dT - o.ct 3)) 0.4)
    have h2 : max 0 (min (max (o.ct 4) 0 * (dT - o.ct 3)) 0.4) ≤ 0.4 :=
      max_le (by norm_num) (min_le_right _ _)
    have h3 : (0.6 : ℝ) = 1 - 0.4 := by norm_num
    simp only
    rw [h3]
    exact ⟨by linarith, by linarith⟩
  · intro x y hxy
    have hc : 0 ≤ max (o.ct 4) 0 := le_max_right _ _
    have : max (o.ct 4) 0 * (x - o.ct 3) ≤ max (o.ct 4) 0 * (y - o.ct 3) :=
      mul_le_mul_of_nonneg_left (by linarith) hc
    have := max_le_max (le_refl (0:ℝ)) (min_le_min this (le_refl (0.4:ℝ)))
    simp only; linarith
  · rintro dT (h | h)
    · have hc : 0 ≤ max (o.ct 4) 0 := le_max_right _ _
      have : max (o.ct 4) 0 * (dT - o.ct 3) ≤ 0 := mul_nonpos_of_nonneg_of_nonpos hc (by linarith)
      simp only
      rw [max_eq_left ((min_le_left _ _).trans this), sub_zero]
    · simp only
      rw [max_eq_right h, zero_mul, min_eq_left (by norm_num), max_self, sub_zero]
  · intro dT h1 h2
    simp only
    rw [max_eq_left h1.le]
    have : 0 ≤ o.ct 4 * (dT - o.ct 3) := mul_nonneg h1.le (by linarith)
    rw [max_eq_right (le_min this (by norm_num))]
    rcases le_total (o.ct 4 * (dT - o.ct 3)) 0.4 with h | h
    · rw [min_eq_left h, max_eq_left (by norm_num at h ⊢; linarith)]
    · rw [min_eq_right h, max_eq_right (by norm_num at h ⊢; linarith)]; norm_num
  · intro tas alt dT
    have hc := hcl tas alt dT
    refine ⟨hc, hc, ?_, ?_, ?_, ?_⟩
    · rw [Bada3.Thrust.cruise, hc]
      have : (0.95 : ℝ) = 95 / 100 := by norm_num
      simp only [bind, Except.bind, pure, Except.pure, this]
    · rw [Bada3.Thrust.idle, hc]; rfl
    · intro h c hcne
      rw [Bada3.Thrust.idle, hc]
      simp [bind, Except.bind, pure, Except.pure, hcne, h]
    · intro h
      refine ⟨?_, ?_, ?_⟩ <;> rw [Bada3.Thrust.idle, hc] <;>
        simp [bind, Except.bind, pure, Except.pure, not_lt.2 h]

/-- `numpy` assigned to the attribute of a thrust object of the jet above. -/
example : ∃ o : Bada3.Thrust, o.base = ⟨np, some np⟩ ∧ o.engine ≠ .other ∧ o.ct = someJet.ct :=
  ⟨⟨⟨np, some np⟩, .turbofan, someJet.ct, 0, 0, 0, 0, 0⟩, rfl, by simp, rfl⟩

/-! ### C78: nominal and idle fuel flow -/

/-- Fuel burnt in kg per minute for a given thrust, BADA3 equations 3.9-1 to 3.9-3. -/
noncomputable def burnPerMinute (o : Bada3.FuelFlow) (tas thrust : ℝ) : ℝ :=
  match o.engine with
  | .turbofan => o.cf1 * (1 + tas / o.cf2) / 1000 * thrust
  | .turboprop => o.cf1 * (1 - tas / o.cf2) * (tas / 1000) / 1000 * thrust
  | _ => o.cf1

theorem nominal_with_sci {o : Bada3.FuelFlow} {b : Backend ℝ} (hb : o.base = ⟨b, some np⟩)
    (he : o.engine ≠ .other) {mass tas alt vs D C i : ℝ} (hD : o.drag.clean mass tas alt = .ok D)
    (hC : o.thrust.climb tas alt 0 = .ok C) (hi : o.idle alt = .ok i) :
    o.nominal mass tas alt vs = .ok (max (burnPerMinute o tas
      (min (D + mass * 9.80665 * Real.sin (atan2R (vs * 0.00508) (tas * 0.514444))) C)) i / 60) := by
  have h60 : (60.0 : ℝ) = 60 := by norm_num
  have h1 : (1e-3 : ℝ) = 1 / 1000 := by norm_num
  have h2 : (1e3 : ℝ) = 1000 := by norm_num
  cases hen : o.engine <;>
    simp only [Bada3.FuelFlow.nominal, hen, hb, Base.getSci, hD, hC, hi, bind, Except.bind, pure, Except.pure,
      burnPerMinute, g0, kts, fpm, h60, h1, h2, mul_one_div] <;> first | rfl | exact absurd hen he

/-- **C78.** With `sci` supplied, `nominal` compares kilograms per minute with kilograms per second: it is
the larger of the fuel burnt per minute and the idle flow per second, divided by 60. It is therefore at
least the idle flow only when the burn alone is, or the idle flow is not positive; whenever no thrust is
needed it is a sixtieth of the idle flow. `approach` repairs this: it is the larger of the two flows.
`enroute` is the nominal flow times the cruise factor. -/
theorem C78_nominal_and_idle (o : Bada3.FuelFlow) (b : Backend ℝ) (hb : o.base = ⟨b, some np⟩)
    (he : o.engine ≠ .other) (mass tas alt vs D C i : ℝ) (hD : o.drag.clean mass tas alt = .ok D)
    (hC : o.thrust.climb tas alt 0 = .ok C) (hi : o.idle alt = .ok i) :
    ∃ burn f, burn = burnPerMinute o tas
        (min (D + mass * 9.80665 * Real.sin (atan2R (vs * 0.00508) (tas * 0.514444))) C) ∧
      o.nominal mass tas alt vs = .ok f ∧ f = max burn i / 60 ∧ (i ≤ f ↔ i ≤ burn / 60 ∨ i ≤ 0) ∧
      (burn ≤ 0 → 0 < i → f = i / 60 ∧ f < i) ∧ o.enroute mass tas alt vs = .ok (o.cfcr * f) ∧
      ((o.engine = .turbofan ∨ o.engine = .turboprop) →
        o.approach mass tas alt vs = .ok (max f i) ∧ (0 ≤ i → max f i = max (burn / 60) i)) := by
  have hn := nominal_with_sci (vs := vs) hb he hD hC hi
  refine ⟨_, _, rfl, hn, rfl, ?_, ?_, ?_, ?_⟩
  · rw [le_div_iff₀ (by norm_num), le_max_iff, le_div_iff₀ (by norm_num)]
    constructor
    · rintro (h | h)
      · exact Or.inl h
      · exact Or.inr (by linarith)
    · rintro (h | h)
      · exact Or.inl h
      · exact Or.inr (by linarith)
  · intro h1 h2
    rw [max_eq_right (by linarith)]
    exact ⟨rfl, by linarith⟩
  · rw [Bada3.FuelFlow.enroute, hn]; rfl
  · intro hen
    constructor
    · have : ¬ (o.engine ≠ .turbofan ∧ o.engine ≠ .turboprop) := by tauto
      simp only [Bada3.FuelFlow.approach, if_neg this, hn, hi, hb, Base.getSci, bind, Except.bind, pure,
        Except.pure]
      rfl
    · intro h0
      rw [← max_div_div_right (by norm_num : (0:ℝ) ≤ 60), max_assoc, max_eq_right (show i / 60 ≤ i by linarith)]

/-- The jet above descending at 3000 ft/min and 200 kt near the ground at 60 t: less fuel than idle. -/
example : ∃ (o : Bada3.FuelFlow) (f i : ℝ), o.nominal 60000 200 0 (-3000) = .ok f ∧ o.idle 0 = .ok i ∧
    f < i := by
  let m := someJet
  let o : Bada3.FuelFlow := ⟨⟨np, some np⟩,
    ⟨⟨np, some np⟩, m.engine, m.ct, m.deshigh, m.deslow, m.desapp, m.desld, m.hpdes⟩,
    ⟨⟨np, some np⟩, m.area, 0, 0, 0, 0, 0, 0, 0⟩, m.engine, m.cf1, m.cf2, m.cf3, m.cf4, m.cfcr⟩
  obtain ⟨factor, -, -, -, -, hv⟩ := C77_thrust_values o.thrust np rfl (by simp [o, m, someJet])
  have hC := (hv 200 0 0).1
  have hD := (C77_drag_values o.drag rfl 60000 200 0 false).1
  have hi : o.idle 0 = .ok (9 / 60) := by
    simp only [Bada3.FuelFlow.idle, o, m, someJet, bind, Except.bind, pure, Except.pure]
    norm_num
  obtain ⟨burn, f, h1, h2, h3, -, h5, -⟩ := C78_nominal_and_idle o np rfl (by simp [o, m, someJet])
    60000 200 0 (-3000) _ _ _ hD hC hi
  refine ⟨o, f, 9 / 60, h2, hi, (h5 ?_ (by norm_num)).2⟩
  rw [h1]
  have hz : polarDrag o.drag.cd0cr o.drag.cd2cr o.drag.area 60000 200 0 = 0 := by simp [polarDrag, o]
  rw [hz, zero_add]
  have hs : Real.sin (atan2R ((-3000) * 0.00508) (200 * 0.514444)) ≤ 0 := by
    apply Real.sin_nonpos_of_nonpos_of_neg_pi_le
    · unfold atan2R
      exact (Complex.arg_neg_iff.2 (show (-3000 : ℝ) * 0.00508 < 0 by norm_num)).le
    · unfold atan2R; exact (Complex.neg_pi_lt_arg _).le
  have hmin : min (60000 * 9.80665 * Real.sin (atan2R ((-3000) * 0.00508) (200 * 0.514444)))
      (isaThrust o.thrust.engine o.thrust.ct 200 0 * factor 0) ≤ 0 :=
    (min_le_left _ _).trans (mul_nonpos_of_nonneg_of_nonpos (by norm_num) hs)
  have hc : (0:ℝ) ≤ o.cf1 * (1 + 200 / o.cf2) / 1000 := by norm_num [o, m, someJet]
  exact mul_nonpos_of_nonneg_of_nonpos hc hmin

end Verif.Props
