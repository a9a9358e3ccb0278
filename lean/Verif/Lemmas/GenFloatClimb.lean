import Verif.Lemmas.GenFloat

/-!
# The climb loop in double precision
-/

namespace Verif.GenLoop
open Verif Verif.Gen Verif.Aero

section
variable (M : Machine .binary64)

/-- A number far above all speeds and far below the largest one. -/
noncomputable def huge : ℝ := 2 ^ (110 : ℤ)

theorem huge_ge : (10 : ℝ) ^ 9 ≤ huge := by unfold huge; norm_num

theorem huge_repr : Format.binary64.Repr huge :=
  Format.repr_pow (by decide) (by decide) (by decide)

theorem big_of_huge {x : ℝ} (h : |x| ≤ 2 * huge) : |x| ≤ Format.binary64.max := by
  refine big64 (h.trans ?_)
  unfold huge
  rw [show (2 : ℝ) * 2 ^ (110 : ℤ) = 2 ^ (111 : ℤ) by norm_num]
  exact zpow_le_zpow_right₀ (by norm_num) (by norm_num)

theorem stall_huge {x : ℝ} (h0 : -huge ≤ x) (h : x ≤ huge + 1000) : M.rnd x ≤ huge := by
  have hh := huge_ge
  refine M.rnd_stall (k := 110) (big_of_huge (abs_le.2 ⟨by linarith, by linarith⟩)) huge_repr ?_
  have : (1000 : ℝ) < 2 ^ ((110 : ℤ) - (Format.binary64.prec : ℤ)) := by
    show (1000 : ℝ) < 2 ^ ((110 : ℤ) - 53)
    norm_num
  unfold huge at h
  linarith

theorem stall_huge_neg {x : ℝ} (h0 : x ≤ huge) (h : -(huge + 1000) ≤ x) : -huge ≤ M.rnd x := by
  have hh := huge_ge
  refine M.rnd_stall_neg (k := 110) (big_of_huge (abs_le.2 ⟨by linarith, by linarith⟩)) huge_repr ?_
  have : (1000 : ℝ) < 2 ^ ((110 : ℤ) - (Format.binary64.prec : ℤ)) := by
    show (1000 : ℝ) < 2 ^ ((110 : ℤ) - 53)
    norm_num
  unfold huge at h
  linarith

/-! ### Distance -/

/-- Distances stay below this. -/
noncomputable def far : ℝ := 2 ^ (180 : ℤ)

theorem far_repr : Format.binary64.Repr far :=
  Format.repr_pow (by decide) (by decide) (by decide)

/-- Adding up the distance with speeds that are not negative. -/
theorem dist_step {s v dt : ℝ} (hs : Format.binary64.Repr s) (s0 : 0 ≤ s) (s1 : s ≤ far)
    (v0 : 0 ≤ v) (v1 : v ≤ huge) (d0 : 0 ≤ dt) (d1 : dt ≤ 60) :
    s ≤ M.rnd (s + M.rnd (v * dt)) ∧ M.rnd (s + M.rnd (v * dt)) ≤ far ∧
      Format.binary64.Repr (M.rnd (s + M.rnd (v * dt))) := by
  have hp : v * dt ≤ 2 ^ (116 : ℤ) := by
    calc v * dt ≤ huge * 64 := mul_le_mul v1 (by linarith) d0 (v0.trans v1)
      _ = _ := by unfold huge; norm_num
  have hp0 : 0 ≤ v * dt := by positivity
  have m1 : (2 : ℝ) ^ (116 : ℤ) ≤ 2 ^ (500 : ℤ) := zpow_le_zpow_right₀ (by norm_num) (by norm_num)
  have hb := big64 (x := v * dt) (by rw [abs_of_nonneg hp0]; exact hp.trans m1)
  have w1 := M.rnd_le hb (Format.repr_pow (k := 116) (by decide) (by decide) (by decide)) hp
  have w0 := M.rnd_ge hb (Format.repr_zero _ (by decide)) hp0
  have m2 : far + 2 ^ (116 : ℤ) ≤ 2 ^ (181 : ℤ) := by unfold far; norm_num
  have m3 : (2 : ℝ) ^ (181 : ℤ) ≤ 2 ^ (500 : ℤ) := zpow_le_zpow_right₀ (by norm_num) (by norm_num)
  have hb2 := big64 (x := s + M.rnd (v * dt)) (by
    rw [abs_of_nonneg (by linarith)]; exact (add_le_add s1 w1).trans (m2.trans m3))
  refine ⟨M.rnd_ge hb2 hs (by linarith), ?_, M.rnd_repr _ hb2⟩
  refine M.rnd_stall (k := 180) hb2 far_repr ?_
  have : (2 : ℝ) ^ (116 : ℤ) < 2 ^ ((180 : ℤ) - (Format.binary64.prec : ℤ)) := by
    show (2 : ℝ) ^ (116 : ℤ) < 2 ^ ((180 : ℤ) - 53)
    exact zpow_lt_zpow_right₀ (by norm_num) (by norm_num)
  unfold far at s1
  linarith

/-! ### One pass of `climb` -/

variable {P : Climb ℝ}

/-- `1500 * aero.ft` as computed. -/
noncomputable def low : ℝ := M.rnd (M.rnd 1500.0 * M.rnd 0.3048)

theorem low_bounds : 457.199 ≤ low M ∧ low M ≤ 457.201 := by
  have e1 : M.rnd 1500.0 = 1500 := by
    have := M.rnd_nat Format.binary64_wide 1500 (by norm_num)
    norm_num at this ⊢; exact this
  have e2 := abs_rnd64 M (x := 0.3048) (by rw [abs_of_pos (by norm_num)]; norm_num)
  rw [abs_of_pos (show (0:ℝ) < 0.3048 by norm_num)] at e2
  obtain ⟨l, r⟩ := abs_le.1 e2
  unfold low
  rw [e1]
  have e3 := abs_rnd64 M (x := 1500 * M.rnd 0.3048) (by
    rw [abs_of_pos (by linarith)]; linarith)
  rw [abs_of_pos (show (0:ℝ) < 1500 * M.rnd 0.3048 by linarith)] at e3
  obtain ⟨l', r'⟩ := abs_le.1 e3
  constructor <;> linarith

/-- Altitude at which the loop levels off. -/
noncomputable def level (P : Climb ℝ) : ℝ := max (max P.hCr P.hMach) (max P.hCas (low M))

theorem le_level {h : ℝ} : level M P ≤ h ↔ P.hCr ≤ h ∧ P.hMach ≤ h ∧ P.hCas ≤ h ∧ low M ≤ h := by
  unfold level
  simp only [max_le_iff]
  tauto

/-- Largest climb rate. -/
noncomputable def top (P : Climb ℝ) : ℝ := max (max P.vsIc P.vsPre) (max P.vsCas P.vsMach)

/-- The pass on the machine. -/
noncomputable abbrev pass (P : Climb ℝ) (x : State (Fl M)) : State (Fl M) × Bool :=
  climbPass (flt M) flLt (P.on M) x

theorem pass_t (x : State (Fl M)) : (pass M P x).1.t.val = M.rnd (x.t.val + P.dt) := by
  unfold pass climbPass; dsimp only; split_ifs <;> rfl

theorem pass_s (x : State (Fl M)) :
    (pass M P x).1.s.val = M.rnd (x.s.val + M.rnd (x.v.val * P.dt)) := by
  unfold pass climbPass; dsimp only; split_ifs <;> rfl

theorem pass_h (x : State (Fl M)) :
    (pass M P x).1.h.val = M.rnd (x.h.val + M.rnd (x.vs.val * P.dt)) := by
  unfold pass climbPass; dsimp only; split_ifs <;> rfl

theorem half_dt (hP : P.Ordinary) : 0 ≤ M.rnd (M.rnd 0.5 * P.dt) ∧ M.rnd (M.rnd 0.5 * P.dt) ≤ 100 := by
  obtain ⟨d0, d1⟩ := hP.dt
  have e2 := abs_rnd64 M (x := 0.5) (by rw [abs_of_pos (by norm_num)]; norm_num)
  rw [abs_of_pos (show (0:ℝ) < 0.5 by norm_num)] at e2
  obtain ⟨l, r⟩ := abs_le.1 e2
  have p0 : 0 ≤ M.rnd 0.5 * P.dt := mul_nonneg (by linarith) (by linarith)
  have p1 : M.rnd 0.5 * P.dt ≤ 1 * 60 := mul_le_mul (by linarith) d1 (by linarith) (by norm_num)
  have e3 := abs_rnd64 M (x := M.rnd 0.5 * P.dt) (by rw [abs_of_nonneg p0]; linarith)
  rw [abs_of_nonneg p0] at e3
  obtain ⟨l', r'⟩ := abs_le.1 e3
  refine ⟨?_, by linarith⟩
  exact M.rnd_ge (big_of_huge (by rw [abs_of_nonneg p0]; linarith [huge_ge]))
    (Format.repr_zero _ (by decide)) p0

theorem fast (hP : P.Ordinary) {v : ℝ} (v0 : P.vTof ≤ v) (v1 : v ≤ huge) :
    P.vTof ≤ M.rnd (v + M.rnd (M.rnd 0.5 * P.dt)) ∧ M.rnd (v + M.rnd (M.rnd 0.5 * P.dt)) ≤ huge := by
  obtain ⟨w0, w1⟩ := half_dt M hP
  have hh := huge_ge
  have ht := hP.vTof
  refine ⟨M.rnd_ge (big_of_huge (abs_le.2 ⟨by linarith, by linarith⟩)) hP.memory (by linarith),
    stall_huge M (by linarith) (by linarith)⟩

theorem cas_fast (hP : P.Ordinary) {h : ℝ} (h0 : 0 ≤ h) (h1 : h ≤ 15000) :
    P.vTof ≤ (cas2tas (flt M) ⟨P.vcas⟩ ⟨h⟩ 0.0).val ∧ (cas2tas (flt M) ⟨P.vcas⟩ ⟨h⟩ 0.0).val ≤ huge := by
  obtain ⟨c1, c2, c3⟩ := hP.vcas
  obtain ⟨l, r⟩ := cas2tas64 M c1 c2 h0 h1
  have hh := huge_ge
  have ht := hP.vTof
  constructor <;> linarith

theorem mach_fast (hP : P.Ordinary) {h : ℝ} (h0 : 0 ≤ h) (h1 : h ≤ 50000) :
    P.vTof ≤ (mach2tas (flt M) ⟨P.mach⟩ ⟨h⟩ 0.0).val ∧
      (mach2tas (flt M) ⟨P.mach⟩ ⟨h⟩ 0.0).val ≤ huge := by
  obtain ⟨c1, c2, c3⟩ := hP.mach
  obtain ⟨l, r⟩ := mach2tas64 M c1 c2 (h := h) (by rw [abs_of_nonneg h0]; exact h1)
  have hh := huge_ge
  have ht := hP.vTof
  constructor <;> linarith

/-- What one pass does. -/
theorem pass_cases (hP : P.Ordinary) (x : State (Fl M)) (v1 : x.v.val ≤ huge)
    (h0 : 0 ≤ (pass M P x).1.h.val) (h1 : (pass M P x).1.h.val ≤ 50000) :
    (x.v.val < P.vTof ∧ (pass M P x).1.v.val = M.rnd (x.v.val + M.rnd (P.aTof * P.dt)) ∧
      (pass M P x).1.vs.val = 0 ∧ (pass M P x).1.tcr = x.tcr ∧ (pass M P x).2 = false) ∨
    (P.vTof ≤ x.v.val ∧ (pass M P x).1.h.val < level M P ∧ P.vTof ≤ (pass M P x).1.v.val ∧
      (pass M P x).1.v.val ≤ huge ∧ 1 / 10 ≤ (pass M P x).1.vs.val ∧
      (pass M P x).1.vs.val ≤ top P ∧ (pass M P x).1.tcr = x.tcr ∧ (pass M P x).2 = false) ∨
    (P.vTof ≤ x.v.val ∧ level M P ≤ (pass M P x).1.h.val ∧ P.vTof ≤ (pass M P x).1.v.val ∧
      (pass M P x).1.v.val ≤ huge ∧ (pass M P x).1.vs.val = 0 ∧
      (pass M P x).1.tcr.val = (if x.tcr.val = 0 then M.rnd (x.t.val + P.dt) else x.tcr.val) ∧
      (pass M P x).2 = decide (60 < M.rnd (M.rnd (x.t.val + P.dt) - (pass M P x).1.tcr.val))) := by
  have z := zero64 M
  have hr := hP.rates
  simp only [List.mem_cons, List.not_mem_nil, or_false, forall_eq_or_imp, forall_eq] at hr
  obtain ⟨r1, r2, r3, r4⟩ := hr
  have hhs := hP.heights
  simp only [List.mem_cons, List.not_mem_nil, or_false, forall_eq_or_imp, forall_eq] at hhs
  obtain ⟨k1, k2, k3⟩ := hhs
  have hlow := (low_bounds M).2
  have e60 : M.rnd 60.0 = 60 := by
    have := M.rnd_nat Format.binary64_wide 60 (by norm_num)
    norm_num at this ⊢; exact this
  rw [pass_h] at h0 h1 ⊢
  rw [le_level, ← not_le (a := level M P), le_level]
  set h := M.rnd (x.h.val + M.rnd (x.vs.val * P.dt)) with hh
  have eh : x.h + x.vs * (P.on M).dt = (⟨h⟩ : Fl M) := rfl
  have ev : (x.v + 0.5 * (P.on M).dt : Fl M) = ⟨M.rnd (x.v.val + M.rnd (M.rnd 0.5 * P.dt))⟩ := rfl
  have elow : (1500.0 * ft : Fl M) = ⟨low M⟩ := rfl
  unfold pass climbPass
  simp only [eh, ev, elow]
  have top1 : P.vsIc ≤ top P := by unfold top; simp
  have top2 : P.vsPre ≤ top P := by unfold top; simp
  have top3 : P.vsCas ≤ top P := by unfold top; simp
  have top4 : P.vsMach ≤ top P := by unfold top; simp
  by_cases c1 : x.v.val < P.vTof
  · rw [if_pos (show flLt x.v (P.on M).vTof from c1)]
    exact .inl ⟨c1, rfl, z, rfl, rfl⟩
  rw [if_neg (show ¬ flLt x.v (P.on M).vTof from c1)]
  have c1 := not_lt.1 c1
  have hf := fast M hP c1 v1
  by_cases c2 : h < low M
  · rw [if_pos (show flLt (⟨h⟩ : Fl M) ⟨low M⟩ from c2)]
    refine .inr (.inl ⟨c1, fun k => by linarith [k.2.2.2], ?_⟩)
    have hc := cas_fast M hP h0 (by linarith)
    split_ifs
    · exact ⟨hf.1, hf.2, r1.1, top1, rfl, rfl⟩
    · exact ⟨hc.1, hc.2, r1.1, top1, rfl, rfl⟩
  rw [if_neg (show ¬ flLt (⟨h⟩ : Fl M) ⟨low M⟩ from c2)]
  by_cases c3 : h < P.hCas
  · rw [if_pos (show flLt (⟨h⟩ : Fl M) (P.on M).hCas from c3)]
    refine .inr (.inl ⟨c1, fun k => by linarith [k.2.2.1], ?_⟩)
    have hc := cas_fast M hP h0 (by linarith)
    split_ifs
    · exact ⟨hf.1, hf.2, r2.1, top2, rfl, rfl⟩
    · exact ⟨hc.1, hc.2, r2.1, top2, rfl, rfl⟩
  rw [if_neg (show ¬ flLt (⟨h⟩ : Fl M) (P.on M).hCas from c3)]
  by_cases c4 : h < P.hMach
  · rw [if_pos (show flLt (⟨h⟩ : Fl M) (P.on M).hMach from c4)]
    have hc := cas_fast M hP h0 (by linarith)
    exact .inr (.inl ⟨c1, fun k => by linarith [k.2.1], hc.1, hc.2, r3.1, top3, rfl, rfl⟩)
  rw [if_neg (show ¬ flLt (⟨h⟩ : Fl M) (P.on M).hMach from c4)]
  have hm := mach_fast M hP h0 h1
  by_cases c5 : h < P.hCr
  · rw [if_pos (show flLt (⟨h⟩ : Fl M) (P.on M).hCr from c5)]
    exact .inr (.inl ⟨c1, fun k => by linarith [k.1], hm.1, hm.2, r4.1, top4, rfl, rfl⟩)
  rw [if_neg (show ¬ flLt (⟨h⟩ : Fl M) (P.on M).hCr from c5)]
  have et : (if flLt x.tcr 0.0 ∨ flLt 0.0 x.tcr then x.tcr
      else x.t + (P.on M).dt) =
      (⟨if x.tcr.val = 0 then M.rnd (x.t.val + P.dt) else x.tcr.val⟩ : Fl M) := by
    have z' : (0.0 : Fl M).val = 0 := z
    have e1 : flLt x.tcr (0.0 : Fl M) ↔ x.tcr.val < 0 := by unfold flLt; rw [z']
    have e2 : flLt (0.0 : Fl M) x.tcr ↔ 0 < x.tcr.val := by unfold flLt; rw [z']
    by_cases hz : x.tcr.val = 0
    · rw [if_neg (by rw [e1, e2, hz]; simp), if_pos hz]; rfl
    · rw [if_pos (by rw [e1, e2]; exact lt_or_gt_of_ne hz), if_neg hz]
  refine .inr (.inr ⟨c1, ⟨not_lt.1 c5, not_lt.1 c4, not_lt.1 c3, not_lt.1 c2⟩, hm.1, hm.2, z, ?_, ?_⟩)
  · show (if flLt x.tcr 0.0 ∨ flLt 0.0 x.tcr then x.tcr
      else x.t + (P.on M).dt).val = _
    rw [et]
  · show decide (M.rnd 60.0 < M.rnd (M.rnd (x.t.val + P.dt) - (if flLt x.tcr 0.0 ∨
      flLt 0.0 x.tcr then x.tcr else x.t + (P.on M).dt).val)) = _
    rw [e60]

/-! ### The whole climb -/

/-- On the runway. -/
def Rolling (_P : Climb ℝ) (x : State (Fl M)) : Prop :=
  x.vs.val = 0 ∧ x.h.val = 0 ∧ x.tcr.val = 0 ∧ x.v.val ≤ 900 ∧ x.t.val ≤ 12 * x.v.val

/-- Climbing. -/
def Climbing (P : Climb ℝ) (x : State (Fl M)) : Prop :=
  P.vTof ≤ x.v.val ∧ 1 / 10 ≤ x.vs.val ∧ x.vs.val ≤ top P ∧ 0 ≤ x.h.val ∧ x.h.val < level M P ∧
    x.tcr.val = 0 ∧ x.t.val ≤ 11000 + 12 * x.h.val

/-- Level at the end. -/
def Levelled (P : Climb ℝ) (x : State (Fl M)) : Prop :=
  P.vTof ≤ x.v.val ∧ x.vs.val = 0 ∧ level M P ≤ x.h.val ∧
    x.h.val < level M P + 1.01 * (top P * P.dt) ∧ Format.binary64.Repr x.h.val ∧ 0 < x.tcr.val ∧
    x.tcr.val ≤ 200000 ∧ x.t.val ≤ x.tcr.val + 61

structure Inv (P : Climb ℝ) (x : State (Fl M)) : Prop where
  memory : Format.binary64.Repr x.s.val
  s0 : 0 ≤ x.s.val
  s1 : x.s.val ≤ far
  v0 : 0 ≤ x.v.val
  v1 : x.v.val ≤ huge
  t0 : 0 ≤ x.t.val
  phase : Rolling M P x ∨ Climbing M P x ∨ Levelled M P x

open Classical in
/-- Decreases along the climb. -/
noncomputable def left (P : Climb ℝ) (x : State (Fl M)) : ℕ × ℕ :=
  if x.tcr.val ≠ 0 then (0, ⌈(62 + x.tcr.val - x.t.val) / (0.99 * P.dt)⌉₊)
  else if x.v.val < P.vTof then (3, ⌈(P.vTof - x.v.val) / (0.099 * P.dt)⌉₊)
  else if x.vs.val = 0 then (2, 0)
  else (1, ⌈(level M P - x.h.val) / (0.099 * P.dt)⌉₊)

theorem left_level {x : State (Fl M)} (h : x.tcr.val ≠ 0) :
    left M P x = (0, ⌈(62 + x.tcr.val - x.t.val) / (0.99 * P.dt)⌉₊) := by
  unfold left; rw [if_pos h]

theorem left_roll {x : State (Fl M)} (h : x.tcr.val = 0) (hv : x.v.val < P.vTof) :
    left M P x = (3, ⌈(P.vTof - x.v.val) / (0.099 * P.dt)⌉₊) := by
  unfold left; rw [if_neg (not_not.2 h), if_pos hv]

theorem left_rotate {x : State (Fl M)} (h : x.tcr.val = 0) (hv : P.vTof ≤ x.v.val)
    (hs : x.vs.val = 0) : left M P x = (2, 0) := by
  unfold left; rw [if_neg (not_not.2 h), if_neg (not_lt.2 hv), if_pos hs]

theorem left_climb {x : State (Fl M)} (h : x.tcr.val = 0) (hv : P.vTof ≤ x.v.val)
    (hs : 1 / 10 ≤ x.vs.val) : left M P x = (1, ⌈(level M P - x.h.val) / (0.099 * P.dt)⌉₊) := by
  unfold left; rw [if_neg (not_not.2 h), if_neg (not_lt.2 hv), if_neg (by linarith)]

theorem level_bounds (hP : P.Ordinary) : 457 ≤ level M P ∧ level M P ≤ 15000 := by
  have hhs := hP.heights
  simp only [List.mem_cons, List.not_mem_nil, or_false, forall_eq_or_imp, forall_eq] at hhs
  obtain ⟨k1, k2, k3⟩ := hhs
  have hl := low_bounds M
  constructor
  · have := ((le_level M (P := P)).1 le_rfl).2.2.2
    linarith
  · exact (le_level M).2 ⟨k1, k2, k3, by linarith⟩ |> fun h => h

theorem top_bounds (hP : P.Ordinary) : 1 / 10 ≤ top P ∧ top P ≤ 100 := by
  have hr := hP.rates
  simp only [List.mem_cons, List.not_mem_nil, or_false, forall_eq_or_imp, forall_eq] at hr
  obtain ⟨r1, r2, r3, r4⟩ := hr
  unfold top
  exact ⟨r1.1.trans (by simp), max_le (max_le r1.2 r2.2) (max_le r3.2 r4.2)⟩

theorem rnd_zero_mul {h dt : ℝ} (h0 : |h| ≤ 10 ^ 9)
    (hh : Format.binary64.Repr h) : M.rnd (h + M.rnd (0 * dt)) = h := by
  rw [zero_mul, M.rnd_zero Format.binary64_wide, add_zero,
    M.rnd_of_repr (big_of_huge (by linarith [huge_ge])) hh]

/-- One pass keeps the invariant, and moves on. -/
theorem inv_step (hP : P.Ordinary) {x : State (Fl M)} (hx : Inv M P x) (hb : (pass M P x).2 = false) :
    Inv M P (pass M P x).1 ∧ x.t.val < (pass M P x).1.t.val ∧ x.h.val ≤ (pass M P x).1.h.val ∧
      x.s.val ≤ (pass M P x).1.s.val ∧
      Prod.Lex (· < ·) (· < ·) (left M P (pass M P x).1) (left M P x) := by
  obtain ⟨d0, d1⟩ := hP.dt
  obtain ⟨a0, a1⟩ := hP.aTof
  obtain ⟨T0, T1⟩ := hP.vTof
  obtain ⟨L0, L1⟩ := level_bounds M hP
  obtain ⟨R0, R1⟩ := top_bounds hP
  obtain ⟨S1, S2, S3⟩ := dist_step M hx.memory hx.s0 hx.s1 hx.v0 hx.v1 (by linarith) d1
  rw [← pass_s (P := P)] at S1 S2 S3
  have hd : 0 < 0.099 * P.dt := by linarith
  have hd' : 0 < 0.99 * P.dt := by linarith
  have ht : x.t.val ≤ 300000 → x.t.val + 0.99 * P.dt ≤ (pass M P x).1.t.val ∧
      (pass M P x).1.t.val ≤ x.t.val + 1.01 * P.dt := by
    intro hle
    rw [pass_t]
    have := add64 M (a := x.t.val) (p := P.dt) (by rw [abs_of_nonneg hx.t0]; linarith)
      (by rw [abs_of_pos (by linarith)]; linarith) (by rw [abs_of_pos (by linarith)]; linarith)
    rw [abs_of_pos (show 0 < P.dt by linarith)] at this
    obtain ⟨l, r⟩ := abs_le.1 this
    constructor <;> linarith
  rcases hx.phase with ⟨e1, e2, e3, e4, e5⟩ | ⟨e1, e2, e3, e4, e5, e6, e7⟩ |
    ⟨e1, e2, e3, e4, e5, e6, e7, e8⟩
  · -- on the runway
    obtain ⟨t1, t2⟩ := ht (by linarith)
    have hh : (pass M P x).1.h.val = 0 := by
      rw [pass_h, e1, e2, rnd_zero_mul M (by norm_num) (Format.repr_zero _ (by decide))]
    rcases pass_cases M hP x hx.v1 hh.ge (by rw [hh]; norm_num) with c | c | c
    · obtain ⟨c1, c2, c3, c4, -⟩ := c
      have p0 : 1 / 10 * P.dt ≤ P.aTof * P.dt := mul_le_mul_of_nonneg_right a0 (by linarith)
      have p1 : P.aTof * P.dt ≤ 10 * 60 := mul_le_mul a1 d1 (by linarith) (by norm_num)
      have := step64 M (a := x.v.val) (p := P.aTof * P.dt) (by rw [abs_of_nonneg hx.v0]; linarith)
        (by rw [abs_of_pos (by linarith)]; linarith) (by rw [abs_of_pos (by linarith)]; linarith)
      rw [abs_of_pos (show 0 < P.aTof * P.dt by linarith)] at this
      obtain ⟨l, r⟩ := abs_le.1 this
      rw [← c2] at l r
      refine ⟨⟨S3, hx.s0.trans S1, S2, by linarith [hx.v0], by linarith [huge_ge], by linarith [hx.t0],
        .inl ⟨c3, hh, by rw [c4, e3], by linarith, by linarith⟩⟩, by linarith, by rw [hh, e2], S1, ?_⟩
      rw [left_roll M e3 c1]
      by_cases c5 : (pass M P x).1.v.val < P.vTof
      · rw [left_roll M (by rw [c4, e3]) c5]
        exact .right _ (ceil_drop hd (by linarith) (by linarith))
      · rw [left_rotate M (by rw [c4, e3]) (not_lt.1 c5) c3]
        exact .left _ _ (by norm_num)
    · obtain ⟨c1, c2, c3, c4, c5, c6, c7, -⟩ := c
      refine ⟨⟨S3, hx.s0.trans S1, S2, by linarith, c4, by linarith [hx.t0],
        .inr (.inl ⟨c3, c5, c6, hh.ge, c2, by rw [c7, e3], by linarith⟩)⟩, by linarith, by rw [hh, e2],
        S1, ?_⟩
      rw [left_climb M (by rw [c7, e3]) c3 c5, left_rotate M e3 c1 e1]
      exact .left _ _ (by norm_num)
    · linarith [c.2.1]
  · -- climbing
    obtain ⟨t1, t2⟩ := ht (by linarith)
    have p0 : 1 / 10 * P.dt ≤ x.vs.val * P.dt := mul_le_mul_of_nonneg_right e2 (by linarith)
    have p1 : x.vs.val * P.dt ≤ 100 * 60 :=
      mul_le_mul (e3.trans R1) d1 (by linarith) (by norm_num)
    have p2 : x.vs.val * P.dt ≤ top P * P.dt := mul_le_mul_of_nonneg_right e3 (by linarith)
    have := step64 M (a := x.h.val) (p := x.vs.val * P.dt) (by rw [abs_of_nonneg e4]; linarith)
      (by rw [abs_of_pos (by linarith)]; linarith) (by rw [abs_of_pos (by linarith)]; linarith)
    rw [abs_of_pos (show 0 < x.vs.val * P.dt by linarith)] at this
    obtain ⟨l, r⟩ := abs_le.1 this
    rw [← pass_h (P := P)] at l r
    rcases pass_cases M hP x hx.v1 (by linarith) (by linarith) with c | c | c
    · linarith [c.1]
    · obtain ⟨c1, c2, c3, c4, c5, c6, c7, -⟩ := c
      refine ⟨⟨S3, hx.s0.trans S1, S2, by linarith, c4, by linarith [hx.t0],
        .inr (.inl ⟨c3, c5, c6, by linarith, c2, by rw [c7, e6], by linarith⟩)⟩, by linarith,
        by linarith, S1, ?_⟩
      rw [left_climb M (by rw [c7, e6]) c3 c5, left_climb M e6 c1 e2]
      exact .right _ (ceil_drop hd (by linarith) (by linarith))
    · obtain ⟨c1, c2, c3, c4, c5, c6, -⟩ := c
      rw [if_pos e6, ← pass_t] at c6
      refine ⟨⟨S3, hx.s0.trans S1, S2, by linarith, c4, by linarith [hx.t0],
        .inr (.inr ⟨c3, c5, c2, by linarith, ?_, by rw [c6]; linarith [hx.t0], by rw [c6]; linarith,
          by rw [c6]; linarith⟩)⟩, by linarith, by linarith, S1, ?_⟩
      · rw [pass_h]
        refine M.rnd_repr _ (big_of_huge ?_)
        have hr := abs_rnd64 M (x := x.vs.val * P.dt) (by rw [abs_of_pos (by linarith)]; linarith)
        rw [abs_of_pos (show 0 < x.vs.val * P.dt by linarith)] at hr
        obtain ⟨l', r'⟩ := abs_le.1 hr
        have := huge_ge
        rw [abs_le]
        constructor <;> linarith
      · rw [left_level M (ne_of_gt (by rw [c6]; linarith [hx.t0])), left_climb M e6 c1 e2]
        exact .left _ _ (by norm_num)
  · -- level
    obtain ⟨t1, t2⟩ := ht (by linarith)
    have p1 : top P * P.dt ≤ 100 * 60 := mul_le_mul R1 d1 (by linarith) (by norm_num)
    have hh : (pass M P x).1.h.val = x.h.val := by
      rw [pass_h, e2, rnd_zero_mul M (abs_le.2 ⟨by linarith, by linarith⟩) e5]
    rcases pass_cases M hP x hx.v1 (by rw [hh]; linarith) (by rw [hh]; linarith) with c | c | c
    · linarith [c.1]
    · linarith [c.2.1]
    · obtain ⟨c1, c2, c3, c4, c5, c6, c7⟩ := c
      rw [if_neg e6.ne'] at c6
      rw [hb, ← pass_t, c6, eq_comm, decide_eq_false_iff_not, not_lt] at c7
      have hr := abs_rnd64 M (x := (pass M P x).1.t.val - x.tcr.val) (by
        rw [abs_le]; constructor <;> linarith [hx.t0])
      have hab : |(pass M P x).1.t.val - x.tcr.val| ≤ 300000 := by
        rw [abs_le]; constructor <;> linarith [hx.t0]
      obtain ⟨l', r'⟩ := abs_le.1 hr
      refine ⟨⟨S3, hx.s0.trans S1, S2, by linarith, c4, by linarith [hx.t0],
        .inr (.inr ⟨c3, c5, c2, by rw [hh]; exact e4, by rw [hh]; exact e5, by rw [c6]; exact e6,
          by rw [c6]; exact e7, by rw [c6]; linarith⟩)⟩, by linarith, hh.ge, S1, ?_⟩
      rw [left_level M (by rw [c6]; exact e6.ne'), left_level M e6.ne', c6]
      exact .right _ (ceil_drop hd' (by linarith) (by linarith))

theorem inv_init : Inv M P climbStart := by
  have z := zero64 M
  have z' : (0.0 : Fl M).val = 0 := z
  unfold climbStart
  refine ⟨?_, ?_, ?_, ?_, ?_, ?_, .inl ⟨?_, ?_, ?_, ?_, ?_⟩⟩ <;> dsimp only <;> rw [z'] <;>
    try norm_num
  · exact Format.repr_zero _ (by decide)
  · unfold far; positivity
  · exact le_trans (by norm_num) huge_ge

theorem climb_ends (hP : P.Ordinary) : ∃ ss, Trace (pass M P) climbStart ss :=
  trace_exists (Prod.lex ⟨_, Nat.lt_wfRel.wf⟩ ⟨_, Nat.lt_wfRel.wf⟩).wf (left M P) (Inv := Inv M P)
    (fun _ hx hb => ⟨(inv_step M hP hx hb).1, (inv_step M hP hx hb).2.2.2.2⟩) _ (inv_init M)

theorem climb_end (hP : P.Ordinary) {ss : List (State (Fl M))} (h : Trace (pass M P) climbStart ss) :
    ∃ x, ss.getLast? = some x ∧ Levelled M P x := by
  obtain ⟨x, hx, hb⟩ := trace_last h
  have hi := trace_inv (Inv := Inv M P) (fun _ hx hb => (inv_step M hP hx hb).1) h (inv_init M) x
    (List.mem_of_getLast? hx)
  refine ⟨x, hx, ?_⟩
  obtain ⟨d0, d1⟩ := hP.dt
  obtain ⟨L0, L1⟩ := level_bounds M hP
  obtain ⟨R0, R1⟩ := top_bounds hP
  rcases hi.phase with ⟨e1, e2, e3, e4, e5⟩ | ⟨e1, e2, e3, e4, e5, e6, e7⟩ | e
  · have hh : (pass M P x).1.h.val = 0 := by
      rw [pass_h, e1, e2, rnd_zero_mul M (by norm_num) (Format.repr_zero _ (by decide))]
    rcases pass_cases M hP x hi.v1 hh.ge (by rw [hh]; norm_num) with c | c | c
    · rw [c.2.2.2.2] at hb; cases hb
    · rw [c.2.2.2.2.2.2.2] at hb; cases hb
    · linarith [c.2.1]
  · have p0 : 1 / 10 * P.dt ≤ x.vs.val * P.dt := mul_le_mul_of_nonneg_right e2 (by linarith)
    have p1 : x.vs.val * P.dt ≤ 100 * 60 :=
      mul_le_mul (e3.trans R1) d1 (by linarith) (by norm_num)
    have := step64 M (a := x.h.val) (p := x.vs.val * P.dt) (by rw [abs_of_nonneg e4]; linarith)
      (by rw [abs_of_pos (by linarith)]; linarith) (by rw [abs_of_pos (by linarith)]; linarith)
    rw [abs_of_pos (show 0 < x.vs.val * P.dt by linarith)] at this
    obtain ⟨l, r⟩ := abs_le.1 this
    rw [← pass_h (P := P)] at l r
    rcases pass_cases M hP x hi.v1 (by linarith) (by linarith) with c | c | c
    · rw [c.2.2.2.2] at hb; cases hb
    · rw [c.2.2.2.2.2.2.2] at hb; cases hb
    · obtain ⟨c1, c2, c3, c4, c5, c6, c7⟩ := c
      rw [if_pos e6] at c6
      rw [hb, c6, sub_self, M.rnd_zero Format.binary64_wide, eq_comm, decide_eq_true_eq] at c7
      norm_num at c7
  · exact e

end

end Verif.GenLoop
