import Verif.Lemmas.GenFloatClimb

/-!
# The descent and cruise loops in double precision
-/

namespace Verif.GenLoop
open Verif Verif.Gen Verif.Aero

section
variable (M : Machine .binary64) {P : Descent ℝ}

/-- The pass on the machine. -/
noncomputable abbrev dpass (P : Descent ℝ) (x : State (Fl M)) : State (Fl M) × Bool :=
  descentPass (flt M) flLt (P.on M) x

theorem dpass_t (x : State (Fl M)) : (dpass M P x).1.t.val = M.rnd (x.t.val + P.dt) := by
  unfold dpass descentPass; dsimp only; split_ifs <;> rfl

/-- Next altitude, before the runway is taken into account. -/
noncomputable def next (P : Descent ℝ) (x : State (Fl M)) : ℝ :=
  M.rnd (x.h.val + M.rnd (x.vs.val * P.dt))

/-- Bounds on speed. -/
def Speed (v : ℝ) : Prop := -huge ≤ v ∧ v ≤ 3000000

theorem speed_cas {c h : ℝ} (c1 : 30 ≤ c) (c2 : c ≤ 400) (h0 : 0 ≤ h) (h1 : h ≤ 15000) :
    Speed (cas2tas (flt M) ⟨c⟩ ⟨h⟩ 0.0).val := by
  obtain ⟨l, r⟩ := cas2tas64 M c1 c2 h0 h1
  exact ⟨by linarith [huge_ge], by linarith⟩

theorem speed_mach {m h : ℝ} (m1 : 0.1 ≤ m) (m2 : m ≤ 2) (hh : |h| ≤ 50000) :
    Speed (mach2tas (flt M) ⟨m⟩ ⟨h⟩ 0.0).val := by
  obtain ⟨l, r⟩ := mach2tas64 M m1 m2 hh
  exact ⟨by linarith [huge_ge], by linarith⟩

/-- Slowing down a little. -/
theorem speed_slow (hP : P.Ordinary) {v : ℝ} (hv : Speed v) :
    Speed (M.rnd (v + M.rnd (-M.rnd 0.2 * P.dt))) := by
  obtain ⟨d0, d1⟩ := hP.dt
  obtain ⟨v0, v1⟩ := hv
  have hh := huge_ge
  have e2 := abs_rnd64 M (x := 0.2) (by norm_num)
  rw [abs_of_pos (show (0 : ℝ) < 0.2 by norm_num)] at e2
  obtain ⟨l, r⟩ := abs_le.1 e2
  have p0 : -M.rnd 0.2 * P.dt ≤ 0 := mul_nonpos_of_nonpos_of_nonneg (by linarith) (by linarith)
  have p1 : -(1 * 60) ≤ -M.rnd 0.2 * P.dt := by
    have : M.rnd 0.2 * P.dt ≤ 1 * 60 := mul_le_mul (by linarith) d1 (by linarith) (by norm_num)
    linarith
  have e3 := abs_rnd64 M (x := -M.rnd 0.2 * P.dt) (by rw [abs_of_nonpos p0]; linarith)
  rw [abs_of_nonpos p0] at e3
  obtain ⟨l', r'⟩ := abs_le.1 e3
  have w0 : M.rnd (-M.rnd 0.2 * P.dt) ≤ 0 :=
    M.rnd_le (big_of_huge (by rw [abs_of_nonpos p0]; linarith)) (Format.repr_zero _ (by decide)) p0
  refine ⟨stall_huge_neg M (by linarith) (by linarith), ?_⟩
  have h3 : Format.binary64.Repr 3000000 := by
    have := M.rnd_repr 3000000 (big_of_huge (by rw [abs_of_pos (by norm_num)]; linarith))
    have e := M.rnd_nat Format.binary64_wide 3000000 (by norm_num)
    norm_num at e
    rwa [e] at this
  exact M.rnd_le (big_of_huge (abs_le.2 ⟨by linarith, by linarith⟩)) h3 (by linarith)

/-- Where the flight is, told from the phase written into the row. -/
def stage : Option Seg → ℕ
  | none => 2
  | some .CR => 2
  | some .LD => 0
  | _ => 1

/-- What one pass does. -/
theorem dpass_cases (hP : P.Ordinary) (x : State (Fl M)) (hv : Speed x.v.val)
    (h0 : -50000 ≤ next M P x) (h1 : next M P x ≤ 15000) :
    (((dpass M P x).1.t.val < 60 ∧ P.withcr = true) ∧ (dpass M P x).1.h.val = next M P x ∧
      (dpass M P x).1.vs.val = 0 ∧ Speed (dpass M P x).1.v.val ∧ stage (dpass M P x).1.seg = 2 ∧
      (dpass M P x).2 = false) ∨
    (¬ ((dpass M P x).1.t.val < 60 ∧ P.withcr = true) ∧ 0 < next M P x ∧
      (dpass M P x).1.h.val = next M P x ∧
      (-100 ≤ (dpass M P x).1.vs.val ∧ (dpass M P x).1.vs.val ≤ -1 / 10) ∧
      Speed (dpass M P x).1.v.val ∧ stage (dpass M P x).1.seg = 1 ∧ (dpass M P x).2 = false) ∨
    (¬ ((dpass M P x).1.t.val < 60 ∧ P.withcr = true) ∧ next M P x ≤ 0 ∧
      (dpass M P x).1.h.val = 0 ∧ (dpass M P x).1.vs.val = 0 ∧
      (dpass M P x).1.v.val = M.rnd (x.v.val + M.rnd (P.aLnd * P.dt)) ∧
      stage (dpass M P x).1.seg = 0 ∧
      (dpass M P x).2 = decide (¬ 0 < (dpass M P x).1.v.val)) := by
  have z := zero64 M
  have z' : (0.0 : Fl M).val = 0 := z
  have hr := hP.rates
  simp only [List.mem_cons, List.not_mem_nil, or_false, forall_eq_or_imp, forall_eq] at hr
  obtain ⟨r1, r2, r3, r4⟩ := hr
  obtain ⟨k1, k2⟩ := hP.heights
  obtain ⟨m1, m2⟩ := hP.mach
  obtain ⟨a1, a2⟩ := hP.vApp
  obtain ⟨b1, b2⟩ := hP.vcas
  have e60 : M.rnd 60.0 = 60 := by
    have := M.rnd_nat Format.binary64_wide 60 (by norm_num)
    norm_num at this ⊢; exact this
  have hm := speed_mach M m1 m2 (h := next M P x) (abs_le.2 ⟨by linarith, by linarith⟩)
  have hs := speed_slow M hP hv
  rw [dpass_t]
  set h := next M P x with hh
  have et : x.t + (P.on M).dt = (⟨M.rnd (x.t.val + P.dt)⟩ : Fl M) := rfl
  have eh : x.h + x.vs * (P.on M).dt = (⟨h⟩ : Fl M) := rfl
  have ev : (x.v + -0.2 * (P.on M).dt : Fl M) =
      ⟨M.rnd (x.v.val + M.rnd (-M.rnd 0.2 * P.dt))⟩ := rfl
  have elow : (1000.0 * ft : Fl M) = ⟨M.rnd (M.rnd 1000.0 * M.rnd 0.3048)⟩ := rfl
  have hlow : 0 < M.rnd (M.rnd 1000.0 * M.rnd 0.3048) := by
    have e1 : M.rnd 1000.0 = 1000 := by
      have := M.rnd_nat Format.binary64_wide 1000 (by norm_num)
      norm_num at this ⊢; exact this
    have e2 := abs_rnd64 M (x := 0.3048) (by rw [abs_of_pos (by norm_num)]; norm_num)
    rw [abs_of_pos (show (0:ℝ) < 0.3048 by norm_num)] at e2
    obtain ⟨l, r⟩ := abs_le.1 e2
    rw [e1]
    have e3 := abs_rnd64 M (x := 1000 * M.rnd 0.3048) (by
      rw [abs_of_pos (by linarith)]; linarith)
    rw [abs_of_pos (show (0:ℝ) < 1000 * M.rnd 0.3048 by linarith)] at e3
    obtain ⟨l', r'⟩ := abs_le.1 e3
    linarith
  unfold dpass descentPass
  simp only [eh, ev, et, elow]
  have q1 : (flLt (⟨M.rnd (x.t.val + P.dt)⟩ : Fl M) 60.0 ∧ (P.on M).withcr = true) ↔
      (M.rnd (x.t.val + P.dt) < 60 ∧ P.withcr = true) := by
    show (_ < M.rnd 60.0 ∧ _) ↔ _
    rw [e60]; rfl
  by_cases c1 : M.rnd (x.t.val + P.dt) < 60 ∧ P.withcr = true
  · rw [if_pos (q1.2 c1)]
    exact .inl ⟨c1, rfl, z, hm, rfl, rfl⟩
  rw [if_neg (mt q1.1 c1)]
  by_cases c2 : P.hMach < h
  · rw [if_pos (show flLt (P.on M).hMach ⟨h⟩ from c2)]
    exact .inr (.inl ⟨c1, by linarith, rfl, r1, hm, rfl, rfl⟩)
  rw [if_neg (show ¬ flLt (P.on M).hMach ⟨h⟩ from c2)]
  by_cases c3 : P.hCas < h
  · rw [if_pos (show flLt (P.on M).hCas ⟨h⟩ from c3)]
    exact .inr (.inl ⟨c1, by linarith, rfl, r2, speed_cas M b1 b2 (by linarith) h1, rfl, rfl⟩)
  rw [if_neg (show ¬ flLt (P.on M).hCas ⟨h⟩ from c3)]
  by_cases c4 : M.rnd (M.rnd 1000.0 * M.rnd 0.3048) < h
  · rw [if_pos (show flLt (⟨M.rnd (M.rnd 1000.0 * M.rnd 0.3048)⟩ : Fl M) ⟨h⟩ from c4)]
    refine .inr (.inl ⟨c1, by linarith, rfl, r3, ?_, rfl, rfl⟩)
    dsimp only
    split_ifs
    · exact speed_cas M a1 a2 (by linarith) h1
    · exact hs
  rw [if_neg (show ¬ flLt (⟨M.rnd (M.rnd 1000.0 * M.rnd 0.3048)⟩ : Fl M) ⟨h⟩ from c4)]
  by_cases c5 : 0 < h
  · rw [if_pos (show flLt (0.0 : Fl M) ⟨h⟩ from by unfold flLt; rw [z']; exact c5)]
    exact .inr (.inl ⟨c1, c5, rfl, r4, ⟨by show -huge ≤ P.vApp; linarith [huge_ge],
      by show P.vApp ≤ _; linarith⟩, rfl, rfl⟩)
  rw [if_neg (show ¬ flLt (0.0 : Fl M) ⟨h⟩ from by unfold flLt; rw [z']; exact c5)]
  refine .inr (.inr ⟨c1, not_lt.1 c5, z, z, rfl, rfl, ?_⟩)
  show decide (¬ (M.rnd 0.0 < _)) = _
  rw [z]

/-- Still at cruise altitude. -/
def Cruising (P : Descent ℝ) (x : State (Fl M)) : Prop :=
  x.h.val = P.hCr ∧ x.vs.val = 0 ∧ x.t.val ≤ 60

/-- Descending. -/
def Sinking (P : Descent ℝ) (x : State (Fl M)) : Prop :=
  (P.withcr = true → 60 ≤ x.t.val) ∧ (-100 ≤ x.vs.val ∧ x.vs.val ≤ -1 / 10) ∧ 0 < x.h.val ∧
    x.h.val ≤ P.hCr ∧ x.t.val ≤ 200 + 12 * (15000 - x.h.val)

/-- On the runway. -/
def Braking (P : Descent ℝ) (x : State (Fl M)) : Prop :=
  (P.withcr = true → 60 ≤ x.t.val) ∧ x.h.val = 0 ∧ x.vs.val = 0 ∧ 0 < x.v.val ∧
    x.t.val ≤ 300000 + 12 * (3000000 - x.v.val)

structure DInv (P : Descent ℝ) (x : State (Fl M)) : Prop where
  v : Speed x.v.val
  t0 : 0 ≤ x.t.val
  phase : stage x.seg = 2 ∧ Cruising M P x ∨ stage x.seg = 1 ∧ Sinking M P x ∨
    stage x.seg = 0 ∧ Braking M P x

/-- Decreases along the descent. -/
noncomputable def dleft (P : Descent ℝ) (x : State (Fl M)) : ℕ × ℕ :=
  (stage x.seg, if stage x.seg = 2 then ⌈(62 - x.t.val) / (0.99 * P.dt)⌉₊
    else if stage x.seg = 1 then ⌈x.h.val / (0.099 * P.dt)⌉₊ else ⌈x.v.val / (0.099 * P.dt)⌉₊)

/-- Next altitude of a state of the descent. -/
theorem next_bounds (hP : P.Ordinary) {x : State (Fl M)} (hx : DInv M P x) :
    (x.vs.val = 0 → next M P x = x.h.val) ∧
    (¬ x.vs.val = 0 → x.h.val + 1.01 * (x.vs.val * P.dt) ≤ next M P x ∧
      next M P x ≤ x.h.val - 0.099 * P.dt) ∧
    -50000 ≤ next M P x ∧ next M P x ≤ 15000 := by
  obtain ⟨d0, d1⟩ := hP.dt
  obtain ⟨H0, H1⟩ := hP.hCr
  have hz : x.vs.val = 0 → Format.binary64.Repr x.h.val → |x.h.val| ≤ 10 ^ 9 →
      next M P x = x.h.val := by
    intro e r b
    unfold next
    rw [e, rnd_zero_mul M b r]
  rcases hx.phase with ⟨-, e1, e2, e3⟩ | ⟨-, e0, ⟨e1, e1'⟩, e2, e3, e4⟩ | ⟨-, e0, e1, e2, e3, e4⟩
  · have := hz e2 (by rw [e1]; exact hP.memory) (by rw [e1, abs_of_nonneg H0]; linarith)
    refine ⟨fun _ => this, fun h => absurd e2 h, by rw [this]; linarith, by rw [this]; linarith⟩
  · have p0 : 1 / 10 * P.dt ≤ -x.vs.val * P.dt := mul_le_mul_of_nonneg_right (by linarith) (by linarith)
    have p1 : -x.vs.val * P.dt ≤ 100 * 60 := mul_le_mul (by linarith) d1 (by linarith) (by norm_num)
    have hn : |x.vs.val * P.dt| = -x.vs.val * P.dt := by
      rw [abs_of_neg (by linarith)]; ring
    have := step64 M (a := x.h.val) (p := x.vs.val * P.dt) (by rw [abs_of_pos e2]; linarith)
      (by rw [hn]; linarith) (by rw [hn]; linarith)
    rw [hn] at this
    obtain ⟨l, r⟩ := abs_le.1 this
    have e : next M P x = M.rnd (x.h.val + M.rnd (x.vs.val * P.dt)) := rfl
    rw [← e] at l r
    refine ⟨fun h => by linarith, fun _ => ⟨by linarith, by linarith⟩, by linarith, by linarith⟩
  · have := hz e2 (by rw [e1]; exact Format.repr_zero _ (by decide)) (by rw [e1]; norm_num)
    refine ⟨fun _ => this, fun h => absurd e2 h, by rw [this]; linarith, by rw [this]; linarith⟩

/-- Braking by one step. -/
theorem brake (hP : P.Ordinary) {v : ℝ} (hv : Speed v) :
    M.rnd (v + M.rnd (P.aLnd * P.dt)) ≤ max (v - 0.099 * P.dt) 0 ∧
    (M.rnd (v + M.rnd (P.aLnd * P.dt)) ≤ 0 → v ≤ 1.01 * (-P.aLnd * P.dt)) := by
  obtain ⟨d0, d1⟩ := hP.dt
  obtain ⟨a0, a1⟩ := hP.aLnd
  obtain ⟨v0, v1⟩ := hv
  have hh := huge_ge
  have p0 : 1 / 10 * P.dt ≤ -P.aLnd * P.dt := mul_le_mul_of_nonneg_right (by linarith) (by linarith)
  have p1 : -P.aLnd * P.dt ≤ 10 * 60 := mul_le_mul (by linarith) d1 (by linarith) (by norm_num)
  have hn : |P.aLnd * P.dt| = -P.aLnd * P.dt := by rw [abs_of_neg (by linarith)]; ring
  rcases le_or_gt v 0 with h | h
  · have e3 := abs_rnd64 M (x := P.aLnd * P.dt) (by rw [hn]; linarith)
    rw [hn] at e3
    obtain ⟨l', r'⟩ := abs_le.1 e3
    have w0 : M.rnd (P.aLnd * P.dt) ≤ 0 := by linarith
    refine ⟨le_max_of_le_right (M.rnd_le (big_of_huge (abs_le.2 ⟨by linarith, by linarith⟩))
      (Format.repr_zero _ (by decide)) (by linarith)), fun _ => by linarith⟩
  · have := step64 M (a := v) (p := P.aLnd * P.dt) (by rw [abs_of_pos h]; linarith)
      (by rw [hn]; linarith) (by rw [hn]; linarith)
    rw [hn] at this
    obtain ⟨l, r⟩ := abs_le.1 this
    exact ⟨le_max_of_le_left (by linarith), fun _ => by linarith⟩

/-- One pass keeps the invariant, and moves on. -/
theorem dinv_step (hP : P.Ordinary) {x : State (Fl M)} (hx : DInv M P x)
    (hb : (dpass M P x).2 = false) :
    DInv M P (dpass M P x).1 ∧ x.t.val < (dpass M P x).1.t.val ∧
      (dpass M P x).1.h.val ≤ x.h.val ∧
      Prod.Lex (· < ·) (· < ·) (dleft M P (dpass M P x).1) (dleft M P x) := by
  obtain ⟨d0, d1⟩ := hP.dt
  obtain ⟨H0, H1⟩ := hP.hCr
  have hd : 0 < 0.099 * P.dt := by linarith
  have hd' : 0 < 0.99 * P.dt := by linarith
  have hle : x.t.val ≤ 40000000 := by
    rcases hx.phase with ⟨-, e1, e2, e3⟩ | ⟨-, e0, ⟨e1, e1'⟩, e2, e3, e4⟩ | ⟨-, e0, e1, e2, e3, e4⟩ <;>
      linarith
  obtain ⟨t1, t2⟩ : x.t.val + 0.99 * P.dt ≤ (dpass M P x).1.t.val ∧
      (dpass M P x).1.t.val ≤ x.t.val + 1.01 * P.dt := by
    rw [dpass_t]
    have := add64 M (a := x.t.val) (p := P.dt) (by rw [abs_of_nonneg hx.t0]; linarith)
      (by rw [abs_of_pos (by linarith)]; linarith) (by rw [abs_of_pos (by linarith)]; linarith)
    rw [abs_of_pos (show 0 < P.dt by linarith)] at this
    obtain ⟨l, r⟩ := abs_le.1 this
    constructor <;> linarith
  obtain ⟨n1, n2, n3, n4⟩ := next_bounds M hP hx
  have hlate : ¬ ((dpass M P x).1.t.val < 60 ∧ P.withcr = true) →
      P.withcr = true → 60 ≤ (dpass M P x).1.t.val := fun h w => not_lt.1 fun h' => h ⟨h', w⟩
  have hrun : ∀ {v : ℝ}, v = M.rnd (x.v.val + M.rnd (P.aLnd * P.dt)) → 0 < v →
      v ≤ x.v.val - 0.099 * P.dt ∧ Speed v := by
    intro v e h
    have h1 := (brake M hP hx.v).1
    rw [← e] at h1
    have h2 : v ≤ x.v.val - 0.099 * P.dt := by
      rcases le_max_iff.1 h1 with h1 | h1 <;> linarith
    exact ⟨h2, by linarith [huge_ge], by linarith [hx.v.2]⟩
  have hx2 : ∀ {v : ℝ}, decide (¬ 0 < v) = false → 0 < v := by
    intro v h
    simpa using h
  rcases dpass_cases M hP x hx.v n3 n4 with c | c | c
  · obtain ⟨⟨c1, c1'⟩, c2, c3, c4, c5, -⟩ := c
    rcases hx.phase with ⟨e0, e1, e2, e3⟩ | ⟨e0, e, -⟩ | ⟨e0, e, -⟩
    · have e4 := n1 e2
      refine ⟨⟨c4, by linarith [hx.t0], .inl ⟨c5, by rw [c2, e4, e1], c3, by linarith⟩⟩, by linarith,
        by rw [c2, e4], ?_⟩
      unfold dleft
      rw [c5, e0, if_pos rfl, if_pos rfl]
      exact .right _ (ceil_drop hd' (by linarith) (by linarith))
    · have := e c1'; linarith
    · have := e c1'; linarith
  · obtain ⟨c1, c2, c3, c4, c5, c6, -⟩ := c
    rcases hx.phase with ⟨e0, e1, e2, e3⟩ | ⟨e0, e1, ⟨e2, e2'⟩, e3, e4, e5⟩ | ⟨e0, e1, e2, e3, -⟩
    · have e4 := n1 e2
      refine ⟨⟨c5, by linarith [hx.t0], .inr (.inl ⟨c6, hlate c1, c4, by rw [c3]; exact c2,
        by rw [c3, e4, e1], by rw [c3, e4, e1]; linarith⟩)⟩, by linarith, by rw [c3, e4], ?_⟩
      unfold dleft
      rw [c6, e0]
      exact .left _ _ (by norm_num)
    · obtain ⟨-, e6⟩ := n2 (by linarith)
      refine ⟨⟨c5, by linarith [hx.t0], .inr (.inl ⟨c6, hlate c1, c4, by rw [c3]; exact c2,
        by rw [c3]; linarith, by rw [c3]; linarith⟩)⟩, by linarith, by rw [c3]; linarith, ?_⟩
      unfold dleft
      rw [c6, e0, if_neg (show ¬ (1 : ℕ) = 2 by decide), if_neg (show ¬ (1 : ℕ) = 2 by decide),
        if_pos rfl, if_pos rfl, c3]
      exact .right _ (ceil_drop hd (by linarith) (by linarith))
    · rw [n1 e3, e2] at c2; exact absurd c2 (lt_irrefl 0)
  · obtain ⟨c1, c2, c3, c4, c5, c6, c7⟩ := c
    rw [hb] at c7
    have c8 := hx2 c7.symm
    obtain ⟨c9, c10⟩ := hrun c5 c8
    have hv := hx.v.2
    rcases hx.phase with ⟨e0, e1, e2, e3⟩ | ⟨e0, e1, ⟨e2, e2'⟩, e3, e4, e5⟩ | ⟨e0, e1, e2, e3, e4, e5⟩
    · refine ⟨⟨c10, by linarith [hx.t0], .inr (.inr ⟨c6, hlate c1, c3, c4, c8, by linarith⟩)⟩,
        by linarith, by rw [c3, e1]; exact H0, ?_⟩
      unfold dleft
      rw [c6, e0]
      exact .left _ _ (by norm_num)
    · refine ⟨⟨c10, by linarith [hx.t0], .inr (.inr ⟨c6, hlate c1, c3, c4, c8, by linarith⟩)⟩,
        by linarith, by rw [c3]; exact e3.le, ?_⟩
      unfold dleft
      rw [c6, e0]
      exact .left _ _ (by norm_num)
    · refine ⟨⟨c10, by linarith [hx.t0], .inr (.inr ⟨c6, hlate c1, c3, c4, c8, by linarith⟩)⟩,
        by linarith, by rw [c3, e2], ?_⟩
      unfold dleft
      rw [c6, e0, if_neg (show ¬ (0 : ℕ) = 2 by decide), if_neg (show ¬ (0 : ℕ) = 2 by decide),
        if_neg (show ¬ (0 : ℕ) = 1 by decide), if_neg (show ¬ (0 : ℕ) = 1 by decide)]
      exact .right _ (ceil_drop hd (by linarith) (by linarith))

theorem dinv_init (hP : P.Ordinary) : DInv M P (descentStart (flt M) (P.on M)) := by
  have z' : (0.0 : Fl M).val = 0 := zero64 M
  obtain ⟨H0, H1⟩ := hP.hCr
  obtain ⟨m1, m2⟩ := hP.mach
  refine ⟨speed_mach M m1 m2 (h := P.hCr) (abs_le.2 ⟨by linarith, by linarith⟩), z'.ge,
    .inl ⟨rfl, rfl, z', ?_⟩⟩
  show (0.0 : Fl M).val ≤ 60
  rw [z']; norm_num

theorem descent_ends (hP : P.Ordinary) :
    ∃ ss, Trace (dpass M P) (descentStart (flt M) (P.on M)) ss :=
  trace_exists (Prod.lex ⟨_, Nat.lt_wfRel.wf⟩ ⟨_, Nat.lt_wfRel.wf⟩).wf (dleft M P) (Inv := DInv M P)
    (fun _ hx hb => ⟨(dinv_step M hP hx hb).1, (dinv_step M hP hx hb).2.2.2⟩) _ (dinv_init M hP)

theorem descent_end (hP : P.Ordinary) {ss : List (State (Fl M))}
    (h : Trace (dpass M P) (descentStart (flt M) (P.on M)) ss) :
    ∃ x, ss.getLast? = some x ∧
      (x.h.val = 0 ∧ x.vs.val = 0 ∨ 0 < x.h.val ∧ x.h.val ≤ 1.01 * (-x.vs.val * P.dt)) ∧
      x.v.val ≤ 1.01 * (-P.aLnd * P.dt) := by
  obtain ⟨x, hx, hb⟩ := trace_last h
  have hi := trace_inv (Inv := DInv M P) (fun _ hx hb => (dinv_step M hP hx hb).1) h (dinv_init M hP) x
    (List.mem_of_getLast? hx)
  obtain ⟨H0, H1⟩ := hP.hCr
  obtain ⟨n1, n2, n3, n4⟩ := next_bounds M hP hi
  refine ⟨x, hx, ?_⟩
  rcases dpass_cases M hP x hi.v n3 n4 with c | c | c
  · rw [c.2.2.2.2.2] at hb; cases hb
  · rw [c.2.2.2.2.2.2] at hb; cases hb
  · obtain ⟨c1, c2, c3, c4, c5, c6, c7⟩ := c
    rw [hb, c5] at c7
    have c8 : M.rnd (x.v.val + M.rnd (P.aLnd * P.dt)) ≤ 0 := by simpa using c7.symm
    refine ⟨?_, (brake M hP hi.v).2 c8⟩
    rcases hi.phase with ⟨e0, e1, e2, e3⟩ | ⟨e0, e1, ⟨e2, e2'⟩, e3, e4, e5⟩ | ⟨e0, e1, e2, e3, e4, e5⟩
    · rw [n1 e2] at c2
      exact .inl ⟨le_antisymm c2 (by rw [e1]; exact H0), e2⟩
    · obtain ⟨e6, -⟩ := n2 (by linarith)
      exact .inr ⟨e3, by linarith⟩
    · exact .inl ⟨e2, e3⟩

theorem descent_up (hP : P.Ordinary) {x : State (Fl M)} (hx : DInv M P x) :
    0 ≤ x.h.val ∧ x.h.val ≤ P.hCr := by
  obtain ⟨H0, H1⟩ := hP.hCr
  rcases hx.phase with ⟨-, e1, -⟩ | ⟨-, -, -, e3, e4, -⟩ | ⟨-, -, e2, -⟩
  · rw [e1]; exact ⟨H0, le_rfl⟩
  · exact ⟨e3.le, e4⟩
  · rw [e2]; exact ⟨le_rfl, H0⟩

end

end Verif.GenLoop
