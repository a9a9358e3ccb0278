import Verif.Lemmas.Fuzzy
import Mathlib.Analysis.SpecialFunctions.Log.Basic
import Mathlib.Analysis.SpecialFunctions.Exponential

/-! Lemmas on the phase decision of one window. -/

namespace Verif.Phase
open Verif Verif.Fuzzy Verif.PhaseSpec

/-- The label of a phase. -/
def lab : PhaseSpec.Phase → Label
  | .ground => .GND
  | .climb => .CL
  | .descent => .DE
  | .cruise => .CR
  | .level => .LVL

theorem arange_last (a d : ℝ) (n : ℕ) : (arange a d (n + 1)).getLastD 0 = a + n * d := by
  unfold arange; rw [List.range_succ]; simp

theorem arange_head (a d : ℝ) (n : ℕ) : (arange a d (n + 1)).headD 0 = a := by
  unfold arange; rw [List.range_succ_eq_map]; simp

theorem val_lt (a b : ℝ) : ((NR.val a : NR) < NR.val b) ↔ a < b := Iff.rfl
theorem not_nan_lt (a : NR) : ¬ (NR.nan < a) := by rintro ⟨⟩
theorem not_lt_nan (a : NR) : ¬ (a < NR.nan) := by cases a <;> rintro ⟨⟩

theorem pyMin_val (a b : ℝ) : pyMin (.val a) (.val b) = .val (min a b) := by
  unfold pyMin
  split_ifs with h
  · rw [min_eq_right (le_of_lt h)]
  · rw [min_eq_left (not_lt.1 h)]
theorem pyMax_val (a b : ℝ) : pyMax (.val a) (.val b) = .val (max a b) := by
  unfold pyMax
  split_ifs with h
  · rw [max_eq_right (le_of_lt h)]
  · rw [max_eq_left (not_lt.1 h)]
theorem pyMin_nan_left (b : NR) : pyMin .nan b = .nan := if_neg (not_lt_nan b)
theorem pyMin_nan_right (b : NR) : pyMin b .nan = b := if_neg (not_nan_lt b)
theorem pyMax_nan_left (b : NR) : pyMax .nan b = .nan := if_neg (not_nan_lt b)

theorem clamp_val (a d : ℝ) (n : ℕ) (x : ℝ) :
    clamp (arange a d (n + 1)) (.val x) = .val (max (min x (a + n * d)) a) := by
  unfold clamp; rw [arange_last, arange_head, pyMin_val, pyMax_val]

theorem clamp_nan (r : List ℝ) : clamp r .nan = .nan := by
  unfold clamp; rw [pyMin_nan_left, pyMax_nan_left]

theorem clamp2_val {a d : ℝ} {n : ℕ} (h : 0 ≤ (n : ℝ) * d) (x : ℝ) :
    clamp (arange a d (n + 1)) (clamp (arange a d (n + 1)) (.val x)) =
      .val (max (min x (a + n * d)) a) := by
  rw [clamp_val, clamp_val]
  congr 1
  rw [min_eq_left (max_le (min_le_right _ _) (by linarith)), max_eq_left (le_max_right _ _)]

theorem level_val {d a : ℝ} (hd : 0 < d) (f : ℝ → ℝ) (x : ℝ) (k : ℤ) (ha : a = k * d) (n : ℕ)
    (h1 : a ≤ x) (h2 : x ≤ a + n * d) :
    level (arange a d (n + 1)) ((arange a d (n + 1)).map f) (.val x) = .val (between d f x) := by
  simp only [level]; rw [interp_grid hd f x k ha n h1 h2]

/-! ### The nine memberships -/

/-- Altitude after clamping. -/
noncomputable def altC (h : ℝ) : ℝ := max (min h 39999) 0
/-- Speed after clamping. -/
noncomputable def spdC (h : ℝ) : ℝ := max (min h 599) 0
/-- Rate of climb after clamping. -/
noncomputable def rocC (h : ℝ) : ℝ := max (min h 3999.9) (-4000)

theorem altC_mem (h : ℝ) : 0 ≤ altC h ∧ altC h ≤ 39999 :=
  ⟨le_max_right _ _, max_le (min_le_right _ _) (by norm_num)⟩
theorem spdC_mem (h : ℝ) : 0 ≤ spdC h ∧ spdC h ≤ 599 :=
  ⟨le_max_right _ _, max_le (min_le_right _ _) (by norm_num)⟩
theorem rocC_mem (h : ℝ) : -4000 ≤ rocC h ∧ rocC h ≤ 3999.9 :=
  ⟨le_max_right _ _, max_le (min_le_right _ _) (by norm_num)⟩

theorem clamp_alt (x : ℝ) : clamp altRange (clamp altRange (.val x)) = .val (altC x) := by
  have := clamp2_val (a := 0) (d := 1) (n := 39999) (by norm_num) x
  unfold altRange altC
  norm_num at this ⊢
  exact this
theorem clamp_spd (x : ℝ) : clamp spdRange (clamp spdRange (.val x)) = .val (spdC x) := by
  have := clamp2_val (a := 0) (d := 1) (n := 599) (by norm_num) x
  unfold spdRange spdC
  norm_num at this ⊢
  exact this
theorem clamp_roc (x : ℝ) : clamp rocRange (clamp rocRange (.val x)) = .val (rocC x) := by
  have := clamp2_val (a := -4000) (d := 0.1) (n := 79999) (by norm_num) x
  unfold rocRange rocC
  have e : (-4000 : ℝ) + ((79999 : ℕ) : ℝ) * 0.1 = 3999.9 := by norm_num
  rw [e] at this
  exact this

theorem level_alt (f : ℝ → ℝ) {x : ℝ} (h : 0 ≤ x ∧ x ≤ 39999) :
    level altRange (altRange.map f) (.val x) = .val (between 1 f x) := by
  have := level_val (d := 1) (a := 0) one_pos f x 0 (by simp) 39999 h.1 (by norm_num; exact h.2)
  exact this
theorem level_spd (f : ℝ → ℝ) {x : ℝ} (h : 0 ≤ x ∧ x ≤ 599) :
    level spdRange (spdRange.map f) (.val x) = .val (between 1 f x) := by
  have := level_val (d := 1) (a := 0) one_pos f x 0 (by simp) 599 h.1 (by norm_num; exact h.2)
  exact this
theorem level_roc (f : ℝ → ℝ) {x : ℝ} (h : -4000 ≤ x ∧ x ≤ 3999.9) :
    level rocRange (rocRange.map f) (.val x) = .val (between 0.1 f x) := by
  have := level_val (d := 0.1) (a := -4000) (by norm_num) f x (-40000) (by norm_num) 79999 h.1
    (by have := h.2; norm_num at this ⊢; linarith)
  exact this

theorem altGnd_eq : altGnd = altRange.map (fall 0 200) :=
  List.map_congr_left fun x _ => zmfAt_eq_fall (by norm_num) x
theorem altLo_eq : altLo = altRange.map (bell 10000 10000) :=
  List.map_congr_left fun x _ => gaussmf_eq_bell x _ _
theorem altHi_eq : altHi = altRange.map (bell 35000 20000) :=
  List.map_congr_left fun x _ => gaussmf_eq_bell x _ _
theorem rocZero_eq : rocZero = rocRange.map (bell 0 100) :=
  List.map_congr_left fun x _ => gaussmf_eq_bell x _ _
theorem rocPlus_eq : rocPlus = rocRange.map (rise 10 1000) :=
  List.map_congr_left fun x _ => smfAt_eq_rise (by norm_num) x
theorem rocMinus_eq : rocMinus = rocRange.map (fall (-1000) (-10)) :=
  List.map_congr_left fun x _ => zmfAt_eq_fall (by norm_num) x
theorem spdHi_eq : spdHi = spdRange.map (bell 600 100) :=
  List.map_congr_left fun x _ => gaussmf_eq_bell x _ _
theorem spdMd_eq : spdMd = spdRange.map (bell 300 100) :=
  List.map_congr_left fun x _ => gaussmf_eq_bell x _ _
theorem spdLo_eq : spdLo = spdRange.map (bell 0 50) :=
  List.map_congr_left fun x _ => gaussmf_eq_bell x _ _

theorem bell_mem (m s x : ℝ) : 0 ≤ bell m s x ∧ bell m s x ≤ 1 :=
  ⟨(Real.exp_pos _).le, Real.exp_le_one_iff.2 (by
    have : 0 ≤ ((x - m) / s) ^ 2 / 2 := by positivity
    linarith)⟩

theorem fall_mem (a b x : ℝ) : 0 ≤ fall a b x ∧ fall a b x ≤ 1 := by
  have := rise_mem a b x
  unfold fall; constructor <;> linarith

theorem between_unit {d : ℝ} {f : ℝ → ℝ} (hf : ∀ x, 0 ≤ f x ∧ f x ≤ 1) (x : ℝ) :
    0 ≤ between d f x ∧ between d f x ≤ 1 :=
  between_mem (hf _).1 (hf _).1 (hf _).2 (hf _).2

theorem altDegree_mem (p h) : 0 ≤ altDegree p h ∧ altDegree p h ≤ 1 := by
  apply between_unit; intro x
  cases p <;> first | exact fall_mem _ _ _ | exact bell_mem _ _ _
theorem spdDegree_mem (p h) : 0 ≤ spdDegree p h ∧ spdDegree p h ≤ 1 := by
  apply between_unit; intro x
  cases p <;> exact bell_mem _ _ _
theorem rocDegree_mem (p h) : 0 ≤ rocDegree p h ∧ rocDegree p h ≤ 1 := by
  apply between_unit; intro x
  cases p <;> first | exact fall_mem _ _ _ | exact rise_mem _ _ _ | exact bell_mem _ _ _

theorem strength_le_one (alt spd roc p) : strength alt spd roc p ≤ 1 := by
  cases alt with
  | nan => exact le_refl _
  | val h => exact (min_le_left _ _).trans (altDegree_mem p h).2

/-! ### A lower bound: some phase always applies -/

theorem between_ge {d : ℝ} {f : ℝ → ℝ} {x c : ℝ} (lo hi : ℤ) (hd : 0 < d)
    (hx : lo * d ≤ x) (hx' : x < hi * d)
    (hf : ∀ y, lo * d ≤ y → y ≤ hi * d → c ≤ f y) : c ≤ between d f x := by
  have h1 : lo ≤ ⌊x / d⌋ := by rw [Int.le_floor, le_div_iff₀ hd]; exact hx
  have h2 : ⌊x / d⌋ < hi := by rw [Int.floor_lt, div_lt_iff₀ hd]; exact hx'
  have h1' : (lo : ℝ) ≤ ⌊x / d⌋ := by exact_mod_cast h1
  have h2' : (⌊x / d⌋ : ℝ) + 1 ≤ hi := by exact_mod_cast h2
  have a := hf (⌊x / d⌋ * d) (by nlinarith) (by nlinarith)
  have b := hf ((⌊x / d⌋ + 1) * d) (by nlinarith) (by nlinarith)
  have a' := Int.fract_nonneg (x / d)
  have b' := (Int.fract_lt_one (x / d)).le
  unfold between
  nlinarith

theorem bell_ge {m s x c : ℝ} (hs : 0 < s) (hc : 0 ≤ c) (h : |x - m| ≤ c * s) :
    Real.exp (-(c ^ 2 / 2)) ≤ bell m s x := by
  unfold bell
  apply Real.exp_le_exp.2
  have : ((x - m) / s) ^ 2 ≤ c ^ 2 := by
    rw [sq_le_sq, abs_div, abs_of_pos hs, abs_of_nonneg hc, div_le_iff₀ hs]
    exact h
  linarith

/-- The bound `exp (-9/2)`. -/
noncomputable def floor0 : ℝ := Real.exp (-(3 ^ 2 / 2))

theorem floor0_lt : floor0 ≤ 0.07 := by
  unfold floor0
  have h : Real.exp (-(3 ^ 2 / 2)) = (Real.exp (9/2))⁻¹ := by rw [← Real.exp_neg]; norm_num
  have : (16:ℝ) ≤ Real.exp (9/2) := by
    have h1 : (2:ℝ) ≤ Real.exp 1 := by have := Real.add_one_le_exp (1:ℝ); linarith
    have h2 : Real.exp (9/2) = Real.exp 1 ^ 4 * Real.exp (1/2) := by
      rw [← Real.exp_nat_mul, ← Real.exp_add]; norm_num
    rw [h2]
    have h3 : (1:ℝ) ≤ Real.exp (1/2) := Real.one_le_exp (by norm_num)
    have h4 : (16:ℝ) ≤ Real.exp 1 ^ 4 := by
      have := pow_le_pow_left₀ (by norm_num) h1 4
      norm_num at this ⊢; exact this
    nlinarith
  rw [h]
  calc (Real.exp (9/2))⁻¹ ≤ (16:ℝ)⁻¹ := inv_anti₀ (by norm_num) this
    _ ≤ 0.07 := by norm_num

theorem alt_low_ge (p : PhaseSpec.Phase) (hp : p = .climb ∨ p = .descent ∨ p = .level) (h : ℝ) :
    floor0 ≤ altDegree p h := by
  have hm := altC_mem h
  have : floor0 ≤ between 1 (bell 10000 10000) (altC h) := by
    apply between_ge 0 40000 one_pos (by simpa using hm.1) (by norm_num; linarith)
    intro y h1 h2
    apply bell_ge (by norm_num) (by norm_num)
    norm_num at h1 h2
    rw [abs_le]; constructor <;> linarith
  rcases hp with rfl | rfl | rfl <;> exact this

theorem spd_mid_ge (p : PhaseSpec.Phase) (hp : p = .climb ∨ p = .descent ∨ p = .level) (h : ℝ) :
    floor0 ≤ spdDegree p h := by
  have hm := spdC_mem h
  have : floor0 ≤ between 1 (bell 300 100) (spdC h) := by
    apply between_ge 0 600 one_pos (by simpa using hm.1) (by norm_num; linarith)
    intro y h1 h2
    apply bell_ge (by norm_num) (by norm_num)
    norm_num at h1 h2
    rw [abs_le]; constructor <;> linarith
  rcases hp with rfl | rfl | rfl <;> exact this

theorem rise_at_200 {y : ℝ} (h : 200 ≤ y) : 0.07 ≤ rise 10 1000 y := by
  refine le_trans ?_ (rise_mono 10 1000 h)
  unfold rise
  rw [if_neg (by norm_num), if_neg (by norm_num), if_pos (by norm_num)]
  norm_num

theorem fall_at_m200 {y : ℝ} (h : y ≤ -200) : 0.07 ≤ fall (-1000) (-10) y := by
  have := rise_mono (-1000) (-10) h
  have h2 : rise (-1000) (-10) (-200) ≤ 0.93 := by
    unfold rise
    rw [if_neg (by norm_num), if_neg (by norm_num), if_neg (by norm_num)]
    norm_num
  unfold fall
  linarith

theorem roc_some_ge (w : ℝ) : ∃ p : PhaseSpec.Phase, (p = .climb ∨ p = .descent ∨ p = .level) ∧
    floor0 ≤ rocDegree p w := by
  have hm := rocC_mem w
  have h0 := floor0_lt
  rcases lt_or_ge (rocC w) (-200) with h | h
  · refine ⟨.descent, by simp, ?_⟩
    show floor0 ≤ between 0.1 (fall (-1000) (-10)) (rocC w)
    refine between_ge (-40000) (-2000) (by norm_num) (by norm_num; linarith [hm.1])
      (by norm_num; linarith) ?_
    intro y _ h2
    norm_num at h2
    exact h0.trans (fall_at_m200 h2)
  rcases lt_or_ge (rocC w) 200 with h' | h'
  · refine ⟨.level, by simp, ?_⟩
    show floor0 ≤ between 0.1 (bell 0 100) (rocC w)
    refine between_ge (-2000) 2000 (by norm_num) (by norm_num; linarith)
      (by norm_num; linarith) ?_
    intro y h1 h2
    norm_num at h1 h2
    refine bell_ge (by norm_num) (by norm_num) ?_
    rw [abs_le]; constructor <;> linarith
  · refine ⟨.climb, by simp, ?_⟩
    show floor0 ≤ between 0.1 (rise 10 1000) (rocC w)
    refine between_ge 2000 40000 (by norm_num) (by norm_num; linarith)
      (by have := hm.2; norm_num at this ⊢; linarith) ?_
    intro y h1 _
    norm_num at h1
    exact h0.trans (rise_at_200 h1)

theorem some_strength (alt spd roc : NR) : ∃ p, floor0 ≤ strength alt spd roc p := by
  have h1 : floor0 ≤ 1 := floor0_lt.trans (by norm_num)
  cases alt with
  | nan => exact ⟨.level, h1⟩
  | val h =>
    have hs : ∀ p, (p = PhaseSpec.Phase.climb ∨ p = .descent ∨ p = .level) →
        floor0 ≤ orFull (spdDegree p) spd := by
      intro p hp
      cases spd with
      | nan => exact h1
      | val v => exact spd_mid_ge p hp v
    cases roc with
    | nan =>
      exact ⟨.level, le_min (alt_low_ge _ (by simp) h) (le_min h1 (hs _ (by simp)))⟩
    | val w =>
      obtain ⟨p, hp, hw⟩ := roc_some_ge w
      exact ⟨p, le_min (alt_low_ge p hp h) (le_min hw (hs p hp))⟩

/-! ### Existence and uniqueness of the strongest phase -/

theorem rank_inj {p q : PhaseSpec.Phase} (h : p.rank = q.rank) : p = q := by
  cases p <;> cases q <;> first | rfl | (simp [PhaseSpec.Phase.rank] at h)

theorem strongest_unique {s : PhaseSpec.Phase → ℝ} {p q} (hp : Strongest s p)
    (hq : Strongest s q) : p = q := by
  apply rank_inj
  by_contra h
  rcases lt_or_gt_of_ne h with h | h
  · have := (hp q).2 h; have := (hq p).1; linarith
  · have := (hq p).2 h; have := (hp q).1; linarith

theorem strongest_exists (s : PhaseSpec.Phase → ℝ) : ∃ p, Strongest s p := by
  have step : ∀ m : ℕ, ∃ p : PhaseSpec.Phase, p.rank ≤ m ∧
      ∀ q : PhaseSpec.Phase, q.rank ≤ m → s q ≤ s p ∧ (p.rank < q.rank → s q < s p) := by
    intro m
    induction m with
    | zero =>
      refine ⟨.ground, le_refl _, ?_⟩
      intro q hq
      have : q = .ground := rank_inj (by simpa [PhaseSpec.Phase.rank] using hq)
      subst this
      exact ⟨le_refl _, fun h => absurd h (lt_irrefl _)⟩
    | succ m ih =>
      obtain ⟨p, hp, h⟩ := ih
      by_cases hm : ∃ r : PhaseSpec.Phase, r.rank = m + 1
      · obtain ⟨r, hr⟩ := hm
        rcases le_or_gt (s p) (s r) with c | c
        · refine ⟨r, hr.le, ?_⟩
          intro q hq
          rcases Nat.lt_or_ge q.rank (m + 1) with h1 | h1
          · exact ⟨((h q (by omega)).1).trans c, fun h2 => by omega⟩
          · have : q = r := rank_inj (by omega)
            subst this
            exact ⟨le_refl _, fun h => absurd h (lt_irrefl _)⟩
        · refine ⟨p, by omega, ?_⟩
          intro q hq
          rcases Nat.lt_or_ge q.rank (m + 1) with h1 | h1
          · exact h q (by omega)
          · have : q = r := rank_inj (by omega)
            subst this
            exact ⟨c.le, fun _ => c⟩
      · refine ⟨p, by omega, ?_⟩
        intro q hq
        refine h q ?_
        have : q.rank ≠ m + 1 := fun e => hm ⟨q, e⟩
        omega
  obtain ⟨p, -, h⟩ := step 4
  exact ⟨p, fun q => h q (by cases q <;> decide)⟩

/-! ### The rules are the strengths -/

/-- The phases in order. -/
def phases : List PhaseSpec.Phase := [.ground, .climb, .descent, .cruise, .level]

theorem mem_phases (p : PhaseSpec.Phase) : p ∈ phases := by cases p <;> decide

/-- `v`, or 1 where the first argument is missing. -/
def unlessNan (a : NR) (v : ℝ) : ℝ := match a with
  | .nan => 1
  | .val _ => v

theorem fmin_rule {a b c : NR} {x y z s : ℝ} (hs : s ≤ 1)
    (ha : a = .val x ∨ a = .nan) (hb : b = .val y ∨ (b = .nan ∧ y = 1))
    (hc : c = .val z ∨ (c = .nan ∧ z = 1)) (hy : y ≤ 1) (hx : x ≤ 1) :
    fminR (pyMin3 a b c) s = min (unlessNan a (min x (min y z))) s := by
  unfold pyMin3
  rcases ha with rfl | rfl
  · rcases hb with rfl | ⟨rfl, rfl⟩ <;> rcases hc with rfl | ⟨rfl, rfl⟩ <;>
      simp only [pyMin_val, pyMin_nan_right, fminR, unlessNan]
    · rw [min_assoc x y z]
    · rw [min_eq_left hy]
    · rw [min_comm (1:ℝ) z, ← min_assoc x z 1, min_eq_left ((min_le_left x z).trans hx)]
    · rw [min_self, min_eq_left hx]
  · simp only [pyMin_nan_left, fminR, unlessNan]
    rw [min_eq_right hs]

/-- A membership of altitude, present or missing. -/
theorem alt_level (f : ℝ → ℝ) (h : ℝ) :
    level altRange (altRange.map f) (clamp altRange (clamp altRange (.val h))) =
      .val (between 1 f (altC h)) := by rw [clamp_alt, level_alt f (altC_mem h)]
theorem spd_level (f : ℝ → ℝ) (h : ℝ) :
    level spdRange (spdRange.map f) (clamp spdRange (clamp spdRange (.val h))) =
      .val (between 1 f (spdC h)) := by rw [clamp_spd, level_spd f (spdC_mem h)]
theorem roc_level (f : ℝ → ℝ) (h : ℝ) :
    level rocRange (rocRange.map f) (clamp rocRange (clamp rocRange (.val h))) =
      .val (between 0.1 f (rocC h)) := by rw [clamp_roc, level_roc f (rocC_mem h)]
theorem level_nan (r mf : List ℝ) : level r mf (clamp r (clamp r .nan)) = .nan := by
  rw [clamp_nan, clamp_nan]; rfl

theorem activations (alt spd roc : NR) (x : ℝ) :
    ((rules (clamp altRange (clamp altRange alt)) (clamp spdRange (clamp spdRange spd))
      (clamp rocRange (clamp rocRange roc))).zipIdx.map
        fun p => fminR p.1 (gaussmf x ((p.2 : ℝ) + 1) 0.1)) =
    phases.map fun p => min (strength alt spd roc p) (bell ((p.rank : ℝ) + 1) 0.1 x) := by
  have ha : ∀ f : ℝ → ℝ, ∀ p : PhaseSpec.Phase,
      (∀ h, altDegree p h = between 1 f (altC h)) →
      ∃ v, v ≤ 1 ∧ (level altRange (altRange.map f) (clamp altRange (clamp altRange alt)) = .val v ∨
        level altRange (altRange.map f) (clamp altRange (clamp altRange alt)) = .nan) ∧
        ∀ y z : ℝ, unlessNan (level altRange (altRange.map f) (clamp altRange (clamp altRange alt)))
          (min v (min y z)) =
          (match alt with
          | .nan => 1
          | .val h => min (altDegree p h) (min y z)) := by
    intro f p hf
    cases alt with
    | nan => exact ⟨1, le_refl _, Or.inr (level_nan _ _), fun y z => by rw [level_nan]; rfl⟩
    | val h =>
      refine ⟨altDegree p h, (altDegree_mem p h).2, ?_, ?_⟩
      · left; rw [alt_level, hf h]
      · intro y z; rw [alt_level]; rfl
  have hs : ∀ f : ℝ → ℝ, ∀ p : PhaseSpec.Phase,
      (∀ h, spdDegree p h = between 1 f (spdC h)) →
      level spdRange (spdRange.map f) (clamp spdRange (clamp spdRange spd)) =
        .val (orFull (spdDegree p) spd) ∨
      (level spdRange (spdRange.map f) (clamp spdRange (clamp spdRange spd)) = .nan ∧
        orFull (spdDegree p) spd = 1) := by
    intro f p hf
    cases spd with
    | nan => exact Or.inr ⟨level_nan _ _, rfl⟩
    | val v => left; rw [spd_level]; exact congrArg NR.val (hf v).symm
  have hr : ∀ f : ℝ → ℝ, ∀ p : PhaseSpec.Phase,
      (∀ h, rocDegree p h = between 0.1 f (rocC h)) →
      level rocRange (rocRange.map f) (clamp rocRange (clamp rocRange roc)) =
        .val (orFull (rocDegree p) roc) ∨
      (level rocRange (rocRange.map f) (clamp rocRange (clamp rocRange roc)) = .nan ∧
        orFull (rocDegree p) roc = 1) := by
    intro f p hf
    cases roc with
    | nan => exact Or.inr ⟨level_nan _ _, rfl⟩
    | val v => left; rw [roc_level]; exact congrArg NR.val (hf v).symm
  have hr1 : ∀ p, orFull (rocDegree p) roc ≤ 1 := by
    intro p; cases roc with
    | nan => exact le_refl _
    | val w => exact (rocDegree_mem p w).2
  have key : ∀ (p : PhaseSpec.Phase) (fa fr fs : ℝ → ℝ) (k : ℝ),
      (∀ h, altDegree p h = between 1 fa (altC h)) →
      (∀ h, rocDegree p h = between 0.1 fr (rocC h)) →
      (∀ h, spdDegree p h = between 1 fs (spdC h)) → k = (p.rank : ℝ) + 1 →
      fminR (pyMin3 (level altRange (altRange.map fa) (clamp altRange (clamp altRange alt)))
        (level rocRange (rocRange.map fr) (clamp rocRange (clamp rocRange roc)))
        (level spdRange (spdRange.map fs) (clamp spdRange (clamp spdRange spd))))
        (gaussmf x k 0.1) =
      min (strength alt spd roc p) (bell ((p.rank : ℝ) + 1) 0.1 x) := by
    intro p fa fr fs k h1 h2 h3 hk
    obtain ⟨v, hv, h4, h5⟩ := ha fa p h1
    rw [gaussmf_eq_bell, hk]
    rw [fmin_rule (bell_mem _ _ _).2 h4 (hr fr p h2) (hs fs p h3) (hr1 p) hv, h5]
    rfl
  simp only [rules, altGnd_eq, altLo_eq, altHi_eq, rocZero_eq, rocPlus_eq, rocMinus_eq, spdHi_eq,
    spdMd_eq, spdLo_eq, phases, List.zipIdx_cons, List.zipIdx_nil, List.map_cons, List.map_nil]
  refine congr (congrArg _ (key .ground _ _ _ _ (fun _ => rfl) (fun _ => rfl) (fun _ => rfl)
    (by norm_num [PhaseSpec.Phase.rank]))) ?_
  refine congr (congrArg _ (key .climb _ _ _ _ (fun _ => rfl) (fun _ => rfl) (fun _ => rfl)
    (by norm_num [PhaseSpec.Phase.rank]))) ?_
  refine congr (congrArg _ (key .descent _ _ _ _ (fun _ => rfl) (fun _ => rfl) (fun _ => rfl)
    (by norm_num [PhaseSpec.Phase.rank]))) ?_
  refine congr (congrArg _ (key .cruise _ _ _ _ (fun _ => rfl) (fun _ => rfl) (fun _ => rfl)
    (by norm_num [PhaseSpec.Phase.rank]))) ?_
  refine congr (congrArg _ (key .level _ _ _ _ (fun _ => rfl) (fun _ => rfl) (fun _ => rfl)
    (by norm_num [PhaseSpec.Phase.rank]))) rfl

theorem mem_states (k : ℕ) (hk : k ≤ 5) : (k : ℝ) ∈ states := by
  unfold states arange
  refine List.mem_map.2 ⟨100 * k, List.mem_range.2 (by omega), ?_⟩
  push_cast; norm_num; ring

theorem bell_self (m s : ℝ) : bell m s m = 1 := by simp [bell]

theorem bell_ge_imp {m x : ℝ} (h : floor0 ≤ bell m 0.1 x) : |x - m| ≤ 0.3 := by
  unfold floor0 bell at h
  have h1 := Real.exp_le_exp.1 h
  have h2 : ((x - m) / 0.1) ^ 2 ≤ 3 ^ 2 := by linarith
  have h3 := sq_le_sq.1 h2
  rw [abs_div] at h3
  norm_num at h3
  rw [div_le_iff₀ (by norm_num)] at h3
  norm_num at h3 ⊢
  linarith

theorem pyRound_eq {x : ℝ} {k : ℤ} (h1 : (k : ℝ) ≤ x) (h2 : x < k + 1 / 2) : pyRound x = k := by
  have : ⌊x⌋ = k := Int.floor_eq_iff.2 ⟨h1, by linarith⟩
  unfold pyRound
  simp only [this]
  rw [if_pos (by linarith)]

theorem contains_lom : contains "lom".toList ("lom".toList.map Char.toLower) = true := by decide
theorem contains_mom : contains "mom".toList ("lom".toList.map Char.toLower) = false := by decide
theorem contains_som : contains "som".toList ("lom".toList.map Char.toLower) = false := by decide

theorem defuzz_lom (x m : List ℝ) (h : x.length = m.length) :
    defuzz x m "lom".toList = .ok (npMax (atMax x m)) := by
  unfold defuzz
  simp only [contains_lom, contains_mom, contains_som]
  simp [h]

theorem mem_atMax {xs : List ℝ} {f : ℝ → ℝ} {x : ℝ} :
    x ∈ atMax xs (xs.map f) ↔ x ∈ xs ∧ f x = npMax (xs.map f) := by
  unfold atMax
  rw [← List.map_prod_left_eq_zip]
  simp only [List.mem_map, List.mem_filter, decide_eq_true_eq]
  constructor
  · rintro ⟨p, ⟨⟨y, hy, rfl⟩, h⟩, rfl⟩
    exact ⟨hy, h⟩
  · rintro ⟨h1, h2⟩
    exact ⟨(x, f x), ⟨⟨x, h1, rfl⟩, h2⟩, rfl⟩

/-- The label of a window is that of its strongest phase. -/
theorem windowLabel_eq {alt spd roc : NR} {p : PhaseSpec.Phase}
    (hp : Strongest (strength alt spd roc) p) : windowLabel alt spd roc = .ok (lab p) := by
  set s := strength alt spd roc with hs
  have hM : floor0 ≤ s p := by
    obtain ⟨q, hq⟩ := some_strength alt spd roc
    exact hq.trans (hp q).1
  unfold windowLabel
  simp only [bind, Except.bind]
  have hagg : aggregated (rules (clamp altRange (clamp altRange alt))
      (clamp spdRange (clamp spdRange spd)) (clamp rocRange (clamp rocRange roc))) =
      states.map fun x => npMax (phases.map fun q => min (s q) (bell ((q.rank : ℝ) + 1) 0.1 x)) := by
    unfold aggregated
    apply List.map_congr_left
    intro x _
    rw [activations]
  rw [hagg]
  set F : ℝ → ℝ := fun x => npMax (phases.map fun q => min (s q) (bell ((q.rank : ℝ) + 1) 0.1 x))
    with hF
  rw [defuzz_lom _ _ (by simp)]
  have hmem : ((p.rank : ℝ) + 1) ∈ states := by
    have := mem_states (p.rank + 1) (by cases p <;> decide)
    push_cast at this; exact this
  have hle : ∀ x, F x ≤ s p := by
    intro x
    obtain ⟨q, -, e⟩ := List.mem_map.1 (npMax_mem (l := phases.map fun q =>
      min (s q) (bell ((q.rank : ℝ) + 1) 0.1 x)) (by simp [phases]))
    rw [hF]; simp only; rw [← e]
    exact (min_le_left _ _).trans (hp q).1
  have heq : F ((p.rank : ℝ) + 1) = s p := by
    apply le_antisymm (hle _)
    have : min (s p) (bell ((p.rank : ℝ) + 1) 0.1 ((p.rank : ℝ) + 1)) ∈
      (phases.map fun q => min (s q) (bell ((q.rank : ℝ) + 1) 0.1 ((p.rank : ℝ) + 1))) :=
      List.mem_map.2 ⟨p, mem_phases p, rfl⟩
    rw [bell_self, min_eq_left (strength_le_one alt spd roc p)] at this
    exact npMax_le this
  have hmax : npMax (states.map F) = s p := by
    apply npMax_eq (List.mem_map.2 ⟨_, hmem, heq⟩)
    intro y hy
    obtain ⟨x, -, rfl⟩ := List.mem_map.1 hy
    exact hle x
  have hin : ((p.rank : ℝ) + 1) ∈ atMax states (states.map F) :=
    mem_atMax.2 ⟨hmem, by rw [hmax, heq]⟩
  set x := npMax (atMax states (states.map F)) with hx
  have hx1 : (p.rank : ℝ) + 1 ≤ x := npMax_le hin
  have hx2 : F x = s p := by
    rw [← hmax]; exact (mem_atMax.1 (npMax_mem (List.ne_nil_of_mem hin))).2
  obtain ⟨q, -, e⟩ := List.mem_map.1 (npMax_mem (l := phases.map fun q =>
      min (s q) (bell ((q.rank : ℝ) + 1) 0.1 x)) (by simp [phases]))
  have e' : min (s q) (bell ((q.rank : ℝ) + 1) 0.1 x) = s p := by rw [e]; exact hx2
  have hq : s p ≤ s q := by rw [← e']; exact min_le_left _ _
  have hb : |x - ((q.rank : ℝ) + 1)| ≤ 0.3 :=
    bell_ge_imp (hM.trans (by rw [← e']; exact min_le_right _ _))
  have hb' := (abs_le.1 hb).2
  have hqr : q.rank ≤ p.rank := by
    by_contra hc
    have := (hp q).2 (by omega)
    linarith
  have hpr : p.rank = q.rank := by
    have : (p.rank : ℝ) < q.rank + 1 := by norm_num at hb'; linarith
    have : p.rank < q.rank + 1 := by exact_mod_cast this
    omega
  have hround : pyRound x = (p.rank + 1 : ℕ) := by
    apply pyRound_eq
    · push_cast; exact hx1
    · push_cast; rw [hpr]; norm_num at hb'; linarith
  simp only [hround]
  cases p <;> simp [PhaseSpec.Phase.rank, labelOf, lab]

end Verif.Phase
