import Verif.Props.Phase

/-!
# Degrees of membership: bounds
-/

namespace Verif.PhaseSpec
open Verif

/-! ## Interpolation between grid points -/

theorem grid_lo {d x : ℝ} (hd : 0 < d) {n : ℤ} (h : n * d ≤ x) : n * d ≤ ⌊x / d⌋ * d := by
  have : n ≤ ⌊x / d⌋ := Int.le_floor.2 ((le_div_iff₀ hd).2 h)
  have : (n:ℝ) ≤ ⌊x / d⌋ := by exact_mod_cast this
  exact mul_le_mul_of_nonneg_right this hd.le

theorem floor_mul_le {d x : ℝ} (hd : 0 < d) : ⌊x / d⌋ * d ≤ x :=
  (le_div_iff₀ hd).1 (Int.floor_le _)

theorem lt_floor_add {d x : ℝ} (hd : 0 < d) : x < (⌊x / d⌋ + 1) * d :=
  (div_lt_iff₀ hd).1 (Int.lt_floor_add_one _)

theorem grid_hi {d x : ℝ} (hd : 0 < d) {n : ℤ} (h : x ≤ n * d) :
    Int.fract (x / d) = 0 ∨ (⌊x / d⌋ + 1) * d ≤ n * d := by
  by_cases hx : x / d < n
  · right
    have : ⌊x / d⌋ + 1 ≤ n := Int.floor_lt.2 hx
    have : (⌊x / d⌋ : ℝ) + 1 ≤ n := by exact_mod_cast this
    exact mul_le_mul_of_nonneg_right this hd.le
  · left
    have : x / d = n := le_antisymm ((div_le_iff₀ hd).2 h) (not_lt.1 hx)
    rw [this, Int.fract_intCast]

/-- On a grid point the interpolated value is the value there. -/
theorem between_grid {d : ℝ} (hd : 0 < d) (f : ℝ → ℝ) (n : ℤ) : between d f (n * d) = f (n * d) := by
  unfold between
  have : (n:ℝ) * d / d = n := by field_simp
  rw [this, Int.fract_intCast, Int.floor_intCast]
  ring

/-- Interpolated values are between the extreme values of the surrounding grid points. -/
theorem between_mem {d : ℝ} (hd : 0 < d) {f : ℝ → ℝ} {x lo hi : ℝ} {a b : ℤ} (ha : a * d ≤ x)
    (hb : x ≤ b * d)
    (hf : ∀ y, a * d ≤ y → y ≤ b * d → |y - x| ≤ d → lo ≤ f y ∧ f y ≤ hi) :
    lo ≤ between d f x ∧ between d f x ≤ hi := by
  have t0 := Int.fract_nonneg (x / d)
  have t1 := (Int.fract_lt_one (x / d)).le
  have f1 := floor_mul_le (x := x) hd
  have f2 := lt_floor_add (x := x) hd
  have g1 := grid_lo hd ha
  have h1 := hf _ g1 (f1.trans hb) (by rw [abs_le]; constructor <;> linarith)
  unfold between
  generalize ht : Int.fract (x / d) = t at *
  rcases grid_hi hd hb with h0 | h0
  · rw [ht] at h0
    rw [h0]
    simpa using h1
  · have h2 := hf ((⌊x / d⌋ + 1) * d) (by linarith) h0 (by rw [abs_le]; constructor <;> linarith)
    constructor
    · nlinarith [mul_le_mul_of_nonneg_left h1.1 (sub_nonneg.2 t1), mul_le_mul_of_nonneg_left h2.1 t0]
    · nlinarith [mul_le_mul_of_nonneg_left h1.2 (sub_nonneg.2 t1), mul_le_mul_of_nonneg_left h2.2 t0]

/-- The same with a strict bound right of a grid point. -/
theorem between_lt {d : ℝ} (hd : 0 < d) {f : ℝ → ℝ} {x c : ℝ} {a : ℤ} (ha : a * d < x)
    (h0 : f (a * d) ≤ c) (hf : ∀ y, a * d < y → f y < c) : between d f x < c := by
  have t0 := Int.fract_nonneg (x / d)
  have t1 := (Int.fract_lt_one (x / d))
  have f1 := floor_mul_le (x := x) hd
  have f2 := lt_floor_add (x := x) hd
  have g1 := grid_lo hd ha.le
  have h2 := hf ((⌊x / d⌋ + 1) * d) (by linarith)
  have e : x = (⌊x / d⌋ + Int.fract (x / d)) * d := by rw [Int.floor_add_fract]; field_simp
  unfold between
  generalize ht : Int.fract (x / d) = t at *
  rcases g1.eq_or_lt with g | g
  · have hp : 0 < t := by
      rcases t0.eq_or_lt with h | h
      · rw [← h, add_zero, ← g] at e; linarith
      · exact h
    rw [← g]
    nlinarith [mul_le_mul_of_nonneg_left h0 (sub_nonneg.2 t1.le), mul_lt_mul_of_pos_left h2 hp]
  · have h1 := hf _ g
    nlinarith [mul_lt_mul_of_pos_left h1 (sub_pos.2 t1), mul_le_mul_of_nonneg_left h2.le t0]

/-- The same left of a grid point. -/
theorem between_lt' {d : ℝ} (hd : 0 < d) {f : ℝ → ℝ} {x c : ℝ} {a : ℤ} (ha : x < a * d)
    (h0 : f (a * d) ≤ c) (hf : ∀ y, y < a * d → f y < c) : between d f x < c := by
  have t0 := Int.fract_nonneg (x / d)
  have t1 := (Int.fract_lt_one (x / d))
  have f1 := floor_mul_le (x := x) hd
  have h1 := hf (⌊x / d⌋ * d) (by linarith)
  unfold between
  rcases grid_hi hd ha.le with h | h
  · rw [h]; simpa using h1
  · generalize ht : Int.fract (x / d) = t at *
    have h2 : f ((⌊x / d⌋ + 1) * d) ≤ c := by
      rcases h.eq_or_lt with g | g
      · rw [g]; exact h0
      · exact (hf _ g).le
    nlinarith [mul_lt_mul_of_pos_left h1 (sub_pos.2 t1), mul_le_mul_of_nonneg_left h2 t0]

/-! ## Curves -/

theorem bell_le_iff {m s x m' s' x' : ℝ} :
    bell m s x ≤ bell m' s' x' ↔ |(x' - m') / s'| ≤ |(x - m) / s| := by
  unfold bell
  rw [Real.exp_le_exp, neg_le_neg_iff, ← sq_le_sq]
  constructor <;> intro h <;> linarith

theorem bell_pos (m s x : ℝ) : 0 < bell m s x := Real.exp_pos _

theorem bell_le_one (m s x : ℝ) : bell m s x ≤ 1 := by
  unfold bell
  rw [Real.exp_le_one_iff]
  have := sq_nonneg ((x - m) / s)
  linarith

/-- The value of a bell curve `z` widths from its centre. -/
noncomputable def at_ (z : ℝ) : ℝ := Real.exp (-(z ^ 2 / 2))

theorem at_lt {z z' : ℝ} (h0 : 0 ≤ z) (h : z < z') : at_ z' < at_ z := by
  unfold at_
  rw [Real.exp_lt_exp, neg_lt_neg_iff]
  have := pow_lt_pow_left₀ h h0 two_ne_zero
  linarith

theorem at_le {z z' : ℝ} (h0 : 0 ≤ z) (h : z ≤ z') : at_ z' ≤ at_ z := by
  rcases h.eq_or_lt with rfl | h
  · exact le_rfl
  · exact (at_lt h0 h).le

theorem bell_at (m s x : ℝ) : bell m s x = at_ (|x - m| / s) := by
  unfold bell at_
  rw [div_pow, div_pow, sq_abs]

theorem bell_ge {m s x z : ℝ} (hs : 0 < s) (h : |x - m| ≤ z * s) : at_ z ≤ bell m s x := by
  rw [bell_at]
  exact at_le (by positivity) ((div_le_iff₀ hs).2 h)

theorem bell_le {m s x z : ℝ} (hs : 0 < s) (h0 : 0 ≤ z) (h : z * s ≤ |x - m|) :
    bell m s x ≤ at_ z := by
  rw [bell_at]
  exact at_le h0 ((le_div_iff₀ hs).2 h)

theorem bell_lt {m s x z : ℝ} (hs : 0 < s) (h0 : 0 ≤ z) (h : z * s < |x - m|) :
    bell m s x < at_ z := by
  rw [bell_at]
  exact at_lt h0 ((lt_div_iff₀ hs).2 h)

theorem rise_ge {x : ℝ} (h : 300 ≤ x) : 0.1 ≤ rise 10 1000 x := by
  unfold rise
  split_ifs with h1 h2 h3
  · linarith
  · norm_num
  · have : (290:ℝ) / 990 ≤ (x - 10) / (1000 - 10) := by
      rw [div_le_div_iff₀ (by norm_num) (by norm_num)]; linarith
    have := pow_le_pow_left₀ (by norm_num) this 2
    norm_num at *
    linarith
  · have h4 : (1000 - x) / (1000 - 10) ≤ (1:ℝ) / 2 := by
      rw [div_le_div_iff₀ (by norm_num) (by norm_num)]; linarith
    have h5 : 0 ≤ (1000 - x) / (1000 - 10) := by
      have : 0 ≤ 1000 - x := by linarith
      positivity
    have := pow_le_pow_left₀ h5 h4 2
    norm_num at *
    linarith

theorem rise_mem {a b : ℝ} (hab : a < b) (x : ℝ) : 0 ≤ rise a b x ∧ rise a b x ≤ 1 := by
  have hp : 0 < b - a := by linarith
  unfold rise
  split_ifs with h1 h2 h3
  · norm_num
  · norm_num
  · have h4 : (x - a) / (b - a) ≤ (1:ℝ) / 2 := by rw [div_le_div_iff₀ hp (by norm_num)]; linarith
    have h5 : 0 ≤ (x - a) / (b - a) := div_nonneg (by linarith) hp.le
    have := pow_le_pow_left₀ h5 h4 2
    constructor
    · positivity
    · linarith
  · push Not at h1 h2 h3
    have h4 : (b - x) / (b - a) ≤ (1:ℝ) / 2 := by rw [div_le_div_iff₀ hp (by norm_num)]; linarith
    have h5 : 0 ≤ (b - x) / (b - a) := div_nonneg (by linarith) hp.le
    have := pow_le_pow_left₀ h5 h4 2
    constructor
    · linarith
    · have := sq_nonneg ((b - x) / (b - a)); linarith

/-- Sharp half-steps: a descent rate of at least 300 ft/min. -/
theorem fall_ge {x : ℝ} (h : x ≤ -300) : 0.1 ≤ fall (-1000) (-10) x := by
  unfold fall rise
  split_ifs with h1 h2 h3
  · norm_num
  · linarith
  · have h4 : (x - -1000) / (-10 - -1000) ≤ (1:ℝ) / 2 := by
      rw [div_le_div_iff₀ (by norm_num) (by norm_num)]; linarith
    have h5 : 0 ≤ (x - -1000) / (-10 - -1000) := by
      have : 0 ≤ x - -1000 := by linarith
      positivity
    have := pow_le_pow_left₀ h5 h4 2
    norm_num at *
    linarith
  · have : (290:ℝ) / 990 ≤ (-10 - x) / (-10 - -1000) := by
      rw [div_le_div_iff₀ (by norm_num) (by norm_num)]; linarith
    have := pow_le_pow_left₀ (by norm_num) this 2
    norm_num at *
    linarith

/-! ## Degrees -/

theorem altLo_mem (h : ℝ) : at_ 3 ≤ between 1 (bell 10000 10000) (max (min h 39999) 0) := by
  refine (between_mem (a := 0) (b := 39999) (hi := 1) one_pos (by simp) (by simp) ?_).1
  intro y h1 h2 _
  refine ⟨bell_ge (by norm_num) ?_, bell_le_one _ _ _⟩
  push_cast at h1 h2
  rw [abs_le]
  constructor <;> linarith

theorem spdMd_mem (v : ℝ) : at_ 3 ≤ between 1 (bell 300 100) (max (min v 599) 0) := by
  refine (between_mem (a := 0) (b := 599) (hi := 1) one_pos (by simp) (by simp) ?_).1
  intro y h1 h2 _
  refine ⟨bell_ge (by norm_num) ?_, bell_le_one _ _ _⟩
  push_cast at h1 h2
  rw [abs_le]
  constructor <;> linarith

theorem at_three : at_ 3 ≤ 0.1 := by
  unfold at_
  have h1 : (2.5:ℝ) ≤ Real.exp 1.5 := by
    have := Real.add_one_le_exp (1.5:ℝ); norm_num at *; linarith
  have h2 : (10:ℝ) ≤ Real.exp 4.5 := by
    have e : (4.5:ℝ) = 1.5 + 1.5 + 1.5 := by norm_num
    rw [e, Real.exp_add, Real.exp_add]
    nlinarith [mul_le_mul h1 h1 (by norm_num) (by positivity),
      mul_le_mul (mul_le_mul h1 h1 (by norm_num) (by positivity)) h1 (by norm_num) (by positivity)]
  have e : (-((3:ℝ) ^ 2 / 2)) = -4.5 := by norm_num
  rw [e, Real.exp_neg]
  rw [inv_le_comm₀ (Real.exp_pos _) (by norm_num)]
  norm_num at *
  linarith

theorem at_pos (z : ℝ) : 0 < at_ z := Real.exp_pos _

/-- Degrees of a rate of climb above 300 ft/min. -/
theorem roc_up {w : ℝ} (hw : 300 < w) : 0.1 ≤ rocDegree .climb w ∧
    ∀ q, q ≠ .climb → rocDegree q w < at_ 3 := by
  have hx : 300 < max (min w 3999.9) (-4000) := lt_max_of_lt_left (lt_min hw (by norm_num))
  have hx' : max (min w 3999.9) (-4000) ≤ 3999.9 := max_le (min_le_right _ _) (by norm_num)
  constructor
  · refine (between_mem (a := 3000) (b := 39999) (hi := 1) (by norm_num) ?_ ?_ ?_).1
    · push_cast; linarith
    · push_cast; linarith
    · intro y h1 _ _
      push_cast at h1
      exact ⟨rise_ge (by linarith), (rise_mem (by norm_num) y).2⟩
  · have zero : between 0.1 (bell 0 100) (max (min w 3999.9) (-4000)) < at_ 3 := by
      refine between_lt (a := 3000) (by norm_num) (by push_cast; linarith) ?_ ?_
      · exact bell_le (by norm_num) (by norm_num) (by norm_num)
      · intro y hy
        push_cast at hy
        refine bell_lt (by norm_num) (by norm_num) ?_
        have := le_abs_self (y - 0)
        linarith
    intro q hq
    cases q with
    | climb => exact absurd rfl hq
    | descent =>
      refine lt_of_le_of_lt (between_mem (f := fall (-1000) (-10)) (a := 3000) (b := 39999) (lo := 0)
        (hi := 0) (by norm_num) ?_ ?_ ?_).2 (at_pos 3)
      · push_cast; linarith
      · push_cast; linarith
      · intro y h1 _ _
        push_cast at h1
        unfold fall rise
        rw [if_neg (by linarith), if_pos (by linarith)]
        norm_num
    | ground => exact zero
    | cruise => exact zero
    | level => exact zero

/-- Degrees of a rate of descent above 300 ft/min. -/
theorem roc_down {w : ℝ} (hw : w < -300) : 0.1 ≤ rocDegree .descent w ∧
    ∀ q, q ≠ .descent → rocDegree q w < at_ 3 := by
  have hx : max (min w 3999.9) (-4000) < -300 := max_lt (min_lt_of_left_lt hw) (by norm_num)
  have hx' : -4000 ≤ max (min w 3999.9) (-4000) := le_max_right _ _
  constructor
  · refine (between_mem (a := -40000) (b := -3000) (hi := 1) (by norm_num) ?_ ?_ ?_).1
    · push_cast; linarith
    · push_cast; linarith
    · intro y _ h1 _
      push_cast at h1
      refine ⟨fall_ge (by linarith), ?_⟩
      have := (rise_mem (a := -1000) (b := -10) (by norm_num) y).1
      unfold fall
      linarith
  · have zero : between 0.1 (bell 0 100) (max (min w 3999.9) (-4000)) < at_ 3 := by
      refine between_lt' (a := -3000) (by norm_num) (by push_cast; linarith) ?_ ?_
      · exact bell_le (by norm_num) (by norm_num) (by norm_num)
      · intro y hy
        push_cast at hy
        refine bell_lt (by norm_num) (by norm_num) ?_
        have := neg_abs_le (y - 0)
        linarith
    intro q hq
    cases q with
    | descent => exact absurd rfl hq
    | climb =>
      refine lt_of_le_of_lt (between_mem (f := rise 10 1000) (a := -40000) (b := -3000) (lo := 0)
        (hi := 0) (by norm_num) ?_ ?_ ?_).2 (at_pos 3)
      · push_cast; linarith
      · push_cast; linarith
      · intro y _ h1 _
        push_cast at h1
        unfold rise
        rw [if_pos (by linarith)]
        norm_num
    | ground => exact zero
    | cruise => exact zero
    | level => exact zero

theorem strongest_of_roc {h w : ℝ} {spd : NR} {p : Phase} (hp : p = .climb ∨ p = .descent)
    (h1 : 0.1 ≤ rocDegree p w) (h2 : ∀ q, q ≠ p → rocDegree q w < at_ 3) :
    Strongest (strength (.val h) spd (.val w)) p := by
  have big : at_ 3 ≤ strength (.val h) spd (.val w) p := by
    have ha : at_ 3 ≤ altDegree p h := by rcases hp with rfl | rfl <;> exact altLo_mem h
    have hv : at_ 3 ≤ orFull (spdDegree p) spd := by
      cases spd with
      | nan => exact at_three.trans (by show (0.1:ℝ) ≤ 1; norm_num)
      | val v => rcases hp with rfl | rfl <;> exact spdMd_mem v
    exact le_min ha (le_min (at_three.trans h1) hv)
  have small : ∀ q, q ≠ p → strength (.val h) spd (.val w) q < at_ 3 := fun q hq =>
    lt_of_le_of_lt ((min_le_right _ _).trans (min_le_left _ _)) (h2 q hq)
  intro q
  by_cases hq : q = p
  · subst hq
    exact ⟨le_rfl, fun h => absurd h (lt_irrefl _)⟩
  · have := (small q hq).trans_le big
    exact ⟨this.le, fun _ => this⟩

/-! ## Level flight -/

/-- Degrees of a rate between -10 and 10 ft/min. -/
theorem roc_level {w : ℝ} (h1 : -10 ≤ w) (h2 : w ≤ 10) :
    rocDegree .climb w = 0 ∧ rocDegree .descent w = 0 ∧ at_ 0.1 ≤ rocDegree .level w ∧
    rocDegree .cruise w = rocDegree .level w ∧ rocDegree .ground w = rocDegree .level w := by
  have e : max (min w 3999.9) (-4000) = w := by
    rw [min_eq_left (by linarith), max_eq_left (by linarith)]
  unfold rocDegree
  rw [e]
  have ha : ((-100 : ℤ) : ℝ) * 0.1 ≤ w := by push_cast; linarith
  have hb : w ≤ ((100 : ℤ) : ℝ) * 0.1 := by push_cast; linarith
  refine ⟨?_, ?_, ?_, rfl, rfl⟩
  · have := between_mem (f := rise 10 1000) (lo := 0) (hi := 0) (by norm_num) ha hb (fun y _ h _ => by
      push_cast at h
      unfold rise
      rw [if_pos (by linarith)]
      norm_num)
    exact le_antisymm this.2 this.1
  · have := between_mem (f := fall (-1000) (-10)) (lo := 0) (hi := 0) (by norm_num) ha hb
      (fun y h _ _ => by
        push_cast at h
        unfold fall rise
        rw [if_neg (by linarith), if_pos (by linarith)]
        norm_num)
    exact le_antisymm this.2 this.1
  · refine (between_mem (f := bell 0 100) (hi := 1) (by norm_num) ha hb ?_).1
    intro y h1 h2 _
    push_cast at h1 h2
    refine ⟨bell_ge (by norm_num) ?_, bell_le_one _ _ _⟩
    rw [abs_le]
    constructor <;> linarith

theorem altGnd_zero {h : ℝ} (h1 : 200 ≤ h) : altDegree .ground h = 0 := by
  have := between_mem (f := fall 0 200) (x := max (min h 39999) 0) (a := 200) (b := 39999)
    (lo := 0) (hi := 0) one_pos
    (by push_cast; linarith [le_max_left (min h 39999) 0, le_min h1 (by norm_num : (200:ℝ) ≤ 39999)])
    (by simp) (fun y h _ _ => by
      push_cast at h
      unfold fall rise
      rw [if_neg (by linarith), if_pos (by linarith)]
      norm_num)
  exact le_antisymm this.2 this.1

/-- Interpolated bell curves, with a tolerance. -/
theorem bell_near {m s x : ℝ} (hs : 100 ≤ s) {a b : ℤ} (ha : a ≤ x) (hb : x ≤ b) :
    at_ (|x - m| / s + 0.01) ≤ between 1 (bell m s) x ∧
    (∀ z, 0 ≤ z → z + 0.01 ≤ |x - m| / s → between 1 (bell m s) x ≤ at_ z) := by
  have hs0 : 0 < s := by linarith
  constructor
  · refine (between_mem (a := a) (b := b) (hi := 1) one_pos (by simpa using ha) (by simpa using hb)
      ?_).1
    intro y _ _ h
    refine ⟨bell_ge hs0 ?_, bell_le_one _ _ _⟩
    have h2 : |y - m| ≤ |x - m| + |y - x| := by
      have := abs_add_le (x - m) (y - x)
      rwa [show x - m + (y - x) = y - m by ring, ] at this
    rw [add_mul, div_mul_cancel₀ _ hs0.ne']
    linarith
  · intro z hz h
    refine (between_mem (a := a) (b := b) (lo := 0) one_pos (by simpa using ha) (by simpa using hb)
      ?_).2
    intro y _ _ h'
    refine ⟨(bell_pos _ _ _).le, bell_le hs0 hz ?_⟩
    have h2 : |x - m| ≤ |y - m| + |y - x| := by
      have := abs_sub_abs_le_abs_sub (x - m) (y - m)
      rw [show x - m - (y - m) = -(y - x) by ring, abs_neg] at this
      linarith
    rw [le_div_iff₀ hs0] at h
    nlinarith

/-- How far a level sample is from the centre of the cruise rule, in widths. -/
theorem cruise_wins {Ac Sc Al Sl r zc zl : ℝ} (hl : min Al Sl ≤ at_ zl) (hc : at_ zc ≤ min Ac Sc)
    (h0 : 0 ≤ zc) (h : zc < zl) (h1 : 0.1 < zl) (hr : at_ 0.1 ≤ r) :
    min Al (min r Sl) < min Ac (min r Sc) := by
  have e : min Al (min r Sl) ≤ min Al Sl := min_le_min_left _ (min_le_right _ _)
  have a := (e.trans hl).trans_lt (at_lt h0 h)
  refine lt_min (a.trans_le (hc.trans (min_le_left _ _))) (lt_min ?_
    (a.trans_le (hc.trans (min_le_right _ _))))
  exact ((e.trans hl).trans_lt (at_lt (by norm_num) h1)).trans_le hr

theorem level_wins {Ac Sc Al Sl r zc zl : ℝ} (hc : min Ac Sc ≤ at_ zc) (hl : at_ zl ≤ min Al Sl)
    (h0 : 0 ≤ zl) (h : zl ≤ zc) : min Ac (min r Sc) ≤ min Al (min r Sl) := by
  have k := (hc.trans (at_le h0 h)).trans hl
  have e : min Ac (min r Sc) ≤ min Ac Sc := min_le_min_left _ (min_le_right _ _)
  exact le_min ((e.trans k).trans (min_le_left _ _)) (le_min ((min_le_right _ _).trans (min_le_left _ _))
    ((e.trans k).trans (min_le_right _ _)))

/-- Only cruise and level flight are possible at a small vertical rate above 200 ft. -/
theorem level_strengths {h v w : ℝ} (hh : 200 ≤ h) (h1 : -10 ≤ w) (h2 : w ≤ 10) :
    strength (.val h) (.val v) (.val w) .ground = 0 ∧ strength (.val h) (.val v) (.val w) .climb = 0 ∧
    strength (.val h) (.val v) (.val w) .descent = 0 ∧
    0 < strength (.val h) (.val v) (.val w) .level ∧
    strength (.val h) (.val v) (.val w) .cruise =
      min (altDegree .cruise h) (min (rocDegree .level w) (spdDegree .cruise v)) ∧
    strength (.val h) (.val v) (.val w) .level =
      min (altDegree .level h) (min (rocDegree .level w) (spdDegree .level v)) := by
  obtain ⟨r1, r2, r3, r4, r5⟩ := roc_level h1 h2
  have hA : 0 < altDegree .level h := (at_pos 3).trans_le (altLo_mem h)
  have hS : 0 < spdDegree .level v := (at_pos 3).trans_le (spdMd_mem v)
  have hSg : 0 ≤ spdDegree .ground v := (between_mem (f := bell 0 50) (a := 0) (b := 599) (hi := 1)
    one_pos (by simp) (by simp) (fun y _ _ _ => ⟨(bell_pos _ _ _).le, bell_le_one _ _ _⟩)).1
  have hr : 0 < rocDegree .level w := (at_pos _).trans_le r3
  refine ⟨?_, ?_, ?_, lt_min hA (lt_min hr hS), ?_, rfl⟩
  · show min (altDegree .ground h) (min (rocDegree .ground w) (spdDegree .ground v)) = 0
    rw [altGnd_zero hh, r5, min_eq_left]
    exact le_min hr.le hSg
  · show min (altDegree .level h) (min (rocDegree .climb w) (spdDegree .level v)) = 0
    rw [r1, min_eq_left hS.le, min_eq_right hA.le]
  · show min (altDegree .level h) (min (rocDegree .descent w) (spdDegree .level v)) = 0
    rw [r2, min_eq_left hS.le, min_eq_right hA.le]
  · show min (altDegree .cruise h) (min (rocDegree .cruise w) (spdDegree .cruise v)) = _
    rw [r4]

theorem strongest_cruise {h v w : ℝ} (hh : 200 ≤ h) (h1 : -10 ≤ w) (h2 : w ≤ 10) :
    (strength (.val h) (.val v) (.val w) .level < strength (.val h) (.val v) (.val w) .cruise →
      Strongest (strength (.val h) (.val v) (.val w)) .cruise) ∧
    (strength (.val h) (.val v) (.val w) .cruise ≤ strength (.val h) (.val v) (.val w) .level →
      Strongest (strength (.val h) (.val v) (.val w)) .level) := by
  obtain ⟨e1, e2, e3, e4, -, -⟩ := level_strengths (v := v) hh h1 h2
  constructor
  · intro h q
    have := e4.trans h
    cases q with
    | ground => rw [e1]; exact ⟨this.le, fun _ => this⟩
    | climb => rw [e2]; exact ⟨this.le, fun _ => this⟩
    | descent => rw [e3]; exact ⟨this.le, fun _ => this⟩
    | cruise => exact ⟨le_rfl, fun h => absurd h (lt_irrefl _)⟩
    | level => exact ⟨h.le, fun _ => h⟩
  · intro h q
    cases q with
    | ground => rw [e1]; exact ⟨e4.le, fun _ => e4⟩
    | climb => rw [e2]; exact ⟨e4.le, fun _ => e4⟩
    | descent => rw [e3]; exact ⟨e4.le, fun _ => e4⟩
    | cruise => exact ⟨h, fun h => absurd h (by decide)⟩
    | level => exact ⟨le_rfl, fun h => absurd h (lt_irrefl _)⟩

/-- A sample cannot be close to the centres of both rules. -/
theorem far_apart {H V zc zl : ℝ} (hc : zc = max (|H - 35000| / 20000) (|V - 600| / 100))
    (hl : zl = max (|H - 10000| / 10000) (|V - 300| / 100)) (h : zc < zl) : 0.2 < zl := by
  by_contra hn
  push Not at hn
  have h1 : |H - 10000| / 10000 ≤ 0.2 := (le_max_left _ _).trans (hl ▸ hn)
  have h2 : |H - 35000| / 20000 ≤ 0.2 := (le_max_left _ _).trans (hc ▸ (h.le.trans hn))
  rw [div_le_iff₀ (by norm_num), abs_le] at h1 h2
  linarith [h1.2, h2.1]

/-- Cruise against level flight, up to a tolerance, and exactly on whole feet and knots. -/
theorem level_or_cruise {h v w : ℝ} (hh : 200 ≤ h) (h1 : -10 ≤ w) (h2 : w ≤ 10) {zc zl : ℝ}
    (hc : zc = max (|max (min h 39999) 0 - 35000| / 20000) (|max (min v 599) 0 - 600| / 100))
    (hl : zl = max (|max (min h 39999) 0 - 10000| / 10000) (|max (min v 599) 0 - 300| / 100)) :
    (zc + 0.02 < zl → Strongest (strength (.val h) (.val v) (.val w)) .cruise) ∧
    (zl + 0.02 ≤ zc → Strongest (strength (.val h) (.val v) (.val w)) .level) ∧
    (∀ a b : ℤ, h = a → v = b →
      (zc < zl → Strongest (strength (.val h) (.val v) (.val w)) .cruise) ∧
      (zl ≤ zc → Strongest (strength (.val h) (.val v) (.val w)) .level)) := by
  obtain ⟨-, -, -, -, eC, eL⟩ := level_strengths (v := v) hh h1 h2
  obtain ⟨sC, sL⟩ := strongest_cruise (v := v) hh h1 h2
  rw [eC, eL] at sC sL
  have hr := (roc_level h1 h2).2.2.1
  have zc0 : 0 ≤ zc := by rw [hc]; positivity
  have zl0 : 0 ≤ zl := by rw [hl]; positivity
  have far := far_apart hc hl
  obtain ⟨x, hx⟩ : ∃ x, x = max (min h 39999) 0 := ⟨_, rfl⟩
  obtain ⟨y, hy⟩ : ∃ y, y = max (min v 599) 0 := ⟨_, rfl⟩
  have a1 : ((0:ℤ):ℝ) ≤ x := by rw [hx]; simp
  have a2 : x ≤ ((39999:ℤ):ℝ) := by rw [hx]; simp
  have b1 : ((0:ℤ):ℝ) ≤ y := by rw [hy]; simp
  have b2 : y ≤ ((599:ℤ):ℝ) := by rw [hy]; simp
  unfold altDegree spdDegree at sC sL
  simp only at sC sL
  rw [← hx, ← hy] at sC sL hc hl
  obtain ⟨p1, p2⟩ := bell_near (m := 35000) (s := 20000) (by norm_num) a1 a2
  obtain ⟨q1, q2⟩ := bell_near (m := 600) (s := 100) (by norm_num) b1 b2
  obtain ⟨p3, p4⟩ := bell_near (m := 10000) (s := 10000) (by norm_num) a1 a2
  obtain ⟨q3, q4⟩ := bell_near (m := 300) (s := 100) (by norm_num) b1 b2
  have c1 : |x - 35000| / 20000 ≤ zc := hc ▸ le_max_left _ _
  have c2 : |y - 600| / 100 ≤ zc := hc ▸ le_max_right _ _
  have l1 : |x - 10000| / 10000 ≤ zl := hl ▸ le_max_left _ _
  have l2 : |y - 300| / 100 ≤ zl := hl ▸ le_max_right _ _
  refine ⟨fun k => ?_, fun k => ?_, ?_⟩
  · have hf := far (by linarith)
    refine sC (cruise_wins (zc := zc + 0.01) (zl := zl - 0.01) ?_ ?_ (by linarith) (by linarith)
      (by linarith) hr)
    · rcases max_cases (|x - 10000| / 10000) (|y - 300| / 100) with ⟨e, -⟩ | ⟨e, -⟩
      · exact (min_le_left _ _).trans (p4 _ (by linarith) (by rw [← e, ← hl]; linarith))
      · exact (min_le_right _ _).trans (q4 _ (by linarith) (by rw [← e, ← hl]; linarith))
    · exact le_min ((at_le (by positivity) (by linarith)).trans p1)
        ((at_le (by positivity) (by linarith)).trans q1)
  · refine sL (level_wins (zc := zc - 0.01) (zl := zl + 0.01) ?_ ?_ (by linarith) (by linarith))
    · rcases max_cases (|x - 35000| / 20000) (|y - 600| / 100) with ⟨e, -⟩ | ⟨e, -⟩
      · exact (min_le_left _ _).trans (p2 _ (by linarith) (by rw [← e, ← hc]; linarith))
      · exact (min_le_right _ _).trans (q2 _ (by linarith) (by rw [← e, ← hc]; linarith))
    · exact le_min ((at_le (by positivity) (by linarith)).trans p3)
        ((at_le (by positivity) (by linarith)).trans q3)
  · intro a b ha hb
    have gx : x = ((max (min a 39999) 0 : ℤ) : ℝ) := by rw [hx, ha]; push_cast; rfl
    have gy : y = ((max (min b 599) 0 : ℤ) : ℝ) := by rw [hy, hb]; push_cast; rfl
    have grid : ∀ (n : ℤ) (m s : ℝ), between 1 (bell m s) n = at_ (|(n:ℝ) - m| / s) := by
      intro n m s
      have := between_grid one_pos (bell m s) n
      rw [mul_one] at this
      rw [this, bell_at]
    have minat : ∀ {s t : ℝ}, 0 ≤ s → 0 ≤ t → min (at_ s) (at_ t) = at_ (max s t) := by
      intro s t hs ht
      rcases le_total s t with h | h
      · rw [max_eq_right h, min_eq_right (at_le hs h)]
      · rw [max_eq_left h, min_eq_left (at_le ht h)]
    have eC : min (between 1 (bell 35000 20000) x) (between 1 (bell 600 100) y) = at_ zc := by
      rw [hc, gx, gy, grid, grid, minat (by positivity) (by positivity)]
    have eL : min (between 1 (bell 10000 10000) x) (between 1 (bell 300 100) y) = at_ zl := by
      rw [hl, gx, gy, grid, grid, minat (by positivity) (by positivity)]
    exact ⟨fun k => sC (cruise_wins eL.le eC.ge zc0 k (by linarith [far k]) hr),
      fun k => sL (level_wins eC.le eL.ge zl0 k)⟩

/-! ## Means -/

theorem mean_gt {data : List NR} {s : Finset ℕ} (hs : s.Nonempty) {lo : ℝ}
    (h : ∀ j ∈ s, ∃ x, data[j]? = some (.val x) ∧ lo < x) :
    ∃ m, mean data s = .val m ∧ lo < m := by
  have hg : ∀ j ∈ s, ∃ x, data.getD j .nan = .val x ∧ lo < x := by
    intro j hj
    obtain ⟨x, e, hx⟩ := h j hj
    exact ⟨x, by rw [List.getD_eq_getElem?_getD, e]; rfl, hx⟩
  have hno : ¬ ∃ i ∈ s, data.getD i .nan = .nan := by
    rintro ⟨i, hi, e⟩
    obtain ⟨x, e', -⟩ := hg i hi
    rw [e] at e'
    cases e'
  have hc : (0:ℝ) < s.card := by exact_mod_cast hs.card_pos
  unfold mean
  rw [if_neg hno]
  refine ⟨_, rfl, ?_⟩
  rw [lt_div_iff₀ hc]
  have := Finset.sum_lt_sum_of_nonempty hs (f := fun _ => lo)
    (g := fun i => number (data.getD i .nan)) (fun i hi => by
      obtain ⟨x, e, h1⟩ := hg i hi
      rw [e]; exact h1)
  rw [Finset.sum_const, nsmul_eq_mul] at this
  linarith

theorem mean_lt {data : List NR} {s : Finset ℕ} (hs : s.Nonempty) {hi : ℝ}
    (h : ∀ j ∈ s, ∃ x, data[j]? = some (.val x) ∧ x < hi) :
    ∃ m, mean data s = .val m ∧ m < hi := by
  have hg : ∀ j ∈ s, ∃ x, data.getD j .nan = .val x ∧ x < hi := by
    intro j hj
    obtain ⟨x, e, hx⟩ := h j hj
    exact ⟨x, by rw [List.getD_eq_getElem?_getD, e]; rfl, hx⟩
  have hno : ¬ ∃ i ∈ s, data.getD i .nan = .nan := by
    rintro ⟨i, hi, e⟩
    obtain ⟨x, e', -⟩ := hg i hi
    rw [e] at e'
    cases e'
  have hc : (0:ℝ) < s.card := by exact_mod_cast hs.card_pos
  unfold mean
  rw [if_neg hno]
  refine ⟨_, rfl, ?_⟩
  rw [div_lt_iff₀ hc]
  have := Finset.sum_lt_sum_of_nonempty hs (g := fun _ => hi)
    (f := fun i => number (data.getD i .nan)) (fun i hi => by
      obtain ⟨x, e, h1⟩ := hg i hi
      rw [e]; exact h1)
  rw [Finset.sum_const, nsmul_eq_mul] at this
  linarith

theorem mean_ge {data : List NR} {s : Finset ℕ} (hs : s.Nonempty) {lo : ℝ}
    (h : ∀ j ∈ s, ∃ x, data[j]? = some (.val x) ∧ lo ≤ x) :
    ∃ m, mean data s = .val m ∧ lo ≤ m := by
  have : ∀ j ∈ s, ∃ x, data[j]? = some (.val x) ∧ lo - 1 < x := by
    intro j hj
    obtain ⟨x, e, hx⟩ := h j hj
    exact ⟨x, e, by linarith⟩
  obtain ⟨m, e, -⟩ := mean_gt hs this
  refine ⟨m, e, ?_⟩
  by_contra hn
  push Not at hn
  have : ∀ j ∈ s, ∃ x, data[j]? = some (.val x) ∧ m < x := by
    intro j hj
    obtain ⟨x, e, hx⟩ := h j hj
    exact ⟨x, e, by linarith⟩
  obtain ⟨m', e', h'⟩ := mean_gt hs this
  rw [e] at e'
  cases e'
  exact lt_irrefl _ h'

theorem mean_le {data : List NR} {s : Finset ℕ} (hs : s.Nonempty) {hi : ℝ}
    (h : ∀ j ∈ s, ∃ x, data[j]? = some (.val x) ∧ x ≤ hi) :
    ∃ m, mean data s = .val m ∧ m ≤ hi := by
  have : ∀ j ∈ s, ∃ x, data[j]? = some (.val x) ∧ x < hi + 1 := by
    intro j hj
    obtain ⟨x, e, hx⟩ := h j hj
    exact ⟨x, e, by linarith⟩
  obtain ⟨m, e, -⟩ := mean_lt hs this
  refine ⟨m, e, ?_⟩
  by_contra hn
  push Not at hn
  have : ∀ j ∈ s, ∃ x, data[j]? = some (.val x) ∧ x < m := by
    intro j hj
    obtain ⟨x, e, hx⟩ := h j hj
    exact ⟨x, e, by linarith⟩
  obtain ⟨m', e', h'⟩ := mean_lt hs this
  rw [e] at e'
  cases e'
  exact lt_irrefl _ h'

theorem mean_val {data : List NR} {s : Finset ℕ} (hs : s.Nonempty)
    (h : ∀ j ∈ s, ∃ x, data[j]? = some (.val x)) : ∃ m, mean data s = .val m := by
  obtain ⟨x, hx⟩ : ∃ b : ℝ, ∀ j ∈ s, b ≤ number (data.getD j .nan) := by
    obtain ⟨i, -, hi⟩ := s.exists_min_image (fun j => number (data.getD j .nan)) hs
    exact ⟨_, hi⟩
  obtain ⟨m, e, -⟩ := mean_ge hs (lo := x) (data := data) (fun j hj => by
    obtain ⟨y, e⟩ := h j hj
    refine ⟨y, e, ?_⟩
    have := hx j hj
    rwa [List.getD_eq_getElem?_getD, e] at this)
  exact ⟨m, e⟩

theorem mean_both {data : List NR} {s : Finset ℕ} (hs : s.Nonempty) {lo hi : ℝ}
    (h : ∀ j ∈ s, ∃ x, data[j]? = some (.val x) ∧ lo ≤ x ∧ x ≤ hi) :
    ∃ m, mean data s = .val m ∧ lo ≤ m ∧ m ≤ hi := by
  obtain ⟨m, e, h1⟩ := mean_ge hs fun j hj => (h j hj).imp fun _ k => ⟨k.1, k.2.1⟩
  obtain ⟨m', e', h2⟩ := mean_le hs fun j hj => (h j hj).imp fun _ k => ⟨k.1, k.2.2⟩
  rw [e] at e'
  cases e'
  exact ⟨m, e, h1, h2⟩

/-! ## Slow level flight and the runway -/

theorem slow_level {h v w : ℝ} (hh : 200 ≤ h) (hv : v ≤ 300) (h1 : -10 ≤ w) (h2 : w ≤ 10) :
    Strongest (strength (.val h) (.val v) (.val w)) .level := by
  obtain ⟨-, -, -, -, eC, eL⟩ := level_strengths (v := v) hh h1 h2
  refine (strongest_cruise (v := v) hh h1 h2).2 ?_
  rw [eC, eL]
  have hx : max (min v 599) 0 ≤ 300 := max_le ((min_le_left _ _).trans hv) (by norm_num)
  have hs : spdDegree .cruise v ≤ at_ 3 := by
    refine (between_mem (f := bell 600 100) (a := 0) (b := 300) (lo := 0) one_pos (by simp)
      (by push_cast; linarith) ?_).2
    intro y _ h _
    push_cast at h
    refine ⟨(bell_pos _ _ _).le, bell_le (by norm_num) (by norm_num) ?_⟩
    rw [abs_of_neg (by linarith)]
    linarith
  exact level_wins (zc := 3) (zl := 3) ((min_le_right _ _).trans hs)
    (le_min (altLo_mem h) (spdMd_mem v)) (by norm_num) le_rfl

theorem runway_alt {h : ℝ} (hh : h ≤ 0) : altDegree .ground h = 1 ∧ altDegree .level h = at_ 1 := by
  have e : max (min h 39999) 0 = ((0:ℤ):ℝ) * 1 := by
    rw [max_eq_right ((min_le_left _ _).trans hh)]; norm_num
  unfold altDegree
  rw [e, between_grid one_pos, between_grid one_pos]
  constructor
  · unfold fall rise
    norm_num
  · show bell 10000 10000 _ = _
    rw [bell_at]
    norm_num

/-- On a runway at sea level. -/
theorem runway {h v w : ℝ} (hh : h ≤ 0) (h1 : -10 ≤ w) (h2 : w ≤ 10) :
    (v < 100 → Strongest (strength (.val h) (.val v) (.val w)) .ground) ∧
    (100 ≤ v → v ≤ 300 → Strongest (strength (.val h) (.val v) (.val w)) .level) := by
  obtain ⟨r1, r2, r3, r4, r5⟩ := roc_level h1 h2
  obtain ⟨a1, a2⟩ := runway_alt hh
  have sC : strength (.val h) (.val v) (.val w) .climb ≤ 0 := by
    have : strength (.val h) (.val v) (.val w) .climb ≤ rocDegree .climb w :=
      (min_le_right _ _).trans (min_le_left _ _)
    rwa [r1] at this
  have sD : strength (.val h) (.val v) (.val w) .descent ≤ 0 := by
    have : strength (.val h) (.val v) (.val w) .descent ≤ rocDegree .descent w :=
      (min_le_right _ _).trans (min_le_left _ _)
    rwa [r2] at this
  constructor
  · intro hv
    have hx : max (min v 599) 0 < 100 := max_lt ((min_le_left _ _).trans_lt hv) (by norm_num)
    have g : at_ 2 ≤ spdDegree .ground v := by
      refine (between_mem (f := bell 0 50) (a := 0) (b := 100) (hi := 1) one_pos (by simp)
        (by push_cast; linarith) ?_).1
      intro y h0 h _
      push_cast at h h0
      refine ⟨bell_ge (by norm_num) ?_, bell_le_one _ _ _⟩
      rw [abs_le]
      constructor <;> linarith
    have l : spdDegree .level v < at_ 2 := by
      refine between_lt' (f := bell 300 100) (a := 100) one_pos (by push_cast; linarith) ?_ ?_
      · exact bell_le (by norm_num) (by norm_num) (by norm_num)
      · intro y hy
        push_cast at hy
        refine bell_lt (by norm_num) (by norm_num) ?_
        rw [abs_of_neg (by linarith)]
        linarith
    have c : spdDegree .cruise v < at_ 2 := by
      refine between_lt' (f := bell 600 100) (a := 100) one_pos (by push_cast; linarith) ?_ ?_
      · exact bell_le (by norm_num) (by norm_num) (by norm_num)
      · intro y hy
        push_cast at hy
        refine bell_lt (by norm_num) (by norm_num) ?_
        rw [abs_of_neg (by linarith)]
        linarith
    have G : at_ 2 ≤ strength (.val h) (.val v) (.val w) .ground := by
      show at_ 2 ≤ min (altDegree .ground h) (min (rocDegree .ground w) (spdDegree .ground v))
      rw [a1, r5]
      refine le_min ?_ (le_min ((at_le (by norm_num) (by norm_num)).trans r3) g)
      have := at_le (z := 0) (z' := 2) le_rfl (by norm_num)
      refine this.trans ?_
      unfold at_
      rw [Real.exp_le_one_iff]
      norm_num
    have small : ∀ q, q ≠ .ground → strength (.val h) (.val v) (.val w) q < at_ 2 := by
      intro q hq
      cases q with
      | ground => exact absurd rfl hq
      | climb => exact sC.trans_lt (at_pos 2)
      | descent => exact sD.trans_lt (at_pos 2)
      | cruise => exact ((min_le_right _ _).trans (min_le_right _ _)).trans_lt c
      | level => exact ((min_le_right _ _).trans (min_le_right _ _)).trans_lt l
    intro q
    by_cases hq : q = .ground
    · subst hq
      exact ⟨le_rfl, fun h => absurd h (lt_irrefl _)⟩
    · have := (small q hq).trans_le G
      exact ⟨this.le, fun _ => this⟩
  · intro hv hv'
    have hx : 100 ≤ max (min v 599) 0 := le_max_of_le_left (le_min hv (by norm_num))
    have hx' : max (min v 599) 0 ≤ 300 := max_le ((min_le_left _ _).trans hv') (by norm_num)
    have g : spdDegree .ground v ≤ at_ 2 := by
      refine (between_mem (f := bell 0 50) (a := 100) (b := 300) (lo := 0) one_pos
        (by push_cast; linarith) (by push_cast; linarith) ?_).2
      intro y h0 h _
      push_cast at h h0
      refine ⟨(bell_pos _ _ _).le, bell_le (by norm_num) (by norm_num) ?_⟩
      have := le_abs_self (y - 0)
      linarith
    have l : at_ 2 ≤ spdDegree .level v := by
      refine (between_mem (f := bell 300 100) (a := 100) (b := 300) (hi := 1) one_pos
        (by push_cast; linarith) (by push_cast; linarith) ?_).1
      intro y h0 h _
      push_cast at h h0
      refine ⟨bell_ge (by norm_num) ?_, bell_le_one _ _ _⟩
      rw [abs_le]
      constructor <;> linarith
    have c : spdDegree .cruise v ≤ at_ 2 := by
      refine (between_mem (f := bell 600 100) (a := 100) (b := 300) (lo := 0) one_pos
        (by push_cast; linarith) (by push_cast; linarith) ?_).2
      intro y h0 h _
      push_cast at h h0
      refine ⟨(bell_pos _ _ _).le, bell_le (by norm_num) (by norm_num) ?_⟩
      rw [abs_of_neg (by linarith)]
      linarith
    have L : at_ 2 ≤ strength (.val h) (.val v) (.val w) .level := by
      show at_ 2 ≤ min (altDegree .level h) (min (rocDegree .level w) (spdDegree .level v))
      rw [a2]
      exact le_min (at_le (by norm_num) (by norm_num))
        (le_min ((at_le (by norm_num) (by norm_num)).trans r3) l)
    intro q
    refine ⟨?_, fun h => ?_⟩
    · cases q with
      | ground => exact (((min_le_right _ _).trans (min_le_right _ _)).trans g).trans L
      | climb => exact sC.trans ((at_pos 2).le.trans L)
      | descent => exact sD.trans ((at_pos 2).le.trans L)
      | cruise => exact (((min_le_right _ _).trans (min_le_right _ _)).trans c).trans L
      | level => exact le_rfl
    · cases q <;> exact absurd h (by decide)

end Verif.PhaseSpec
