import Mathlib.Analysis.SpecialFunctions.Log.Basic
import Mathlib.Analysis.Complex.ExponentialBounds
import Mathlib.Tactic.Ring
import Mathlib.Tactic.Linarith
import Mathlib.Tactic.NormNum
import Mathlib.Tactic.Positivity
import Mathlib.Tactic.FieldSimp

/-!
# Interval arithmetic that the kernel can evaluate

Intervals with end points `m / 10 ^ 18`, `m` an integer; `none` is the whole line. Every operation is
proved to enclose the real one, so that one evaluation proves an inequality on a whole interval.
-/

namespace Verif.Interval

/-- The scale `10 ^ 18`. -/
def S : ℤ := 1000000000000000000

theorem S_pos : (0 : ℝ) < (S : ℤ) := by norm_num [S]

/-- An interval, or everything. -/
abbrev Iv := Option (ℤ × ℤ)

/-- The number lies in the interval. -/
def Has (I : Iv) (x : ℝ) : Prop :=
  match I with
  | none => True
  | some (l, h) => (l : ℝ) ≤ x * S ∧ x * S ≤ h

/-- Evaluation of a natural number before it is passed on. -/
def forceNat {β : Type} (n : ℕ) (f : ℕ → β) : β :=
  match n with
  | 0 => f 0
  | k + 1 => f (k + 1)

@[simp] theorem forceNat_eq {β : Type} (n : ℕ) (f : ℕ → β) : forceNat n f = f n := by
  cases n <;> rfl

/-- Evaluation of an integer before it is passed on. -/
def force {β : Type} (z : ℤ) (f : ℤ → β) : β :=
  match z with
  | .ofNat n => forceNat n (fun n => f (.ofNat n))
  | .negSucc n => forceNat n (fun n => f (.negSucc n))

@[simp] theorem force_eq {β : Type} (z : ℤ) (f : ℤ → β) : force z f = f z := by
  cases z <;> simp [force]

/-- An interval with evaluated ends. -/
def mk (l h : ℤ) : Iv := force l (fun l => force h (fun h => some (l, h)))

@[simp] theorem mk_eq (l h : ℤ) : mk l h = some (l, h) := by simp [mk]

/-- Division rounded up. -/
def cdiv (a b : ℤ) : ℤ := -((-a) / b)

theorem fdiv_le (a : ℤ) {b : ℤ} (hb : 0 < b) : ((a / b : ℤ) : ℝ) * b ≤ a := by
  have := Int.ediv_mul_le a hb.ne'
  exact_mod_cast this

theorem le_cdiv (a : ℤ) {b : ℤ} (hb : 0 < b) : (a : ℝ) ≤ (cdiv a b : ℤ) * b := by
  have := Int.ediv_mul_le (-a) hb.ne'
  have h : a ≤ cdiv a b * b := by unfold cdiv; linarith
  exact_mod_cast h

/-- The fraction `n / d`, `d > 0`. -/
def rat (n d : ℤ) : Iv := if 0 < d then mk (n * S / d) (cdiv (n * S) d) else none

theorem has_rat (n d : ℤ) : Has (rat n d) (n / d) := by
  unfold rat
  split_ifs with hd
  · have hd' : (0 : ℝ) < d := by exact_mod_cast hd
    have a := fdiv_le (n * S) hd
    have b := le_cdiv (n * S) hd
    simp only [mk_eq, Has]
    push_cast at a b
    rw [div_mul_eq_mul_div, le_div_iff₀ hd', div_le_iff₀ hd']
    exact ⟨a, b⟩
  · trivial

/-- Sum. -/
def add : Iv → Iv → Iv
  | some (a, b), some (c, d) => mk (a + c) (b + d)
  | _, _ => none

theorem Has.add {I J : Iv} {x y : ℝ} (hx : Has I x) (hy : Has J y) : Has (add I J) (x + y) := by
  rcases I with _ | ⟨a, b⟩
  · trivial
  rcases J with _ | ⟨c, d⟩
  · trivial
  simp only [Has, Interval.add, mk_eq] at *
  push_cast
  rw [add_mul]
  exact ⟨add_le_add hx.1 hy.1, add_le_add hx.2 hy.2⟩

/-- Negation. -/
def neg : Iv → Iv
  | some (a, b) => mk (-b) (-a)
  | none => none

theorem Has.neg {I : Iv} {x : ℝ} (hx : Has I x) : Has (neg I) (-x) := by
  rcases I with _ | ⟨a, b⟩
  · trivial
  simp only [Has, Interval.neg, mk_eq] at *
  push_cast
  constructor <;> linarith [hx.1, hx.2]

/-- Difference. -/
def sub (I J : Iv) : Iv := add I (neg J)

theorem Has.sub {I J : Iv} {x y : ℝ} (hx : Has I x) (hy : Has J y) : Has (sub I J) (x - y) := by
  rw [sub_eq_add_neg]
  exact hx.add hy.neg

theorem mul_bounds {a b c d x y : ℝ} (h1 : a ≤ x) (h2 : x ≤ b) (h3 : c ≤ y) (h4 : y ≤ d) :
    min (min (a * c) (a * d)) (min (b * c) (b * d)) ≤ x * y ∧
      x * y ≤ max (max (a * c) (a * d)) (max (b * c) (b * d)) := by
  have key : ∀ {p q u : ℝ} (v : ℝ), p ≤ u → u ≤ q → min (v * p) (v * q) ≤ v * u ∧
      v * u ≤ max (v * p) (v * q) := by
    intro p q u v hp hq
    rcases le_total 0 v with hv | hv
    · exact ⟨min_le_of_left_le (mul_le_mul_of_nonneg_left hp hv),
        le_max_of_le_right (mul_le_mul_of_nonneg_left hq hv)⟩
    · exact ⟨min_le_of_right_le (mul_le_mul_of_nonpos_left hq hv),
        le_max_of_le_left (mul_le_mul_of_nonpos_left hp hv)⟩
  have ka := key a h3 h4
  have kb := key b h3 h4
  have ky := key y h1 h2
  rw [mul_comm y a, mul_comm y b, mul_comm y x] at ky
  exact ⟨le_trans (min_le_min ka.1 kb.1) ky.1, le_trans ky.2 (max_le_max ka.2 kb.2)⟩

/-- The lesser of two integers, by the sign of the difference. -/
def imin (a b : ℤ) : ℤ :=
  match Int.sub b a with
  | .ofNat _ => a
  | .negSucc _ => b

/-- The greater of two integers. -/
def imax (a b : ℤ) : ℤ :=
  match Int.sub b a with
  | .ofNat _ => b
  | .negSucc _ => a

theorem imin_eq (a b : ℤ) : imin a b = min a b := by
  unfold imin
  split <;> rename_i n h
  · have h : b - a = n := h
    exact (min_eq_left (by omega)).symm
  · have h : b - a = Int.negSucc n := h
    exact (min_eq_right (by omega)).symm

theorem imax_eq (a b : ℤ) : imax a b = max a b := by
  unfold imax
  split <;> rename_i n h
  · have h : b - a = n := h
    exact (max_eq_right (by omega)).symm
  · have h : b - a = Int.negSucc n := h
    exact (max_eq_left (by omega)).symm

/-- Product. -/
def mul : Iv → Iv → Iv
  | some (a, b), some (c, d) =>
    force (a * c) fun p => force (a * d) fun q => force (b * c) fun r => force (b * d) fun t =>
      mk (imin (imin p q) (imin r t) / S) (cdiv (imax (imax p q) (imax r t)) S)
  | _, _ => none

theorem Has.mul {I J : Iv} {x y : ℝ} (hx : Has I x) (hy : Has J y) : Has (mul I J) (x * y) := by
  rcases I with _ | ⟨a, b⟩
  · trivial
  rcases J with _ | ⟨c, d⟩
  · trivial
  simp only [Has, Interval.mul, mk_eq, force_eq, imin_eq, imax_eq] at *
  obtain ⟨k1, k2⟩ := mul_bounds hx.1 hx.2 hy.1 hy.2
  have hS : (0 : ℤ) < S := by norm_num [S]
  have a1 := fdiv_le (min (min (a * c) (a * d)) (min (b * c) (b * d))) hS
  have a2 := le_cdiv (max (max (a * c) (a * d)) (max (b * c) (b * d))) hS
  push_cast at a1 a2
  have hS' := S_pos
  constructor
  · refine le_of_mul_le_mul_right ?_ hS'
    calc _ ≤ _ := a1
      _ ≤ _ := k1
      _ = _ := by ring
  · refine le_of_mul_le_mul_right ?_ hS'
    calc _ = x * S * (y * S) := by ring
      _ ≤ _ := k2
      _ ≤ _ := a2

/-- Division by a positive natural number. -/
def divN : Iv → ℕ → Iv
  | some (a, b), n => if 0 < n then mk (a / n) (cdiv b n) else none
  | none, _ => none

theorem Has.divN {I : Iv} {x : ℝ} (hx : Has I x) (n : ℕ) : Has (divN I n) (x / n) := by
  rcases I with _ | ⟨a, b⟩
  · trivial
  simp only [Interval.divN]
  split_ifs with hn
  · have hn' : (0 : ℝ) < n := by exact_mod_cast hn
    have hn2 : (0 : ℤ) < n := by exact_mod_cast hn
    have a1 := fdiv_le a hn2
    have a2 := le_cdiv b hn2
    simp only [Has, mk_eq] at *
    push_cast at a1 a2
    rw [div_mul_eq_mul_div, le_div_iff₀ hn', div_le_iff₀ hn']
    exact ⟨le_trans a1 hx.1, le_trans hx.2 a2⟩
  · trivial

/-- Reciprocal of positive numbers. -/
def inv : Iv → Iv
  | some (a, b) => if 0 < a then mk (S * S / b) (cdiv (S * S) a) else none
  | none => none

theorem Has.inv {I : Iv} {x : ℝ} (hx : Has I x) : Has (inv I) x⁻¹ := by
  rcases I with _ | ⟨a, b⟩
  · trivial
  simp only [Interval.inv]
  split_ifs with ha
  · simp only [Has, mk_eq] at *
    have ha' : (0 : ℝ) < a := by exact_mod_cast ha
    have hb' : (0 : ℝ) < b := by linarith [hx.1, hx.2]
    have hb : 0 < b := by exact_mod_cast hb'
    have hS := S_pos
    have x0 : 0 < x := by
      by_contra h
      have : x * S ≤ 0 := mul_nonpos_of_nonpos_of_nonneg (not_lt.1 h) hS.le
      linarith [hx.1]
    have a1 := fdiv_le (S * S) hb
    have a2 := le_cdiv (S * S) ha
    push_cast at a1 a2
    have e : x⁻¹ * S * (x * S) = S * S := by field_simp
    have p : 0 < x⁻¹ * S := by positivity
    constructor
    · refine le_of_mul_le_mul_right (le_trans a1 ?_) hb'
      rw [← e]
      exact mul_le_mul_of_nonneg_left hx.2 p.le
    · refine le_of_mul_le_mul_right (le_trans ?_ a2) ha'
      rw [← e]
      exact mul_le_mul_of_nonneg_left hx.1 p.le
  · trivial

/-- Quotient by positive numbers. -/
def div (I J : Iv) : Iv := mul I (inv J)

theorem Has.div {I J : Iv} {x y : ℝ} (hx : Has I x) (hy : Has J y) : Has (div I J) (x / y) := by
  rw [div_eq_mul_inv]
  exact hx.mul hy.inv

theorem has_one : Has (rat 1 1) 1 := by
  have := has_rat 1 1
  norm_num at this
  exact this

/-- The scale as a natural number. -/
def N : ℕ := 1000000000000000000

theorem N_pos : (0 : ℝ) < (N : ℕ) := by norm_num [N]

/-- `1 + t / k₁ (1 + t / k₂ (...))` rounded down. -/
def hornerLo (t : ℕ) : List ℕ → ℕ
  | [] => N
  | k :: ks => forceNat (hornerLo t ks) fun h => Nat.add N (Nat.div (Nat.mul t h) (Nat.mul N k))

/-- `1 + t / k₁ (1 + t / k₂ (...))` rounded up. -/
def hornerHi (t : ℕ) : List ℕ → ℕ
  | [] => N
  | k :: ks => forceNat (hornerHi t ks) fun h =>
      Nat.add (Nat.add N (Nat.div (Nat.mul t h) (Nat.mul N k))) 1

/-- The same with real numbers. -/
noncomputable def hornerR (t : ℝ) : List ℕ → ℝ
  | [] => 1
  | k :: ks => 1 + t * hornerR t ks / k

theorem hornerR_nonneg {x : ℝ} (hx : 0 ≤ x) (l : List ℕ) : 0 ≤ hornerR x l := by
  induction l with
  | nil => exact zero_le_one
  | cons k ks ih => unfold hornerR; positivity

theorem nat_div_le (a b : ℕ) : ((a / b : ℕ) : ℝ) ≤ a / b := Nat.cast_div_le

theorem lt_nat_div (a : ℕ) {b : ℕ} (hb : 0 < b) : (a : ℝ) / b ≤ (a / b : ℕ) + 1 := by
  have hb' : (0 : ℝ) < b := by exact_mod_cast hb
  rw [div_le_iff₀ hb']
  have := Nat.div_add_mod a b
  have := Nat.mod_lt a hb
  have h : a ≤ (a / b + 1) * b := by nlinarith
  exact_mod_cast h

theorem hornerLo_le {t : ℕ} {x : ℝ} (hx : (t : ℝ) ≤ x * N) (x0 : 0 ≤ x) (l : List ℕ) :
    (hornerLo t l : ℝ) ≤ hornerR x l * N := by
  have hN := N_pos
  induction l with
  | nil => simp [hornerLo, hornerR]
  | cons k ks ih =>
    have e : hornerLo t (k :: ks) = N + t * hornerLo t ks / (N * k) := by
      simp only [hornerLo, forceNat_eq]; rfl
    rw [e]
    have h1 := nat_div_le (t * hornerLo t ks) (N * k)
    push_cast at h1 ⊢
    have h2 : (t : ℝ) * hornerLo t ks ≤ x * N * (hornerR x ks * N) :=
      mul_le_mul hx ih (by positivity) (by positivity)
    have h3 : (t : ℝ) * hornerLo t ks / (N * k) ≤ x * hornerR x ks / k * N := by
      rcases Nat.eq_zero_or_pos k with rfl | hk
      · simp
      · have hk' : (0 : ℝ) < k := by exact_mod_cast hk
        rw [div_le_iff₀ (by positivity)]
        refine h2.trans (le_of_eq ?_)
        field_simp
    unfold hornerR
    linarith

theorem le_hornerHi {t : ℕ} {x : ℝ} (hx : x * N ≤ t) (x0 : 0 ≤ x) (l : List ℕ) (hl : ∀ k ∈ l, 0 < k) :
    hornerR x l * N ≤ hornerHi t l := by
  have hN := N_pos
  induction l with
  | nil => simp [hornerHi, hornerR]
  | cons k ks ih =>
    have ih := ih fun j hj => hl j (List.mem_cons_of_mem _ hj)
    have hk : 0 < k := hl k List.mem_cons_self
    have e : hornerHi t (k :: ks) = N + t * hornerHi t ks / (N * k) + 1 := by
      simp only [hornerHi, forceNat_eq]; rfl
    rw [e]
    have h1 := lt_nat_div (t * hornerHi t ks) (b := N * k) (Nat.mul_pos (by norm_num [N]) hk)
    push_cast at h1 ⊢
    have h2 : x * N * (hornerR x ks * N) ≤ (t : ℝ) * hornerHi t ks :=
      mul_le_mul hx ih (mul_nonneg (hornerR_nonneg x0 ks) hN.le) (by positivity)
    have h3 : x * hornerR x ks / k * N ≤ (t : ℝ) * hornerHi t ks / (N * k) := by
      have hk' : (0 : ℝ) < k := by exact_mod_cast hk
      rw [le_div_iff₀ (by positivity)]
      refine le_trans (le_of_eq ?_) h2
      field_simp
    unfold hornerR
    linarith

/-- The factors of the series. -/
abbrev factors : List ℕ := [1, 2, 3, 4, 5, 6, 7, 8, 9, 10, 11, 12, 13]

theorem hornerR_sum (x : ℝ) :
    hornerR x factors = ∑ m ∈ Finset.range 14, x ^ m / m.factorial := by
  simp only [hornerR, Finset.sum_range_succ, Finset.sum_range_zero, Nat.factorial]
  push_cast
  ring

/-- Repeated squaring, rounded down. -/
def squaresLo (h : ℕ) : ℕ → ℕ
  | 0 => h
  | n + 1 => forceNat (Nat.div (Nat.mul h h) N) fun h => squaresLo h n

/-- Repeated squaring, rounded up. -/
def squaresHi (h : ℕ) : ℕ → ℕ
  | 0 => h
  | n + 1 => forceNat (Nat.add (Nat.div (Nat.mul h h) N) 1) fun h => squaresHi h n

theorem squaresLo_le {h : ℕ} {x : ℝ} (hx : (h : ℝ) ≤ x * N) (x0 : 0 ≤ x) (n : ℕ) :
    (squaresLo h n : ℝ) ≤ x ^ 2 ^ n * N := by
  have hN := N_pos
  induction n generalizing h x with
  | zero => simpa [squaresLo] using hx
  | succ n ih =>
    have e : squaresLo h (n + 1) = squaresLo (h * h / N) n := by
      simp only [squaresLo, forceNat_eq]; rfl
    have := ih (h := h * h / N) (x := x * x) (by
      refine (nat_div_le _ _).trans ?_
      push_cast
      rw [div_le_iff₀ hN]
      calc (h : ℝ) * h ≤ x * N * (x * N) := mul_le_mul hx hx (by positivity) (by positivity)
        _ = _ := by ring) (by positivity)
    rw [e, pow_succ', pow_mul, sq]
    exact this

theorem le_squaresHi {h : ℕ} {x : ℝ} (hx : x * N ≤ h) (x0 : 0 ≤ x) (n : ℕ) :
    x ^ 2 ^ n * N ≤ squaresHi h n := by
  have hN := N_pos
  induction n generalizing h x with
  | zero => simpa [squaresHi] using hx
  | succ n ih =>
    have e : squaresHi h (n + 1) = squaresHi (h * h / N + 1) n := by
      simp only [squaresHi, forceNat_eq]; rfl
    have := ih (h := h * h / N + 1) (x := x * x) (by
      have := lt_nat_div (h * h) (b := N) (by norm_num [N])
      push_cast at this ⊢
      refine le_trans ?_ this
      rw [le_div_iff₀ hN]
      calc x * x * N * N = x * N * (x * N) := by ring
        _ ≤ (h : ℝ) * h := mul_le_mul hx hx (by positivity) (by positivity)) (by positivity)
    rw [e, pow_succ', pow_mul, sq]
    exact this

/-- A lower bound of the exponential of `m / 10 ^ 18`. -/
def expLo (m : ℕ) : ℕ :=
  forceNat (Nat.div m 1024) fun t => forceNat (hornerLo t factors) fun h => squaresLo h 10

/-- An upper bound of the exponential of `m / 10 ^ 18` for `m / 10 ^ 18 ≤ 256`. -/
def expHi (m : ℕ) : ℕ :=
  forceNat (Nat.add (Nat.div m 1024) 1) fun t => forceNat (Nat.add (hornerHi t factors) 1) fun h =>
    squaresHi h 10

theorem exp_eq_pow (m : ℕ) : Real.exp (m / N) = Real.exp (m / N / 1024) ^ 2 ^ 10 := by
  rw [← Real.exp_nat_mul]
  congr 1
  push_cast
  ring

theorem expLo_le (m : ℕ) : (expLo m : ℝ) ≤ Real.exp (m / N) * N := by
  have hN := N_pos
  have e : expLo m = squaresLo (hornerLo (m / 1024) factors) 10 := by
    simp only [expLo, forceNat_eq]; rfl
  have x0 : (0 : ℝ) ≤ m / N / 1024 := by positivity
  rw [e, exp_eq_pow]
  refine squaresLo_le ?_ (Real.exp_pos _).le 10
  refine (hornerLo_le (x := m / N / 1024) ?_ x0 factors).trans
    (mul_le_mul_of_nonneg_right ?_ hN.le)
  · refine (nat_div_le m 1024).trans (le_of_eq ?_)
    push_cast
    field_simp
  · rw [hornerR_sum]
    exact Real.sum_le_exp_of_nonneg x0 14

theorem le_expHi {m : ℕ} (hm : m ≤ 256 * N) : Real.exp (m / N) * N ≤ expHi m := by
  have hN := N_pos
  have e : expHi m = squaresHi (hornerHi (m / 1024 + 1) factors + 1) 10 := by
    simp only [expHi, forceNat_eq]; rfl
  have x0 : (0 : ℝ) ≤ m / N / 1024 := by positivity
  have x1 : (m / N / 1024 : ℝ) ≤ 1 / 4 := by
    have : (m : ℝ) ≤ 256 * N := by exact_mod_cast hm
    rw [div_div, div_le_iff₀ (by positivity)]
    linarith
  rw [e, exp_eq_pow]
  refine le_squaresHi ?_ (Real.exp_pos _).le 10
  have h1 := le_hornerHi (t := m / 1024 + 1) (x := m / N / 1024) (by
    have := lt_nat_div m (b := 1024) (by norm_num)
    push_cast at this ⊢
    refine le_trans (le_of_eq ?_) this
    field_simp) x0 factors (by decide)
  rw [hornerR_sum] at h1
  generalize (m / N / 1024 : ℝ) = t at *
  have h4 := Real.exp_bound (show |t| ≤ 1 by rw [abs_of_nonneg x0]; linarith) (n := 14) (by norm_num)
  rw [abs_of_nonneg x0] at h4
  have h5 := (abs_le.1 h4).2
  have p : t ^ 14 ≤ (1 / 4) ^ 14 := pow_le_pow_left₀ x0 x1 14
  have c : (((14 : ℕ).succ : ℝ) / ((14 : ℕ).factorial * (14 : ℕ))) ≤ 1 / 80000000000 := by
    norm_num [Nat.factorial]
  have q : t ^ 14 * (((14 : ℕ).succ : ℝ) / ((14 : ℕ).factorial * (14 : ℕ))) ≤
      (1 / 4) ^ 14 * (1 / 80000000000) := mul_le_mul p c (by positivity) (by positivity)
  have h6 : (1 / 4) ^ 14 * (1 / 80000000000) * (N : ℝ) ≤ 1 := by norm_num [N]
  have h7 := mul_le_mul_of_nonneg_right (h5.trans q) hN.le
  push_cast
  rw [sub_mul] at h7
  linarith

theorem N_eq : ((N : ℕ) : ℝ) = (S : ℤ) := by norm_num [N, S]

/-- The exponential of `m / 10 ^ 18`; the ends are not evaluated before they are needed. -/
def expPt : ℤ → Iv
  | .ofNat m => if Nat.ble m 256000000000000000000 then
      some (.ofNat (expLo m), .ofNat (expHi m)) else none
  | .negSucc m => if Nat.ble m 255999999999999999999 then
      some (.ofNat (forceNat (expHi (Nat.succ m)) fun h => Nat.div (Nat.mul N N) h),
        .ofNat (forceNat (expLo (Nat.succ m)) fun h => Nat.add (Nat.div (Nat.mul N N) h) 1)) else none

theorem le_squaresLo {h : ℕ} (n : ℕ) (hh : N ≤ h) : N ≤ squaresLo h n := by
  induction n generalizing h with
  | zero => exact hh
  | succ n ih =>
    have e : squaresLo h (n + 1) = squaresLo (h * h / N) n := by
      simp only [squaresLo, forceNat_eq]; rfl
    rw [e]
    refine ih ((Nat.le_div_iff_mul_le (by norm_num [N])).2 (Nat.mul_le_mul hh hh))

theorem N_le_expLo (m : ℕ) : N ≤ expLo m := by
  have e : expLo m = squaresLo (hornerLo (m / 1024) factors) 10 := by
    simp only [expLo, forceNat_eq]; rfl
  rw [e]
  refine le_squaresLo 10 ?_
  simp only [hornerLo, forceNat_eq]
  exact Nat.le_add_right _ _

theorem has_expPt (m : ℤ) : Has (expPt m) (Real.exp (m / S)) := by
  cases m with
  | ofNat m =>
    simp only [expPt]
    split_ifs with hm
    · have hm : m ≤ 256 * N := by have := Nat.le_of_ble_eq_true hm; norm_num [N]; exact this
      simp only [Has]
      rw [← N_eq]
      exact ⟨expLo_le m, le_expHi hm⟩
    · trivial
  | negSucc m =>
    simp only [expPt]
    split_ifs with hm
    · have hm : m + 1 ≤ 256 * N := by have := Nat.le_of_ble_eq_true hm; norm_num [N]; omega
      rw [Int.negSucc_eq, Int.cast_neg, neg_div, Real.exp_neg]
      have hN := N_pos
      have l1 := expLo_le (m + 1)
      have h1 := le_expHi hm
      have p := N_le_expLo (m + 1)
      have p' : (0 : ℝ) < expLo (m + 1) :=
        lt_of_lt_of_le N_pos (by exact_mod_cast p)
      have q' : (0 : ℝ) < expHi (m + 1) := lt_of_lt_of_le (by positivity) h1
      have c : ((((m : ℤ) + 1 : ℤ)) : ℝ) / S = ((m + 1 : ℕ) : ℝ) / N := by rw [N_eq]; push_cast; rfl
      rw [c]
      generalize Real.exp (((m + 1 : ℕ) : ℝ) / N) = y at *
      have y0 : 0 < y := by
        by_contra h
        have : y * N ≤ 0 := mul_nonpos_of_nonpos_of_nonneg (not_lt.1 h) hN.le
        linarith
      simp only [forceNat_eq, Has]
      rw [← N_eq]
      constructor
      · change ((N * N / expHi (m + 1) : ℕ) : ℝ) ≤ _
        refine (nat_div_le _ _).trans ?_
        push_cast
        rw [div_le_iff₀ q']
        calc (N : ℝ) * N = y⁻¹ * N * (y * N) := by field_simp
          _ ≤ _ := mul_le_mul_of_nonneg_left h1 (by positivity)
      · change _ ≤ ((N * N / expLo (m + 1) + 1 : ℕ) : ℝ)
        have := lt_nat_div (N * N) (b := expLo (m + 1)) (by exact_mod_cast p')
        push_cast at this ⊢
        refine le_trans ?_ this
        rw [le_div_iff₀ p']
        calc _ ≤ y⁻¹ * N * (y * N) := mul_le_mul_of_nonneg_left l1 (by positivity)
          _ = _ := by field_simp
    · trivial

/-- From the lower end of one interval to the upper end of another. -/
def span : Iv → Iv → Iv
  | some (l, _), some (_, h) => mk l h
  | _, _ => none

theorem has_span {I J : Iv} {x y z : ℝ} (hx : Has I x) (hz : Has J z) (h1 : x ≤ y) (h2 : y ≤ z) :
    Has (span I J) y := by
  have hS := S_pos
  rcases I with _ | ⟨l, l'⟩
  · trivial
  rcases J with _ | ⟨h', h⟩
  · trivial
  simp only [Has, span, mk_eq] at *
  exact ⟨hx.1.trans (mul_le_mul_of_nonneg_right h1 hS.le),
    (mul_le_mul_of_nonneg_right h2 hS.le).trans hz.2⟩

/-- The exponential. -/
def exp : Iv → Iv
  | some (a, b) => span (expPt a) (expPt b)
  | none => none

theorem Has.exp {I : Iv} {x : ℝ} (hx : Has I x) : Has (exp I) (Real.exp x) := by
  rcases I with _ | ⟨a, b⟩
  · trivial
  have hS := S_pos
  exact has_span (has_expPt a) (has_expPt b) (Real.exp_le_exp.2 ((div_le_iff₀ hS).2 hx.1))
    (Real.exp_le_exp.2 ((le_div_iff₀ hS).2 hx.2))

/-- The exponential of `y / 10 ^ 18`, roughly. -/
def expGuess : ℤ → ℕ
  | .ofNat m => expLo m
  | .negSucc m => forceNat (expLo (Nat.succ m)) fun h => Nat.div (Nat.mul N N) h

/-- A step towards the logarithm of `m / 10 ^ 18`. -/
def logStep (m y : ℤ) : ℤ :=
  forceNat (expGuess y) fun l => y + 2 * (m - l) * S / (m + l)

/-- A guess of the logarithm of `m / 10 ^ 18`. -/
def logGuess (m : ℤ) : ℤ :=
  force (693147180559945309 * (m.toNat.log2 : ℤ) - 41099958083612849658) fun y =>
  force (logStep m y) fun y => logStep m y

/-- The first number if it is a lower bound of the logarithm. -/
def logLo (y m : ℤ) : Option ℤ :=
  match expPt y with
  | some (_, h) => if h ≤ m then some y else none
  | none => none

/-- The first number if it is an upper bound of the logarithm. -/
def logHi (y m : ℤ) : Option ℤ :=
  match expPt y with
  | some (l, _) => if m ≤ l then some y else none
  | none => none

theorem logLo_le {g m y : ℤ} (h : logLo g m = some y) : Real.exp (y / S) * S ≤ m := by
  unfold logLo at h
  have k := has_expPt g
  generalize expPt g = A at *
  rcases A with _ | ⟨l, u⟩
  · simp at h
  · simp only at h
    split_ifs at h with hu
    simp only [Option.some.injEq] at h
    subst h
    exact k.2.trans (by exact_mod_cast hu)

theorem le_logHi {g m y : ℤ} (h : logHi g m = some y) : (m : ℝ) ≤ Real.exp (y / S) * S := by
  unfold logHi at h
  have k := has_expPt g
  generalize expPt g = A at *
  rcases A with _ | ⟨l, u⟩
  · simp at h
  · simp only at h
    split_ifs at h with hu
    simp only [Option.some.injEq] at h
    subst h
    exact le_trans (by exact_mod_cast hu) k.1

/-- An interval from checked bounds. -/
def ofBounds : Option ℤ → Option ℤ → Iv
  | some l, some h => mk l h
  | _, _ => none

/-- The logarithm of positive numbers, from guesses of the two ends. -/
def logFrom (g g' : ℤ) : Iv → Iv
  | some (a, b) => ofBounds (force (g - 100000000000) fun y => logLo y a)
      (force (g' + 100000000000) fun y => logHi y b)
  | none => none

/-- The logarithm of positive numbers. -/
def log : Iv → Iv
  | some (a, b) => force (logGuess a) fun g =>
      if b - a ≤ 1000 then logFrom g g (some (a, b))
      else force (logGuess b) fun g' => logFrom g g' (some (a, b))
  | none => none

theorem Has.logFrom {I : Iv} {x : ℝ} (hx : Has I x) (g g' : ℤ) :
    Has (logFrom g g' I) (Real.log x) := by
  rcases I with _ | ⟨a, b⟩
  · trivial
  simp only [Interval.logFrom, force_eq]
  rcases ha : logLo (g - 100000000000) a with _ | l
  · trivial
  rcases hb : logHi (g' + 100000000000) b with _ | h
  · trivial
  have a1 := logLo_le ha
  have b1 := le_logHi hb
  have hS := S_pos
  have p1 : Real.exp (l / S) ≤ x := le_of_mul_le_mul_right (a1.trans hx.1) hS
  have p2 : x ≤ Real.exp (h / S) := le_of_mul_le_mul_right (hx.2.trans b1) hS
  have x0 : 0 < x := (Real.exp_pos _).trans_le p1
  simp only [mk_eq, ofBounds]
  exact ⟨(div_le_iff₀ hS).1 ((Real.le_log_iff_exp_le x0).2 p1),
    (le_div_iff₀ hS).1 ((Real.log_le_iff_le_exp x0).2 p2)⟩

theorem Has.log {I : Iv} {x : ℝ} (hx : Has I x) : Has (log I) (Real.log x) := by
  rcases I with _ | ⟨a, b⟩
  · trivial
  simp only [Interval.log, force_eq]
  split_ifs <;> exact hx.logFrom _ _

/-- The hyperbolic tangent. -/
def tanh (I : Iv) : Iv := sub (rat 1 1) (div (rat 2 1) (add (exp (add I I)) (rat 1 1)))

theorem Has.tanh {I : Iv} {x : ℝ} (hx : Has I x) : Has (tanh I) (Real.tanh x) := by
  have h2 : Has (rat 2 1) 2 := by simpa using has_rat 2 1
  have e : Real.tanh x = 1 - 2 / (Real.exp (x + x) + 1) := by
    rw [Real.tanh_eq_sinh_div_cosh, Real.sinh_eq, Real.cosh_eq, Real.exp_add, Real.exp_neg]
    have := Real.exp_pos x
    field_simp
    ring
  rw [e]
  exact has_one.sub (h2.div ((hx.add hx).exp.add has_one))

/-- Every number of the interval is greater than `n / d`. -/
def above (n d : ℤ) : Iv → Bool
  | some (a, _) => decide (0 < d ∧ n * S < a * d)
  | none => false

theorem of_above {n d : ℤ} {I : Iv} {x : ℝ} (h : above n d I = true) (hx : Has I x) :
    (n / d : ℝ) < x := by
  rcases I with _ | ⟨a, b⟩
  · simp [above] at h
  simp only [above, decide_eq_true_eq] at h
  have hd : (0 : ℝ) < d := by exact_mod_cast h.1
  have k : (n : ℝ) * S < a * d := by exact_mod_cast h.2
  have hS := S_pos
  rw [div_lt_iff₀ hd]
  refine lt_of_mul_lt_mul_right (lt_of_lt_of_le k ?_) hS.le
  calc _ ≤ x * S * d := mul_le_mul_of_nonneg_right hx.1 hd.le
    _ = _ := by ring

/-- Every number of the interval is less than `n / d`. -/
def below (n d : ℤ) : Iv → Bool
  | some (_, b) => decide (0 < d ∧ b * d < n * S)
  | none => false

theorem of_below {n d : ℤ} {I : Iv} {x : ℝ} (h : below n d I = true) (hx : Has I x) :
    x < n / d := by
  rcases I with _ | ⟨a, b⟩
  · simp [below] at h
  simp only [below, decide_eq_true_eq] at h
  have hd : (0 : ℝ) < d := by exact_mod_cast h.1
  have k : (b : ℝ) * d < n * S := by exact_mod_cast h.2
  have hS := S_pos
  rw [lt_div_iff₀ hd]
  refine lt_of_mul_lt_mul_right (lt_of_le_of_lt ?_ k) hS.le
  calc _ = x * S * d := by ring
    _ ≤ _ := mul_le_mul_of_nonneg_right hx.2 hd.le

/-- The interval `[(n + i) / d, (n + i + 1) / d]`. -/
def cell (n d : ℤ) (i : ℕ) : Iv := span (rat (n + i) d) (rat (n + i + 1) d)

theorem has_cell {n d : ℤ} {i : ℕ} {x : ℝ} (h1 : ((n + i : ℤ) : ℝ) / d ≤ x)
    (h2 : x ≤ ((n + i + 1 : ℤ) : ℝ) / d) : Has (cell n d i) x :=
  has_span (has_rat (n + i) d) (has_rat (n + i + 1) d) h1 h2

/-- A test passes for the first `k` numbers. -/
def all (test : ℕ → Bool) : ℕ → Bool
  | 0 => true
  | k + 1 => test k && all test k

theorem of_all {test : ℕ → Bool} {k : ℕ} (h : all test k = true) : ∀ i < k, test i = true := by
  induction k with
  | zero => intro i hi; omega
  | succ k ih =>
    simp only [all, Bool.and_eq_true] at h
    intro i hi
    rcases Nat.lt_succ_iff_lt_or_eq.1 hi with hi | rfl
    · exact ih h.2 i hi
    · exact h.1

/-- The cells cover the interval `[n / d, (n + k) / d]`. -/
theorem exists_cell {n d : ℤ} {k : ℕ} {x : ℝ} (hd : 0 < d) (hk : 0 < k) (h1 : (n : ℝ) / d ≤ x)
    (h2 : x ≤ ((n + k : ℤ) : ℝ) / d) : ∃ i < k, ((n + i : ℤ) : ℝ) / d ≤ x ∧
      x ≤ ((n + i + 1 : ℤ) : ℝ) / d := by
  have hd' : (0 : ℝ) < d := by exact_mod_cast hd
  induction k with
  | zero => omega
  | succ k ih =>
    by_cases hx : x ≤ ((n + k : ℤ) : ℝ) / d
    · rcases Nat.eq_zero_or_pos k with rfl | hk'
      · refine ⟨0, by omega, by simpa using h1, h2.trans ?_⟩
        push_cast
        gcongr
        linarith
      · obtain ⟨i, hi, a⟩ := ih hk' hx
        exact ⟨i, by omega, a⟩
    · refine ⟨k, by omega, (not_le.1 hx).le, h2.trans (le_of_eq ?_)⟩
      push_cast
      ring

end Verif.Interval
