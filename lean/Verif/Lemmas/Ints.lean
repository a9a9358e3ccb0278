import Verif.Prelude.Ints
import Verif.Model.DataRecords

/-!
A calculation with integer arrays that is exact: every value is a double or a Python integer, or an
argument that is still to meet a double.
-/

namespace Verif.INum
open Verif

/-- What is known about the type of a value. -/
inductive Kd
  | flt | py | any
  deriving DecidableEq

/-- `v` has the value `x`, and its type is as `k` says. -/
def G : Kd → INum → ℝ → Prop
  | .flt, v, x => v = .flt x
  | .py, v, x => v = .flt x ∨ ∃ n : ℤ, v = .py n ∧ x = n
  | .any, v, x => v ≠ .err ∧ v.val = x

/-- Type of the result of an operation. -/
def Kd.op : Kd → Kd → Kd
  | .flt, _ | _, .flt => .flt
  | _, _ => .py

/-- An operation on these is exact. -/
def Kd.ok : Kd → Kd → Bool
  | .any, .any | .any, .py | .py, .any => false
  | _, _ => true

variable {k k' : Kd} {v w : INum} {x y : ℝ}

theorem G.any (h : G k v x) : G .any v x := by
  cases k with
  | flt => cases h; exact ⟨by simp, rfl⟩
  | py =>
    rcases h with rfl | ⟨n, rfl, rfl⟩
    · exact ⟨by simp, rfl⟩
    · exact ⟨by simp, rfl⟩
  | any => exact h

theorem G.py (h : G k v x) (hk : k ≠ .any) : G .py v x := by
  cases k with
  | flt => exact .inl h
  | py => exact h
  | any => exact absurd rfl hk

theorem arith_flt_left (f g) (hv : w ≠ .err) (x : ℝ) :
    arith f g (.flt x) w = .flt (g x w.val) := by
  cases w <;> first | rfl | exact absurd rfl hv

theorem arith_flt_right (f g) (hv : v ≠ .err) (y : ℝ) :
    arith f g v (.flt y) = .flt (g v.val y) := by
  cases v <;> first | rfl | exact absurd rfl hv

theorem G.arith {f : ℤ → ℤ → ℤ} {g : ℝ → ℝ → ℝ} (hfg : ∀ m n : ℤ, ((f m n : ℤ) : ℝ) = g m n)
    (hv : G k v x) (hw : G k' w y) (hk : k.ok k' = true) :
    G (k.op k') (arith f g v w) (g x y) := by
  by_cases h1 : k = .flt
  · subst h1
    cases hv
    obtain ⟨h2, rfl⟩ := hw.any
    rw [arith_flt_left f g h2]
    cases k' <;> rfl
  by_cases h2 : k' = .flt
  · subst h2
    cases hw
    obtain ⟨h2, rfl⟩ := hv.any
    rw [arith_flt_right f g h2]
    cases k <;> rfl
  have e1 : k = .py := by
    revert h1 h2 hk; cases k <;> cases k' <;> simp [Kd.ok]
  have e2 : k' = .py := by
    revert h1 h2 hk; cases k <;> cases k' <;> simp [Kd.ok]
  subst e1 e2
  rcases hv with rfl | ⟨m, rfl, rfl⟩
  · rw [arith_flt_left f g (by rcases hw with rfl | ⟨n, rfl, -⟩ <;> simp)]
    rw [hw.any.2]; exact .inl rfl
  rcases hw with rfl | ⟨n, rfl, rfl⟩
  · exact .inl rfl
  · exact .inr ⟨f m n, rfl, (hfg m n).symm⟩

theorem G.add (hv : G k v x) (hw : G k' w y) (hk : k.ok k' = true) : G (k.op k') (v + w) (x + y) :=
  G.arith (g := (· + ·)) (fun _ _ => by push_cast; rfl) hv hw hk
theorem G.sub (hv : G k v x) (hw : G k' w y) (hk : k.ok k' = true) : G (k.op k') (v - w) (x - y) :=
  G.arith (g := (· - ·)) (fun _ _ => by push_cast; rfl) hv hw hk
theorem G.mul (hv : G k v x) (hw : G k' w y) (hk : k.ok k' = true) : G (k.op k') (v * w) (x * y) :=
  G.arith (g := (· * ·)) (fun _ _ => by push_cast; rfl) hv hw hk
theorem G.max (hv : G k v x) (hw : G k' w y) (hk : k.ok k' = true) :
    G (k.op k') (npInt.maximum v w) (np.maximum x y) :=
  G.arith (g := fun a b => Max.max a b) (fun _ _ => by push_cast; rfl) hv hw hk

theorem G.map (f : ℝ → ℝ) (hv : G k v x) : G .flt (map f v) (f x) := by
  obtain ⟨h, rfl⟩ := hv.any
  cases v <;> first | rfl | exact absurd rfl h

theorem G.map₂ (f : ℝ → ℝ → ℝ) (hv : G k v x) (hw : G k' w y) (hk : k.ok k' = true) :
    G .flt (map₂ f v w) (f x y) := by
  by_cases h1 : k = .flt
  · subst h1
    cases hv
    obtain ⟨h2, rfl⟩ := hw.any
    cases w <;> first | rfl | exact absurd rfl h2
  by_cases h2 : k' = .flt
  · subst h2
    cases hw
    obtain ⟨h2, rfl⟩ := hv.any
    cases v <;> first | rfl | exact absurd rfl h2
  have e1 : k = .py := by
    revert h1 h2 hk; cases k <;> cases k' <;> simp [Kd.ok]
  have e2 : k' = .py := by
    revert h1 h2 hk; cases k <;> cases k' <;> simp [Kd.ok]
  subst e1 e2
  rcases hv with rfl | ⟨m, rfl, rfl⟩ <;> rcases hw with rfl | ⟨n, rfl, rfl⟩ <;> rfl

theorem G.div (hv : G k v x) (hw : G k' w y) (hk : k.ok k' = true) : G .flt (v / w) (x / y) :=
  G.map₂ (· / ·) hv hw hk
theorem G.power (hv : G k v x) (hw : G k' w y) (hk : k.ok k' = true) :
    G .flt (npInt.power v w) (np.power x y) := G.map₂ (· ^ ·) hv hw hk
theorem G.arctan2 (hv : G k v x) (hw : G k' w y) (hk : k.ok k' = true) :
    G .flt (npInt.arctan2 v w) (np.arctan2 x y) := G.map₂ atan2R hv hw hk
theorem G.sqrt (hv : G k v x) : G .flt (npInt.sqrt v) (np.sqrt x) := G.map _ hv
theorem G.exp (hv : G k v x) : G .flt (npInt.exp v) (np.exp x) := G.map _ hv
theorem G.log (hv : G k v x) : G .flt (npInt.log v) (np.log x) := G.map _ hv
theorem G.sin (hv : G k v x) : G .flt (npInt.sin v) (np.sin x) := G.map _ hv
theorem G.cos (hv : G k v x) : G .flt (npInt.cos v) (np.cos x) := G.map _ hv
theorem G.pi : G .flt npInt.pi np.pi := rfl
theorem G.const (x : ℝ) : G .flt (.flt x) x := rfl

theorem G.neg (hv : G k v x) (hk : k ≠ .any) : G k (-v) (-x) := by
  cases k with
  | flt => cases hv; rfl
  | py =>
    rcases hv with rfl | ⟨n, rfl, rfl⟩
    · exact .inl rfl
    · exact .inr ⟨-n, rfl, by push_cast; rfl⟩
  | any => exact absurd rfl hk

theorem G.pow (hv : G k v x) (n : ℕ) (hk : k ≠ .any) : G k (v ^ n) (x ^ n) := by
  cases k with
  | flt => cases hv; rfl
  | py =>
    rcases hv with rfl | ⟨m, rfl, rfl⟩
    · exact .inl rfl
    · exact .inr ⟨m ^ n, rfl, by push_cast; rfl⟩
  | any => exact absurd rfl hk

/-- Type of a number written in the code. -/
def litKd (m : ℕ) (s : Bool) (e : ℕ) : Kd := if whole m s e then .py else .flt

theorem G.lit (m : ℕ) (s : Bool) (e : ℕ) :
    G (litKd m s e) (OfScientific.ofScientific m s e) (OfScientific.ofScientific m s e) := by
  by_cases h : whole m s e = true
  · have e1 : (OfScientific.ofScientific m s e : INum) =
        .py (if s then m / 10 ^ e else m * 10 ^ e : ℕ) := if_pos h
    rw [e1, litKd, if_pos h]
    refine .inr ⟨_, rfl, ?_⟩
    rw [← Rat.cast_ofScientific]
    change ((Rat.ofScientific m s e : ℚ) : ℝ) = _
    rw [Rat.ofScientific_def]
    cases s with
    | false => simp
    | true =>
      have hd : 10 ^ e ∣ m := by simpa [whole] using h
      obtain ⟨c, rfl⟩ := hd
      have hp : (10 ^ e : ℕ) ≠ 0 := by positivity
      rw [Rat.mkRat_eq_div]
      push_cast
      simp
  · have e1 : (OfScientific.ofScientific m s e : INum) =
        .flt (OfScientific.ofScientific m s e) := if_neg h
    rw [e1, litKd, if_neg h]
    rfl

theorem G.whereGt {a c : INum} {xa xc : ℝ} {ka kc : Kd} (ha : G ka a xa) (hc : G kc c xc)
    (hv : G k v x) (hw : G k w y) :
    G k (npInt.whereGt a c v w) (np.whereGt xa xc x y) := by
  obtain ⟨a1, rfl⟩ := ha.any
  obtain ⟨c1, rfl⟩ := hc.any
  have v1 := hv.any.1
  have w1 := hw.any.1
  have e : npInt.whereGt a c v w = open Classical in if a.val > c.val then v else w := by
    cases a <;> cases c <;> cases v <;> cases w <;> first | rfl | contradiction
  rw [e]
  simp only [np]
  split_ifs <;> assumption

theorem G.clip {d : INum} {z : ℝ} (hd : G k d z) :
    G .any (npInt.clip d (-25.0) 15.0) (np.clip z (-25.0) 15.0) := by
  have e1 : (15.0 : INum) = .py 15 := by
    change (if whole 150 true 1 then _ else _) = _
    rw [if_pos (by decide)]; norm_num
  have e2 : (-25.0 : INum) = .py (-25) := by
    have : (25.0 : INum) = .py 25 := by
      change (if whole 250 true 1 then _ else _) = _
      rw [if_pos (by decide)]; norm_num
    rw [this]; rfl
  obtain ⟨h, rfl⟩ := hd.any
  rw [e1, e2]
  have e3 : (15.0 : ℝ) = ((15 : ℤ) : ℝ) := by norm_num
  have e4 : (-25.0 : ℝ) = ((-25 : ℤ) : ℝ) := by norm_num
  rw [e3, e4]
  cases d with
  | flt x => exact ⟨by simp [npInt, INum.clip], rfl⟩
  | err => exact absurd rfl h
  | _ =>
    refine ⟨by simp [npInt, INum.clip], ?_⟩
    simp only [npInt, INum.clip, val, np, clipR]
    push_cast
    rfl

theorem G.cast (h : G k v x) (e : k = k') : G k' v x := e ▸ h

/-- Puts together the exactness of an expression. -/
macro "exact_steps" : tactic => `(tactic| (apply G.cast; repeat' first
  | assumption
  | exact G.pi | exact G.const _
  | exact G.lit _ _ _
  | apply G.add | apply G.sub | apply G.mul | apply G.div | apply G.max | apply G.power
  | apply G.arctan2 | apply G.sqrt | apply G.exp | apply G.log | apply G.sin | apply G.cos
  | apply G.neg | apply G.pow
  | rfl | decide))

section aero
open Aero
variable {h d u : INum} {xh xd xu : ℝ}

theorem G.shift (hd : G k d xd) : G .flt (T0 + npInt.clip d (-25.0) 15.0)
    (T0 + np.clip xd (-25.0) 15.0) := by
  have hc := hd.clip
  unfold T0
  exact_steps

theorem G.temperature (hh : G .flt h xh) (hd : G k d xd) :
    G .flt (temperature npInt h d) (temperature np xh xd) := by
  have hc := hd.clip
  have ht := hd.shift
  simp only [Aero.temperature, Aero.atmos, beta]
  exact_steps

theorem G.density (hh : G .flt h xh) (hd : G k d xd) :
    G .flt (density npInt h d) (density np xh xd) := by
  have ht := hd.shift
  have hT := hh.temperature hd
  simp only [Aero.temperature, Aero.atmos] at hT
  simp only [Aero.density, Aero.atmos, rho0]
  exact_steps

theorem G.pressure (hh : G .flt h xh) (hd : G k d xd) :
    G .flt (pressure npInt h d) (pressure np xh xd) := by
  have hT : G .flt (atmos npInt h d).2.2 (atmos np xh xd).2.2 := hh.temperature hd
  have hr : G .flt (atmos npInt h d).2.1 (atmos np xh xd).2.1 := hh.density hd
  change G .flt ((atmos npInt h d).2.1 * R * (atmos npInt h d).2.2)
    ((atmos np xh xd).2.1 * R * (atmos np xh xd).2.2)
  unfold R
  exact_steps

theorem G.vsound (hh : G .flt h xh) (hd : G k d xd) :
    G .flt (vsound npInt h d) (vsound np xh xd) := by
  have hT := hh.temperature hd
  simp only [Aero.vsound, gamma, R]
  exact_steps

theorem G.tas2mach (hu : G .flt u xu) (hh : G .flt h xh) (hd : G k d xd) :
    G .flt (tas2mach npInt u h d) (tas2mach np xu xh xd) := by
  have ha := hh.vsound hd
  simp only [Aero.tas2mach]
  exact_steps

theorem G.mach2tas (hu : G .flt u xu) (hh : G .flt h xh) (hd : G k d xd) :
    G .flt (mach2tas npInt u h d) (mach2tas np xu xh xd) := by
  have ha := hh.vsound hd
  simp only [Aero.mach2tas]
  exact_steps

theorem G.tas2cas (hu : G .flt u xu) (hh : G .flt h xh) (hd : G k d xd) :
    G .flt (tas2cas npInt u h d) (tas2cas np xu xh xd) := by
  have hp : G .flt (atmos npInt h d).1 (atmos np xh xd).1 := hh.pressure hd
  have hr : G .flt (atmos npInt h d).2.1 (atmos np xh xd).2.1 := hh.density hd
  simp only [Aero.tas2cas, p0, rho0]
  exact_steps

theorem G.mach2cas (hu : G .flt u xu) (hh : G .flt h xh) (hd : G k d xd) :
    G .flt (mach2cas npInt u h d) (mach2cas np xu xh xd) :=
  (hu.mach2tas hh hd).tas2cas hh hd

theorem G.kts (hu : G k u xu) : G .flt (u * Aero.kts) (xu * Aero.kts) := by
  unfold Aero.kts
  cases k <;> exact_steps

theorem G.ft (hu : G k u xu) : G .flt (u * Aero.ft) (xu * Aero.ft) := by
  unfold Aero.ft
  cases k <;> exact_steps

theorem G.fpm (hu : G k u xu) : G .flt (u * Aero.fpm) (xu * Aero.fpm) := by
  unfold Aero.fpm
  cases k <;> exact_steps

end aero

end Verif.INum
