import Verif.Lemmas.Backends
import Verif.Lemmas.Aero
import Verif.Spec.Emission

namespace Verif.Emission
open Verif.Aero Verif.Spec Real

/-- The engine's four LTO fuel flows increase. -/
def Ordered (ff : Fin 4 → ℝ) : Prop := ff 0 < ff 1 ∧ ff 1 < ff 2 ∧ ff 2 < ff 3

theorem seg_eq {x0 x1 f0 f1 x : ℝ} (h : x0 < x1) :
    (f0 + (f1 - f0) / (x1 - x0) * (x - x0)) * (x1 - x0) = f0 * (x1 - x) + f1 * (x - x0) := by
  have : x1 - x0 ≠ 0 := by linarith
  field_simp
  ring

theorem lto_spec (e : Params ℝ) (ei : Fin 4 → ℝ) (h : Ordered e.ff) (x : ℝ) :
    IsLto e.ff ei x (lto np e ei x) := by
  obtain ⟨h0, h1, h2⟩ := h
  have key : lto np e ei x = if x < e.ff 0 then ei 0 else
      if x < e.ff 1 then ei 0 + (ei 1 - ei 0) / (e.ff 1 - e.ff 0) * (x - e.ff 0) else
      if x < e.ff 2 then ei 1 + (ei 2 - ei 1) / (e.ff 2 - e.ff 1) * (x - e.ff 1) else
      if x < e.ff 3 then ei 2 + (ei 3 - ei 2) / (e.ff 3 - e.ff 2) * (x - e.ff 2) else ei 3 := by
    simp only [lto, np, interpR, interpGo]
  rw [key]
  refine ⟨?_, ?_, ?_⟩
  · intro h
    rcases h.lt_or_eq with h | h
    · rw [if_pos h]
    · rw [if_neg (by linarith), if_pos (by linarith), h]; ring
  · intro h
    rw [if_neg (by linarith), if_neg (by linarith), if_neg (by linarith), if_neg (by linarith)]
  · intro k
    fin_cases k
    · intro ha hb
      simp only [Fin.zero_eta, Fin.castSucc_zero, Fin.succ_zero_eq_one] at ha hb ⊢
      rw [if_neg (by linarith)]
      rcases hb.lt_or_eq with hb | hb
      · rw [if_pos hb, seg_eq h0]
      · rw [if_neg (by linarith), if_pos (by linarith), hb]; ring
    · intro ha hb
      change e.ff 1 ≤ x at ha
      change x ≤ e.ff 2 at hb
      change _ * (e.ff 2 - e.ff 1) = ei 1 * (e.ff 2 - x) + ei 2 * (x - e.ff 1)
      rw [if_neg (by linarith), if_neg (by linarith)]
      rcases hb.lt_or_eq with hb | hb
      · rw [if_pos hb, seg_eq h1]
      · rw [if_neg (by linarith), if_pos (by linarith), hb]; ring
    · intro ha hb
      change e.ff 2 ≤ x at ha
      change x ≤ e.ff 3 at hb
      change _ * (e.ff 3 - e.ff 2) = ei 2 * (e.ff 3 - x) + ei 3 * (x - e.ff 2)
      rw [if_neg (by linarith), if_neg (by linarith), if_neg (by linarith)]
      rcases hb.lt_or_eq with hb | hb
      · rw [if_pos hb, seg_eq h2]
      · rw [if_neg (by linarith), hb]; ring

theorem lto_spec_casadi (e : Params ℝ) (ei : Fin 4 → ℝ) (h : Ordered e.ff) (x : ℝ) :
    IsLtoExt e.ff ei x (lto casadi e ei x) := by
  obtain ⟨h0, h1, h2⟩ := h
  have key : lto casadi e ei x =
      if x < e.ff 1 then ei 0 + (ei 1 - ei 0) / (e.ff 1 - e.ff 0) * (x - e.ff 0) else
      if x < e.ff 2 then ei 1 + (ei 2 - ei 1) / (e.ff 2 - e.ff 1) * (x - e.ff 1) else
      ei 2 + (ei 3 - ei 2) / (e.ff 3 - e.ff 2) * (x - e.ff 2) := by
    simp only [lto, casadi, interpCa]
  rw [key]
  intro k
  fin_cases k
  · intro _ hb
    change (0 : Fin 3) = 2 ∨ x ≤ e.ff 1 at hb
    change _ * (e.ff 1 - e.ff 0) = ei 0 * (e.ff 1 - x) + ei 1 * (x - e.ff 0)
    have hb : x ≤ e.ff 1 := by simpa using hb
    rcases hb.lt_or_eq with hb | hb
    · rw [if_pos hb, seg_eq h0]
    · rw [if_neg (by linarith), if_pos (by linarith), hb]; ring
  · intro ha hb
    change (1 : Fin 3) = 0 ∨ e.ff 1 ≤ x at ha
    change (1 : Fin 3) = 2 ∨ x ≤ e.ff 2 at hb
    change _ * (e.ff 2 - e.ff 1) = ei 1 * (e.ff 2 - x) + ei 2 * (x - e.ff 1)
    have ha : e.ff 1 ≤ x := by simpa using ha
    have hb : x ≤ e.ff 2 := by simpa using hb
    rw [if_neg (by linarith)]
    rcases hb.lt_or_eq with hb | hb
    · rw [if_pos hb, seg_eq h1]
    · rw [if_neg (by linarith), hb]; ring
  · intro ha _
    change (2 : Fin 3) = 0 ∨ e.ff 2 ≤ x at ha
    change _ * (e.ff 3 - e.ff 2) = ei 2 * (e.ff 3 - x) + ei 3 * (x - e.ff 2)
    have ha : e.ff 2 ≤ x := by simpa using ha
    rw [if_neg (by linarith), if_neg (by linarith), seg_eq h2]

/-- Every point is on some segment or outside. -/
theorem cover {xs : Fin 4 → ℝ} (x : ℝ) :
    x ≤ xs 0 ∨ xs 3 ≤ x ∨ ∃ k : Fin 3, xs k.castSucc ≤ x ∧ x ≤ xs k.succ := by
  by_cases a : x ≤ xs 0
  · exact Or.inl a
  by_cases b : x ≤ xs 1
  · exact Or.inr (Or.inr ⟨0, (not_le.1 a).le, b⟩)
  by_cases c : x ≤ xs 2
  · exact Or.inr (Or.inr ⟨1, (not_le.1 b).le, c⟩)
  by_cases d : x ≤ xs 3
  · exact Or.inr (Or.inr ⟨2, (not_le.1 c).le, d⟩)
  · exact Or.inr (Or.inl (not_le.1 d).le)

theorem step {ff : Fin 4 → ℝ} (h : Ordered ff) (k : Fin 3) : ff k.castSucc < ff k.succ := by
  obtain ⟨h0, h1, h2⟩ := h
  fin_cases k
  · exact h0
  · exact h1
  · exact h2

theorem IsLto.bounds {xs fs : Fin 4 → ℝ} {x v lo hi : ℝ} (h : IsLto xs fs x v) (ho : Ordered xs)
    (hl : ∀ k, lo ≤ fs k) (hh : ∀ k, fs k ≤ hi) : lo ≤ v ∧ v ≤ hi := by
  obtain ⟨a, b, c⟩ := h
  rcases cover (xs := xs) x with h | h | ⟨k, h1, h2⟩
  · rw [a h]; exact ⟨hl 0, hh 0⟩
  · rw [b h]; exact ⟨hl 3, hh 3⟩
  · have e := c k h1 h2
    have hs := step ho k
    have p1 := hl k.castSucc
    have p2 := hl k.succ
    have p3 := hh k.castSucc
    have p4 := hh k.succ
    constructor
    · by_contra hc
      push Not at hc
      nlinarith [mul_nonneg (sub_nonneg.2 p1) (sub_nonneg.2 h2), mul_nonneg (sub_nonneg.2 p2) (sub_nonneg.2 h1), mul_pos (sub_pos.2 hc) (sub_pos.2 hs)]
    · by_contra hc
      push Not at hc
      nlinarith [mul_nonneg (sub_nonneg.2 p3) (sub_nonneg.2 h2), mul_nonneg (sub_nonneg.2 p4) (sub_nonneg.2 h1), mul_pos (sub_pos.2 hc) (sub_pos.2 hs)]

/-- Closed forms of the sea-level conversion. -/
theorem fl2sl_eq (e : Params ℝ) (w v alt dT : ℝ) (ha : 0.0019812 * alt < 288.15) :
    (fl2sl np e w v alt dT).1 =
      bffmFuel (w / e.number) (temperature np (alt * 0.3048) dT) alt
        (tas2mach np (v * 0.514444) (alt * 0.3048) dT) *
        exp (-0.06 * tas2mach np (v * 0.514444) (alt * 0.3048) dT ^ 2) ∧
    (fl2sl np e w v alt dT).2 =
      bffmRatio (temperature np (alt * 0.3048) dT) alt *
        exp (0.054 * tas2mach np (v * 0.514444) (alt * 0.3048) dT ^ 2) := by
  have hT : 0 < temperature np (alt * 0.3048) dT := by rw [temperature_eq]; exact temp_pos _ _
  have hd : 0 < 1 - 0.0019812 * alt / 288.15 := by
    rw [sub_pos, div_lt_iff₀ (by norm_num)]; linarith
  have e1 : (1.0 : ℝ) = 1 := by norm_num
  have npow : ∀ x y : ℝ, np.power x y = x ^ y := fun _ _ => rfl
  have nexp : ∀ x : ℝ, np.exp x = exp x := fun _ => rfl
  simp only [fl2sl, npow, nexp, kts, ft, e1, bffmFuel, bffmRatio, bffmDelta]
  set M2 := tas2mach np (v * 0.514444) (alt * 0.3048) dT ^ 2 with hM2
  set th := temperature np (alt * 0.3048) dT / 288.15 with hth
  have hth0 : 0 < th := by positivity
  set d := (1 - 0.0019812 * alt / 288.15) ^ (5.255876 : ℝ) with hdd
  have hd0 : 0 < d := by positivity
  have hx : ∀ (c : ℝ), exp (0.2 * M2) ^ c = exp (0.2 * M2 * c) := fun c => (exp_mul _ _).symm
  constructor
  · rw [div_rpow hth0.le (exp_pos _).le, hx, hx]
    rw [div_eq_mul_inv (th ^ (3.8 : ℝ)), ← exp_neg]
    rw [show d / exp (0.2 * M2 * 3.5) = d * exp (-(0.2 * M2 * 3.5)) by rw [exp_neg]; ring]
    rw [div_mul_eq_div_div, ]
    rw [show ∀ a : ℝ, a / exp (-(0.2 * M2 * 3.5)) = a * exp (0.2 * M2 * 3.5) by
      intro a; rw [exp_neg]; field_simp]
    have : exp (-(0.2 * M2 * 3.8)) * exp (0.2 * M2 * 3.5) * exp (0.2 * M2) =
        exp (0.2 * M2) * exp (-0.06 * M2) := by
      rw [← exp_add, ← exp_add, ← exp_add]; congr 1; ring
    linear_combination w / e.number * th ^ (3.8 : ℝ) / d * this
  · rw [div_rpow hth0.le (exp_pos _).le, hx, hx, div_rpow hd0.le (exp_pos _).le, ← exp_mul]
    have : exp (0.2 * M2 * 3.5 * 1.02) = exp (0.054 * M2) * exp (0.2 * M2 * 3.3) := by
      rw [← exp_add]; congr 1; ring
    rw [this]
    have h1 := exp_pos (0.2 * M2 * 3.3)
    have h2 := exp_pos (0.054 * M2)
    have h3 : 0 < d ^ (1.02 : ℝ) := by positivity
    generalize th ^ (3.3 : ℝ) = a
    field_simp

end Verif.Emission
