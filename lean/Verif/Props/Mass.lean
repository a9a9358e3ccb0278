import Verif.Model.Mass
import Verif.Lemmas.Construct

/-!
# C41, C42: take-off mass estimate
-/

namespace Verif.Props
open Verif Verif.Mass Verif.Tables Verif.Registry
open Verif.Data (shipped)

/-- **C41.** When the load factor is in [0, 1] and the payload with full fuel is not negative,
the mass lies between OEW and MTOW (the fraction between OEW/MTOW and 1); it is non-decreasing
in distance, strictly increasing between 20 % and 100 % of the design range, and constant
below and above. -/
theorem C41_mass_between (mtow oew mfc range lf : ℝ) (hm : 0 < mtow) (hf : 0 < mfc)
    (hr : 0 < range) :
    (∀ d, 0 ≤ oew → 0 ≤ lf → lf ≤ 1 → mfc * 0.8025 ≤ mtow - oew →
      oew ≤ mass mtow oew mfc range d lf false ∧ mass mtow oew mfc range d lf false ≤ mtow ∧
      oew / mtow ≤ mass mtow oew mfc range d lf true ∧ mass mtow oew mfc range d lf true ≤ 1) ∧
    Monotone (fun d => mass mtow oew mfc range d lf false) ∧
    Monotone (fun d => mass mtow oew mfc range d lf true) ∧
    StrictMonoOn (fun d => mass mtow oew mfc range d lf false) (Set.Icc (0.2 * range) range) ∧
    (∀ d, d ≤ 0.2 * range →
      mass mtow oew mfc range d lf false = mass mtow oew mfc range 0 lf false) ∧
    (∀ d, range ≤ d →
      mass mtow oew mfc range d lf false = mass mtow oew mfc range range lf false) := by
  have key : ∀ d b, mass mtow oew mfc range d lf b =
      (oew + min (max (d / range) 0.2) 1 * (mfc * 0.8025) + (mtow - mfc * 0.8025 - oew) * lf) /
        (if b then mtow else 1) := by
    intro d b
    cases b <;> simp [mass, clipR]
  have hmono : Monotone fun d : ℝ => min (max (d / range) 0.2) (1:ℝ) := by
    intro a b hab
    simp only
    gcongr
  refine ⟨?_, ?_, ?_, ?_, ?_, ?_⟩
  · intro d h0 h1 h2 h3
    have c1 : (0.2:ℝ) ≤ min (max (d / range) 0.2) 1 := le_min (le_max_right _ _) (by norm_num)
    have c2 : min (max (d / range) 0.2) 1 ≤ (1:ℝ) := min_le_right _ _
    simp only [key, if_true, Bool.false_eq_true, if_false, div_one]
    generalize min (max (d / range) 0.2) (1:ℝ) = c at c1 c2
    have hcap : 0 ≤ mtow - mfc * 0.8025 - oew := by linarith
    have hF : 0 < mfc * 0.8025 := by positivity
    have g1 : oew ≤ oew + c * (mfc * 0.8025) + (mtow - mfc * 0.8025 - oew) * lf := by
      have : 0 ≤ c * (mfc * 0.8025) := by
        have : (0:ℝ) ≤ c := by linarith
        positivity
      have : 0 ≤ (mtow - mfc * 0.8025 - oew) * lf := mul_nonneg hcap h1
      linarith
    have g2 : oew + c * (mfc * 0.8025) + (mtow - mfc * 0.8025 - oew) * lf ≤ mtow := by
      have a1 : c * (mfc * 0.8025) ≤ 1 * (mfc * 0.8025) := by gcongr
      have a2 : (mtow - mfc * 0.8025 - oew) * lf ≤ (mtow - mfc * 0.8025 - oew) * 1 := by gcongr
      linarith
    exact ⟨g1, g2, by gcongr, by rw [div_le_one hm]; exact g2⟩
  · intro a b hab
    have := hmono hab
    simp only [key, Bool.false_eq_true, if_false, div_one] at this ⊢
    gcongr
  · intro a b hab
    have := hmono hab
    simp only [key, if_true] at this ⊢
    gcongr
  · rintro a ⟨ha1, ha2⟩ b ⟨hb1, hb2⟩ hab
    simp only [key, Bool.false_eq_true, if_false, div_one]
    have e : ∀ d, 0.2 * range ≤ d → d ≤ range → min (max (d / range) 0.2) 1 = d / range := by
      intro d h1 h2
      rw [max_eq_left (by rw [le_div_iff₀ hr]; exact h1),
        min_eq_left (by rw [div_le_one hr]; exact h2)]
    rw [e a ha1 ha2, e b hb1 hb2]
    gcongr
  · intro d hd
    simp only [key, Bool.false_eq_true, if_false, div_one]
    rw [max_eq_right (by rw [div_le_iff₀ hr]; exact hd), zero_div, max_eq_right (by norm_num)]
  · intro d hd
    simp only [key, Bool.false_eq_true, if_false, div_one]
    rw [div_self hr.ne', min_eq_right, min_eq_right]
    · exact le_max_left _ _
    · refine le_trans ?_ (le_max_left _ _)
      rw [le_div_iff₀ hr]; linarith

/-- The A320: 78 t MTOW, 42.6 t OEW, 24210 l fuel, range 5000. -/
example : (42600:ℝ) ≤ mass 78000 42600 24210 5000 3000 0.8 false ∧
    mass 78000 42600 24210 5000 3000 0.8 false ≤ 78000 := by
  have := (C41_mass_between 78000 42600 24210 5000 0.8 (by norm_num) (by norm_num)
    (by norm_num)).1 3000 (by norm_num) (by norm_num) (by norm_num) (by norm_num)
  exact ⟨this.1, this.2.1⟩

/-- `"a332"`, `"a306"`, `"crj9"`. -/
def codeA332 : Str := [97, 51, 51, 50]
@[inherit_doc codeA332] def codeA306 : Str := [97, 51, 48, 54]
@[inherit_doc codeA332] def codeCRJ9 : Str := [99, 114, 106, 57]

/-- **C42.** Over all offered type codes: CRJ9 raises `KeyError` for every input; for A332 and
A306 (a synonym of A332) the estimated mass strictly *decreases* as the load factor grows;
for every other type it strictly increases. -/
theorem C42_load_factor :
    ∀ ac ∈ availableAircraft shipped true, ∀ d : ℝ,
      (ac = codeCRJ9 → ∀ lf b, fromRange shipped ac d lf b true = .error .keyError) ∧
      (ac ∈ [codeA332, codeA306] → ∃ m : ℝ → ℝ,
        (∀ lf, fromRange shipped ac d lf false true = .ok (m lf)) ∧ StrictAnti m) ∧
      (ac ∉ [codeCRJ9, codeA332, codeA306] → ∃ m : ℝ → ℝ,
        (∀ lf, fromRange shipped ac d lf false true = .ok (m lf)) ∧ StrictMono m) := by
  intro ac hac d
  have table : (availableAircraft shipped true).all (fun ac =>
      match aircraft shipped ac true with
      | .error _ => false
      | .ok a => decide ((ac = codeCRJ9 → a.range = none) ∧
          (ac ∈ [codeA332, codeA306] → a.range ≠ none ∧
            a.mtow * 10000 < a.mfc * 8025 + a.oew * 10000) ∧
          (ac ∉ [codeCRJ9, codeA332, codeA306] → a.range ≠ none ∧
            a.mfc * 8025 + a.oew * 10000 < a.mtow * 10000))) = true := by
    decide +kernel
  have h := List.all_eq_true.1 table ac hac
  rcases ha : aircraft shipped ac true with e | a
  · rw [ha] at h; simp at h
  · rw [ha] at h
    simp only [decide_eq_true_eq] at h
    obtain ⟨h1, h2, h3⟩ := h
    have hcap : ∀ r, (a.range = some r) → ∀ lf, fromRange shipped ac d lf false true =
        .ok (mass (real a.mtow) (real a.oew) (real a.mfc) (real r) d lf false) := by
      intro r hr lf
      simp only [fromRange, ha, hr]
    refine ⟨?_, ?_, ?_⟩
    · intro hc lf b
      simp only [fromRange, ha, h1 hc]
    · intro hc
      obtain ⟨hr, hlt⟩ := h2 hc
      obtain ⟨r, hr⟩ := Option.ne_none_iff_exists'.1 hr
      refine ⟨_, hcap r hr, ?_⟩
      intro x y hxy
      simp only [mass, Bool.false_eq_true, if_false]
      have : real a.mtow - real a.mfc * 0.8025 - real a.oew < 0 := by
        have : (a.mtow:ℝ) * 10000 < a.mfc * 8025 + a.oew * 10000 := by exact_mod_cast hlt
        unfold real
        linarith
      nlinarith
    · intro hc
      obtain ⟨hr, hlt⟩ := h3 hc
      obtain ⟨r, hr⟩ := Option.ne_none_iff_exists'.1 hr
      refine ⟨_, hcap r hr, ?_⟩
      intro x y hxy
      simp only [mass, Bool.false_eq_true, if_false]
      have : 0 < real a.mtow - real a.mfc * 0.8025 - real a.oew := by
        have : (a.mfc:ℝ) * 8025 + a.oew * 10000 < a.mtow * 10000 := by exact_mod_cast hlt
        unfold real
        linarith
      nlinarith

/-- **C42 (consequence).** For the A332 and its synonym A306 at or beyond the design range
(12500) every load factor below 1, in particular the default 0.8, gives a mass above the MTOW of
230 t. -/
theorem C42_a332_above_mtow (ac : Str) (syn : Bool)
    (hac : ac = codeA332 ∨ ac = codeA306 ∧ syn = true) (d lf : ℝ) (hd : 12500 ≤ d) (hl : lf < 1) :
    ∃ m, fromRange shipped ac d lf false syn = .ok m ∧ 230000 < m := by
  have table : ∀ x ∈ [(codeA332, false), (codeA332, true), (codeA306, true)],
      (match aircraft shipped x.1 x.2 with
      | .error _ => false
      | .ok a => decide (a.mtow = 230000 * 10 ^ 16 ∧ a.oew = 120200 * 10 ^ 16 ∧
          a.mfc = 139000 * 10 ^ 16 ∧ a.range = some (12500 * 10 ^ 16))) = true := by
    decide +kernel
  have table := table (ac, syn) (by
    rcases hac with rfl | ⟨rfl, rfl⟩
    · cases syn <;> simp
    · simp)
  rcases ha : aircraft shipped ac syn with e | a
  · rw [ha] at table; simp at table
  · rw [ha] at table
    simp only [decide_eq_true_eq] at table
    obtain ⟨h1, h2, h3, h4⟩ := table
    refine ⟨mass (real a.mtow) (real a.oew) (real a.mfc) (real (12500 * 10 ^ 16)) d lf false,
      by simp only [fromRange, ha, h4], ?_⟩
    have er : ∀ n : ℕ, real (n * 10 ^ 16) = n := by
      intro n
      unfold real
      push_cast
      norm_num
    rw [h1, h2, h3, er, er, er, er]
    simp only [mass, clipR, Bool.false_eq_true, if_false]
    have : min (max (d / ((12500:ℕ):ℝ)) 0.2) 1 = 1 := by
      apply min_eq_right
      refine le_trans ?_ (le_max_left _ _)
      rw [le_div_iff₀ (by norm_num)]
      push_cast
      linarith
    rw [this]
    push_cast
    norm_num
    linarith

/-- The three exceptional codes are offered. -/
example : codeCRJ9 ∈ availableAircraft shipped true ∧ codeA332 ∈ availableAircraft shipped true ∧
    codeA306 ∈ availableAircraft shipped true := by decide +kernel

end Verif.Props
