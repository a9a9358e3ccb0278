import Verif.Model.Fuzzy
import Verif.Model.Phase
import Verif.Spec.Phase
import Mathlib.Tactic.Linarith
import Mathlib.Tactic.NormNum
import Mathlib.Tactic.Ring
import Mathlib.Tactic.Positivity
import Mathlib.Tactic.FieldSimp

/-! Lemmas on membership functions. -/

namespace Verif.Fuzzy
open Verif Verif.PhaseSpec

theorem gaussmf_eq_bell (x m s : ℝ) : gaussmf x m s = bell m s x := by
  unfold gaussmf bell
  congr 1
  rw [div_pow, div_div, neg_div]
  congr 2
  ring

theorem rise_mem (a b x : ℝ) : 0 ≤ rise a b x ∧ rise a b x ≤ 1 := by
  unfold rise
  split_ifs with h1 h2 h3
  · norm_num
  · norm_num
  · push Not at h1 h2
    have hp : 0 < b - a := by linarith
    have : (x - a) / (b - a) ≤ 1 / 2 := by rw [div_le_iff₀ hp]; linarith
    have h0 : 0 ≤ (x - a) / (b - a) := div_nonneg (by linarith) hp.le
    constructor
    · positivity
    · nlinarith
  · push Not at h1 h2 h3
    have hp : 0 < b - a := by linarith
    have : (b - x) / (b - a) ≤ 1 / 2 := by rw [div_le_iff₀ hp]; linarith
    have h0 : 0 ≤ (b - x) / (b - a) := div_nonneg (by linarith) hp.le
    constructor
    · nlinarith
    · nlinarith

theorem smfAt_eq_rise {a b : ℝ} (h : a < b) (x : ℝ) : smfAt x a b = rise a b x := by
  have hp : b - a ≠ 0 := by linarith
  simp only [smfAt, rise]
  norm_num only
  rcases lt_trichotomy x a with h1 | rfl | h1
  · rw [if_neg (by rintro ⟨h2, -⟩; linarith), if_neg (by rintro ⟨h2, -⟩; linarith),
      if_pos h1.le, if_pos h1.le]
  · rw [if_neg (by rintro ⟨h2, -⟩; linarith), if_pos ⟨le_refl _, by linarith⟩, if_pos (le_refl _)]
    simp
  · rw [if_neg (not_le.2 h1), if_neg (not_le.2 h1)]
    rcases le_or_gt b x with h2 | h2
    · rw [if_pos h2]
      rcases h2.eq_or_lt with rfl | h2
      · rw [if_pos ⟨by linarith, le_refl _⟩]; simp
      · rw [if_neg (by rintro ⟨-, h3⟩; linarith), if_neg (by rintro ⟨-, h3⟩; linarith)]
    · rw [if_neg (not_le.2 h2)]
      rcases lt_trichotomy x ((a + b) / 2) with h3 | h3 | h3
      · rw [if_neg (by rintro ⟨h4, -⟩; linarith), if_pos ⟨h1.le, h3.le⟩, if_pos h3.le]
      · rw [if_pos ⟨h3.ge, h2.le⟩, if_pos h3.le, h3]
        field_simp
        ring
      · rw [if_pos ⟨h3.le, h2.le⟩, if_neg (not_le.2 h3)]
        rw [div_pow, div_pow]; ring

theorem zmfAt_eq_fall {a b : ℝ} (h : a < b) (x : ℝ) : zmfAt x a b = fall a b x := by
  have hp : b - a ≠ 0 := by linarith
  simp only [zmfAt, fall, rise]
  norm_num only
  rcases le_or_gt b x with h2 | h2
  · rw [if_pos h2, if_neg (by linarith), if_pos h2]; norm_num
  · rw [if_neg (not_le.2 h2)]
    rcases le_or_gt x a with h1 | h1
    · rw [if_neg (by rintro ⟨h3, -⟩; linarith), if_pos h1]
      rcases h1.eq_or_lt with rfl | h1
      · rw [if_pos ⟨le_refl _, by linarith⟩]; simp
      · rw [if_neg (by rintro ⟨h3, -⟩; linarith)]; norm_num
    · rw [if_neg (not_le.2 h1), if_neg (not_le.2 h2)]
      rcases lt_trichotomy x ((a + b) / 2) with h3 | h3 | h3
      · rw [if_neg (by rintro ⟨h4, -⟩; linarith), if_pos ⟨h1.le, h3⟩, if_pos h3.le]
      · rw [if_pos ⟨h3.ge, h2.le⟩, if_pos h3.le, h3]
        field_simp
        ring
      · rw [if_pos ⟨h3.le, h2.le⟩, if_neg (not_le.2 h3)]
        rw [div_pow, div_pow]; ring

theorem rise_mono (a b : ℝ) : Monotone (rise a b) := by
  intro x y hxy
  have hy := rise_mem a b y
  have hx := rise_mem a b x
  rcases le_or_gt x a with h1 | h1
  · have : rise a b x = 0 := by unfold rise; rw [if_pos h1]
    rw [this]; exact hy.1
  rcases le_or_gt b y with h2 | h2
  · have : rise a b y = 1 := by unfold rise; rw [if_neg (by linarith), if_pos h2]
    rw [this]; exact hx.2
  have hp : 0 < b - a := by linarith
  have hi : 0 < (b - a)⁻¹ := inv_pos.2 hp
  unfold rise
  rw [if_neg (not_le.2 h1), if_neg (by linarith), if_neg (by linarith : ¬ y ≤ a),
    if_neg (not_le.2 h2)]
  have m : ∀ u v : ℝ, u ≤ v → u / (b - a) ≤ v / (b - a) := fun u v h =>
    div_le_div_of_nonneg_right h hp.le
  have half : ∀ u : ℝ, u ≤ (b - a) / 2 → u / (b - a) ≤ 1 / 2 := fun u h => by
    rw [div_le_iff₀ hp]; linarith
  have n0 : ∀ u : ℝ, 0 ≤ u → 0 ≤ u / (b - a) := fun u h => div_nonneg h hp.le
  split_ifs with c1 c2 c2
  · have := m _ _ (by linarith : x - a ≤ y - a)
    have := n0 (x - a) (by linarith)
    nlinarith
  · have := half (x - a) (by linarith)
    have := half (b - y) (by linarith)
    have := n0 (x - a) (by linarith)
    have := n0 (b - y) (by linarith)
    nlinarith
  · linarith
  · have := m _ _ (by linarith : b - y ≤ b - x)
    have := n0 (b - y) (by linarith)
    nlinarith

/-! ## Interpolation on a regular grid -/

theorem between_mem {d : ℝ} {f : ℝ → ℝ} {x lo hi : ℝ}
    (h1 : lo ≤ f (⌊x / d⌋ * d)) (h2 : lo ≤ f ((⌊x / d⌋ + 1) * d))
    (h3 : f (⌊x / d⌋ * d) ≤ hi) (h4 : f ((⌊x / d⌋ + 1) * d) ≤ hi) :
    lo ≤ between d f x ∧ between d f x ≤ hi := by
  have a := Int.fract_nonneg (x / d)
  have b := (Int.fract_lt_one (x / d)).le
  unfold between
  constructor <;> nlinarith

open Verif.Phase (arange)

theorem interpGo_grid {d a : ℝ} (hd : 0 < d) (f : ℝ → ℝ) (x : ℝ) (k : ℤ) (ha : a = k * d) (m : ℕ) :
    ∀ i : ℕ, a + i * d ≤ x → x ≤ a + (i + m) * d →
    interpGo x (a + i * d) (f (a + i * d))
      ((List.range' (i + 1) m).map fun j : ℕ => a + j * d)
      (((List.range' (i + 1) m).map fun j : ℕ => a + j * d).map f) = between d f x := by
  induction m with
  | zero =>
    intro i h1 h2
    simp only [List.range'_zero, List.map_nil, interpGo]
    have : x = (k + i) * d := by
      have : x = a + i * d := le_antisymm (by simpa using h2) h1
      rw [this, ha]; ring
    have q : x / d = ((k + i : ℤ) : ℝ) := by rw [this]; push_cast; field_simp
    unfold between
    rw [q, Int.fract_intCast, Int.floor_intCast]
    push_cast
    rw [ha]
    simp [add_mul]
  | succ m ih =>
    intro i h1 h2
    rw [List.range'_succ]
    simp only [List.map_cons, interpGo]
    split_ifs with h
    · have q : ⌊x / d⌋ = k + i := by
        rw [Int.floor_eq_iff]
        push_cast
        constructor
        · rw [le_div_iff₀ hd]; linarith
        · rw [div_lt_iff₀ hd]; push_cast at h; linarith
      have e1 : ((⌊x / d⌋ : ℤ) : ℝ) * d = a + i * d := by rw [q, ha]; push_cast; ring
      have e2 : (((⌊x / d⌋ : ℤ) : ℝ) + 1) * d = a + ((i + 1 : ℕ) : ℝ) * d := by
        rw [q, ha]; push_cast; ring
      have e3 : Int.fract (x / d) = (x - (a + i * d)) / d := by
        unfold Int.fract
        rw [← e1]; field_simp
      unfold between
      rw [e1, e2, e3]
      have : a + ((i + 1 : ℕ) : ℝ) * d - (a + i * d) = d := by push_cast; ring
      rw [this]
      field_simp
      ring
    · push Not at h
      exact ih (i + 1) h (by push_cast; push_cast at h2; linarith)

theorem interp_grid {d a : ℝ} (hd : 0 < d) (f : ℝ → ℝ) (x : ℝ) (k : ℤ) (ha : a = k * d) (n : ℕ)
    (h1 : a ≤ x) (h2 : x ≤ a + n * d) :
    interpMembership (arange a d (n + 1)) ((arange a d (n + 1)).map f) x = between d f x := by
  unfold interpMembership arange
  have e : (List.range (n + 1)).map (fun i : ℕ => a + (i : ℝ) * d) =
      (a + (0 : ℕ) * d) :: (List.range' 1 n).map (fun i : ℕ => a + (i : ℝ) * d) := by
    rw [List.range_eq_range', List.range'_succ]; rfl
  have l : ((List.range (n + 1)).map (fun i : ℕ => a + (i : ℝ) * d)).getLastD 0 = a + n * d := by
    rw [List.range_succ]; simp
  rw [l, e, if_neg (by simp; linarith), if_neg (by linarith)]
  simp only [List.map_cons, interpR]
  rw [if_neg (by simp; linarith)]
  have := interpGo_grid hd f x k ha n 0 (by simpa using h1) (by simpa using h2)
  simpa using this

/-! ## Maxima -/

theorem foldl_max_spec (l : List ℝ) : ∀ x, x ≤ l.foldl max x ∧ (∀ y ∈ l, y ≤ l.foldl max x) ∧
    (l.foldl max x = x ∨ l.foldl max x ∈ l) := by
  induction l with
  | nil => intro x; simp
  | cons z l ih =>
    intro x
    obtain ⟨h1, h2, h3⟩ := ih (max x z)
    refine ⟨(le_max_left _ _).trans h1, ?_, ?_⟩
    · intro y hy
      rcases List.mem_cons.1 hy with rfl | hy
      · exact (le_max_right _ _).trans h1
      · exact h2 y hy
    · rcases h3 with h3 | h3
      · simp only [List.foldl_cons]
        rw [h3]
        rcases max_choice x z with h | h
        · left; exact h
        · right; rw [h]; exact List.mem_cons_self
      · right; exact List.mem_cons_of_mem _ h3

theorem npMax_le {l : List ℝ} {x : ℝ} (h : x ∈ l) : x ≤ npMax l := by
  cases l with
  | nil => cases h
  | cons y l =>
    rcases List.mem_cons.1 h with rfl | h
    · exact (foldl_max_spec l _).1
    · exact (foldl_max_spec l _).2.1 x h

theorem npMax_mem {l : List ℝ} (h : l ≠ []) : npMax l ∈ l := by
  cases l with
  | nil => exact absurd rfl h
  | cons y l =>
    rcases (foldl_max_spec l y).2.2 with e | e
    · show l.foldl max y ∈ _; rw [e]; exact List.mem_cons_self
    · exact List.mem_cons_of_mem _ e

theorem npMax_eq {l : List ℝ} {x : ℝ} (h : x ∈ l) (hx : ∀ y ∈ l, y ≤ x) : npMax l = x :=
  le_antisymm (hx _ (npMax_mem (List.ne_nil_of_mem h))) (npMax_le h)

theorem npMin_neg (l : List ℝ) : npMin l = -npMax (l.map (- ·)) := by
  cases l with
  | nil => simp [npMin, npMax]
  | cons x l =>
    simp only [npMin, npMax, List.map_cons]
    induction l generalizing x with
    | nil => simp
    | cons y l ih =>
      simp only [List.foldl_cons, List.map_cons]
      rw [ih, max_neg_neg]

theorem npMin_le {l : List ℝ} {x : ℝ} (h : x ∈ l) : npMin l ≤ x := by
  rw [npMin_neg]
  have := npMax_le (List.mem_map_of_mem (f := fun x : ℝ => -x) h)
  linarith

theorem npMin_mem {l : List ℝ} (h : l ≠ []) : npMin l ∈ l := by
  rw [npMin_neg]
  have := npMax_mem (l := l.map (- ·)) (by simpa using h)
  obtain ⟨y, hy, e⟩ := List.mem_map.1 this
  rw [← e, neg_neg]; exact hy

end Verif.Fuzzy
