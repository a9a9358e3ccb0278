import Verif.Lemmas.Filters
import Verif.Lemmas.NR
import Mathlib.Tactic.Linarith
import Mathlib.Tactic.FieldSimp
import Mathlib.Tactic.LinearCombination
import Mathlib.Tactic.Positivity

/-!
# The time-weighted filter: the loop and the window formula
-/

namespace Verif.Filters
open Verif

/-! ## sums over `NR` -/

theorem nrSum_vals {ι : Type} (l : List ι) (g : ι → ℝ) :
    nrSum (l.map fun k => NR.val (g k)) = .val (l.map g).sum := by
  induction l with
  | nil => rfl
  | cons a l ih =>
    simp only [nrSum, List.map_cons, List.foldr_cons, List.sum_cons] at ih ⊢
    rw [ih]; rfl

theorem nrSum_range (n : ℕ) (g : ℕ → ℝ) :
    nrSum ((List.range n).map fun k => NR.val (g k)) = .val (∑ k ∈ Finset.range n, g k) := by
  rw [nrSum_vals]; rfl

theorem nrSum_nan {l : List NR} (h : NR.nan ∈ l) : nrSum l = .nan := by
  induction l with
  | nil => simp at h
  | cons a l ih =>
    rcases List.mem_cons.1 h with e | e
    · subst e; simp [nrSum]
    · have := ih e
      simp only [nrSum, List.foldr_cons] at this ⊢
      rw [this]; simp

theorem val_div_zero (x : NR) : x / NR.val 0 = .nan := by
  cases x with
  | nan => rfl
  | val a => change (if (0:ℝ) = 0 then NR.nan else _) = _; simp

theorem nr_half (a b : ℝ) : (NR.val a + .val b) / NR.val 2 = .val ((a + b) / 2) := by
  rw [NR.val_add, NR.val_div _ _ (by norm_num)]

/-! ## the loop -/

theorem twf_fold {w : ℤ} {X Y : List ℝ} {start : List NR} (hs : start.length = 2) (m : ℕ)
    (hok : ∀ (YF : List NR) (k : ℕ), YF.length = k + 2 → ∃ y, twfValue w X Y YF (k + 2) = .ok y) :
    ∃ out, (List.range m).foldlM (twfStep w X Y) start = .ok out ∧ out.length = m + 2 ∧
      out.take 2 = start ∧
      ∀ i, 2 ≤ i → i < m + 2 → ∃ y, out[i]? = some y ∧ twfValue w X Y (out.take i) i = .ok y := by
  induction m with
  | zero => exact ⟨start, rfl, by simpa using hs, List.take_of_length_le hs.le, fun i h1 h2 => by omega⟩
  | succ m ih =>
    obtain ⟨out, h1, h2, h3, h4⟩ := ih
    obtain ⟨y, hy⟩ := hok out m h2
    refine ⟨out ++ [y], ?_, by simp [h2], ?_, ?_⟩
    · rw [List.range_succ, List.foldlM_append, h1]
      simp [bind, Except.bind, pure, Except.pure, twfStep, hy]
    · rw [List.take_append_of_le_length (by omega)]; exact h3
    · intro i g1 g2
      rcases Nat.lt_or_ge i (m + 2) with c | c
      · obtain ⟨y', e1, e2⟩ := h4 i g1 c
        refine ⟨y', ?_, ?_⟩
        · rw [List.getElem?_append_left (by omega)]; exact e1
        · rw [List.take_append_of_le_length (by omega)]; exact e2
      · have : i = m + 2 := by omega
        subst this
        refine ⟨y, ?_, ?_⟩
        · rw [List.getElem?_append_right (by omega), h2]; simp
        · rw [← h2, List.take_left, h2]; exact hy

/-! ## the window formula -/

theorem slice_reverse {β : Type} (l : List β) (z : β) (a b : ℕ) (hb : b ≤ l.length) :
    (slice l a b).reverse = (List.range (b - a)).map fun k => l.getD (b - 1 - k) z := by
  apply List.ext_getElem
  · simp [slice]; omega
  · intro k h1 h2
    have hk : k < b - a := by simpa using h2
    simp only [List.getElem_reverse, List.getElem_map, List.getElem_range, slice, List.getElem_drop,
      List.getElem_take, List.length_drop, List.length_take]
    rw [List.getD_eq_getElem?_getD, List.getElem?_eq_getElem (by omega), Option.getD_some]
    congr 1
    omega

theorem range_tail (n : ℕ) {β : Type} (g : ℕ → β) :
    ((List.range n).map g).tail = (List.range (n - 1)).map fun k => g (k + 1) := by
  apply List.ext_getElem
  · simp
  · intro k h1 h2; simp

theorem range_dropLast (n : ℕ) {β : Type} (g : ℕ → β) :
    ((List.range n).map g).dropLast = (List.range (n - 1)).map g := by
  apply List.ext_getElem
  · simp
  · intro k h1 h2; simp

theorem zipWith_range {β γ δ : Type} (n : ℕ) (f : β → γ → δ) (g : ℕ → β) (h : ℕ → γ) :
    List.zipWith f ((List.range n).map g) ((List.range n).map h) =
      (List.range n).map fun k => f (g k) (h k) := by
  rw [List.zipWith_map, List.zipWith_self]

/-- The reciprocal gap used by the filter (note the sign). -/
noncomputable def invGap (X : List ℝ) (i k : ℕ) : NR :=
  NR.val 1 / .val (X.getD (i - 3 - k) 0 - X.getD (i - 2 - k) 0)

theorem twfValue_window {v : ℕ} {X Y : List ℝ} {YF : List NR} {i : ℕ} (hi : v + 2 ≤ i)
    (hX : i ≤ X.length) (hYF : YF.length = i) :
    twfValue ((v : ℤ) + 2) X Y YF i = .ok ((
      (YF.getD (i - 2) .nan + nrSum ((List.range v).map fun k =>
        invGap X i k * YF.getD (i - 3 - k) .nan)) /
      (.val 1 + nrSum ((List.range v).map (invGap X i))) + .val (Y.getD i 0)) / .val 2) := by
  unfold twfValue
  rw [if_neg (by omega)]
  simp only
  rw [show ((i : ℤ) - ((v : ℤ) + 2)).toNat = i - (v + 2) by omega,
    slice_reverse X 0 _ _ (by omega), slice_reverse YF .nan _ _ (by omega),
    show i - 1 - (i - (v + 2)) = v + 1 by omega, range_tail, range_dropLast, Nat.add_sub_cancel,
    zipWith_range]
  have e : (List.range (v + 1)).map (fun k => YF.getD (i - 1 - 1 - k) .nan) =
      YF.getD (i - 2) .nan :: (List.range v).map fun k => YF.getD (i - 3 - k) .nan := by
    rw [List.range_succ_eq_map, List.map_cons, List.map_map]
    congr 1
    apply List.map_congr_left
    intro k _
    simp only [Function.comp]
    congr 1; omega
  rw [e]
  simp only
  have e2 : (List.range v).map (fun k => NR.val 1 / .val (X.getD (i - 1 - 1 - (k + 1)) 0 -
      X.getD (i - 1 - 1 - k) 0)) = (List.range v).map (invGap X i) := by
    apply List.map_congr_left
    intro k _
    unfold invGap
    rw [show i - 1 - 1 - (k + 1) = i - 3 - k by omega, show i - 1 - 1 - k = i - 2 - k by omega]
  rw [e2, zipWith_range]

theorem twfValue_early {w : ℤ} {X Y : List ℝ} {YF : List NR} {i : ℕ} (hi : (i : ℤ) < w) :
    twfValue w X Y YF i = .ok ((nrAvg (YF.take (i - 1)) + .val (Y.getD i 0)) / .val 2) := by
  unfold twfValue; rw [if_pos hi]

theorem twfValue_ok {w : ℤ} (hw : 2 ≤ w) {X Y : List ℝ} {YF : List NR} {k : ℕ}
    (hYF : YF.length = k + 2) : ∃ y, twfValue w X Y YF (k + 2) = .ok y := by
  unfold twfValue
  split_ifs with h
  · exact ⟨_, rfl⟩
  · simp only
    split
    · rename_i e
      have h1 := congrArg List.length e
      simp only [slice, List.length_reverse, List.length_drop, List.length_take,
        List.length_nil] at h1
      omega
    · exact ⟨_, rfl⟩

/-- `TWF.filter` on sorted data: it succeeds and each value satisfies the recurrence. -/
theorem twf_spec {w : ℤ} (hw : 2 ≤ w) {X Y : List ℝ} (hl : X.length = Y.length)
    (hx : X.Pairwise (· ≤ ·)) (hn : 2 ≤ X.length) :
    ∃ out, twf w X Y = .ok (X, out) ∧ out.length = X.length ∧
      out[0]? = some (.val (Y.getD 0 0)) ∧ out[1]? = some (.val (Y.getD 1 0)) ∧
      ∀ i, 2 ≤ i → i < X.length →
        ∃ y, out[i]? = some y ∧ twfValue w X Y (out.take i) i = .ok y := by
  have hne : X ≠ [] := by rintro rfl; simp at hn
  unfold twf
  rw [sortxy_sorted hl hne hx]
  simp only [bind, Except.bind, pure, Except.pure]
  obtain ⟨y0, y1, ys, rfl⟩ : ∃ a b c, Y = a :: b :: c := by
    rcases Y with _ | ⟨a, _ | ⟨b, c⟩⟩
    · simp only [List.length_nil] at hl; omega
    · simp only [List.length_nil, List.length_cons] at hl; omega
    · exact ⟨a, b, c, rfl⟩
  simp only
  obtain ⟨out, h1, h2, h3, h4⟩ := twf_fold (w := w) (X := X) (Y := y0 :: y1 :: ys)
    (start := [.val y0, .val y1]) rfl (X.length - 2) (fun YF k h => twfValue_ok hw h)
  have e : X.length - 2 + 2 = X.length := by omega
  rw [e] at h2 h4
  rw [h1]
  refine ⟨out, rfl, h2, ?_, ?_, h4⟩
  · have := congrArg (·[0]?) h3
    rw [List.getElem?_take_of_lt (by omega)] at this
    simpa using this
  · have := congrArg (·[1]?) h3
    rw [List.getElem?_take_of_lt (by omega)] at this
    simpa using this

theorem getD_take {out : List NR} {j i : ℕ} (h : j < i) {y : NR} (hy : out[j]? = some y) :
    (out.take i).getD j .nan = y := by
  rw [List.getD_eq_getElem?_getD, List.getElem?_take_of_lt h, hy]; rfl

/-- The average of values known to be `g 0, g 1, ..`. -/
theorem nrAvg_take {out : List NR} {m : ℕ} (hm : 0 < m) (g : ℕ → ℝ)
    (hg : ∀ j, j < m → out[j]? = some (.val (g j))) :
    nrAvg (out.take m) = .val ((∑ j ∈ Finset.range m, g j) / m) := by
  have e : out.take m = (List.range m).map fun k => NR.val (g k) := by
    apply List.ext_getElem?
    intro j
    rcases Nat.lt_or_ge j m with h | h
    · rw [List.getElem?_take_of_lt h, hg j h, List.getElem?_map, List.getElem?_range h]; rfl
    · rw [List.getElem?_eq_none (by simp; omega), List.getElem?_eq_none (by simpa using h)]
  unfold nrAvg
  rw [e, nrSum_range, NR.val_div _ _ (by simp; omega)]
  simp

/-- The window branch when all values are finite and the times increase. -/
theorem twfValue_finite {v : ℕ} {X Y : List ℝ} {out : List NR} {i : ℕ} (hi : v + 2 ≤ i)
    (hX : i < X.length) (hout : out.length = X.length) (g : ℕ → ℝ)
    (hg : ∀ j, j + 1 < i → out[j]? = some (.val (g j)))
    (hinc : ∀ k, k < v → X.getD (i - 3 - k) 0 ≠ X.getD (i - 2 - k) 0)
    (hden : 1 - ∑ k ∈ Finset.range v, 1 / (X.getD (i - 2 - k) 0 - X.getD (i - 3 - k) 0) ≠ 0) :
    twfValue ((v : ℤ) + 2) X Y (out.take i) i = .ok (.val ((
      (g (i - 2) - ∑ k ∈ Finset.range v,
        1 / (X.getD (i - 2 - k) 0 - X.getD (i - 3 - k) 0) * g (i - 3 - k)) /
      (1 - ∑ k ∈ Finset.range v, 1 / (X.getD (i - 2 - k) 0 - X.getD (i - 3 - k) 0)) +
        Y.getD i 0) / 2)) := by
  rw [twfValue_window hi hX.le (by rw [List.length_take]; omega)]
  have hgap : ∀ k ∈ List.range v, invGap X i k =
      .val (-(1 / (X.getD (i - 2 - k) 0 - X.getD (i - 3 - k) 0))) := by
    intro k hk
    unfold invGap
    have := hinc k (List.mem_range.1 hk)
    rw [NR.val_div _ _ (sub_ne_zero.2 this)]
    congr 1
    rw [← neg_sub, div_neg]
  have e1 : (List.range v).map (invGap X i) = (List.range v).map fun k =>
      NR.val (-(1 / (X.getD (i - 2 - k) 0 - X.getD (i - 3 - k) 0))) :=
    List.map_congr_left hgap
  have e2 : (List.range v).map (fun k => invGap X i k * (out.take i).getD (i - 3 - k) .nan) =
      (List.range v).map fun k =>
        NR.val (-(1 / (X.getD (i - 2 - k) 0 - X.getD (i - 3 - k) 0)) * g (i - 3 - k)) := by
    apply List.map_congr_left
    intro k hk
    have := List.mem_range.1 hk
    rw [hgap k hk, getD_take (by omega) (hg _ (by omega))]
    rfl
  rw [e1, e2, nrSum_range, nrSum_range, getD_take (by omega) (hg _ (by omega))]
  simp only [neg_mul, Finset.sum_neg_distrib, NR.val_add, ← sub_eq_add_neg]
  rw [NR.val_div _ _ hden, nr_half]

end Verif.Filters
