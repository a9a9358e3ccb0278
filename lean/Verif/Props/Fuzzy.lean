import Verif.Lemmas.Phase
import Verif.Lemmas.NR

/-!
# C64, C92, C93: fuzzy memberships, interpolation and defuzzification
-/

namespace Verif.Props
open Verif Verif.Fuzzy Verif.PhaseSpec

/-- **C64.** For feet `a < b`, `zmf` and `smf` return one degree in `[0, 1]` per element; the two add
up to 1; `smf` is 0 up to `a`, 1 from `b` on, one half in the middle, and never falls as `x` grows
(so `zmf` never rises). -/
theorem C64_feet (xs : List ℝ) {a b : ℝ} (hab : a < b) :
    ∃ z s : ℝ → ℝ, zmf xs a b = .ok (xs.map z) ∧ smf xs a b = .ok (xs.map s) ∧
      (∀ x, 0 ≤ z x ∧ z x ≤ 1) ∧ (∀ x, 0 ≤ s x ∧ s x ≤ 1) ∧ (∀ x, z x + s x = 1) ∧
      (∀ x ≤ a, s x = 0) ∧ (∀ x ≥ b, s x = 1) ∧ s ((a + b) / 2) = 1 / 2 ∧
      Monotone s ∧ Antitone z ∧ (∀ x y, a ≤ x → x < y → y ≤ b → s x < s y) := by
  refine ⟨fun x => zmfAt x a b, fun x => smfAt x a b, if_pos hab.le, if_pos hab.le, ?_⟩
  simp only [zmfAt_eq_fall hab, smfAt_eq_rise hab]
  have hp : 0 < b - a := by linarith
  have mono := rise_mono a b
  refine ⟨fun x => ?_, rise_mem a b, fun x => by simp [fall], fun x h => if_pos h, fun x h => ?_,
    ?_, mono, fun x y h => ?_, fun x y h1 h2 h3 => ?_⟩
  · have := rise_mem a b x; unfold fall; constructor <;> linarith
  · unfold rise; rw [if_neg (by linarith), if_pos h]
  · unfold rise
    rw [if_neg (by linarith), if_neg (by linarith), if_pos (le_refl _)]
    have : (a + b) / 2 - a = (b - a) / 2 := by ring
    have h2 : (b - a) / 2 / (b - a) = 1 / 2 := by field_simp
    rw [this, h2]; norm_num
  · have := mono h; unfold fall; linarith
  · have m : ∀ u v : ℝ, u < v → u / (b - a) < v / (b - a) := fun u v h =>
      div_lt_div_of_pos_right h hp
    have n0 : ∀ u : ℝ, 0 ≤ u → 0 ≤ u / (b - a) := fun u h => div_nonneg h hp.le
    have nh : ∀ u : ℝ, u ≤ (b - a) / 2 → u / (b - a) ≤ 1 / 2 := fun u h => by
      rw [div_le_iff₀ hp]; linarith
    have nh' : ∀ u : ℝ, u < (b - a) / 2 → u / (b - a) < 1 / 2 := fun u h => by
      rw [div_lt_iff₀ hp]; linarith
    rcases le_or_gt y ((a + b) / 2) with c | c
    · have e : ∀ w, a ≤ w → w ≤ (a + b) / 2 → rise a b w = 2 * ((w - a) / (b - a)) ^ 2 := by
        intro w h4 h5
        unfold rise
        rcases h4.eq_or_lt with rfl | h4
        · simp
        · rw [if_neg (by linarith), if_neg (by linarith), if_pos h5]
      rw [e x h1 (by linarith), e y (by linarith) c]
      have := m _ _ (by linarith : x - a < y - a)
      have := n0 (x - a) (by linarith)
      nlinarith
    · have e : ∀ w, (a + b) / 2 < w → w ≤ b → rise a b w = 1 - 2 * ((b - w) / (b - a)) ^ 2 := by
        intro w h4 h5
        unfold rise
        rcases h5.eq_or_lt with rfl | h5
        · rw [if_neg (by linarith), if_pos (le_refl _)]; simp
        · rw [if_neg (by linarith), if_neg (by linarith), if_neg (by linarith)]
      rw [e y c h3]
      have q1 := nh' (b - y) (by linarith)
      have q2 := n0 (b - y) (by linarith)
      rcases le_or_gt x ((a + b) / 2) with d | d
      · have : rise a b x ≤ 1 / 2 := by
          unfold rise
          split_ifs
          · norm_num
          · linarith
          · have := nh (x - a) (by linarith)
            have := n0 (x - a) (by linarith)
            nlinarith
        nlinarith
      · rw [e x d (by linarith)]
        have := m _ _ (by linarith : b - y < b - x)
        nlinarith

/-- The altitude memberships of `FlightPhase`: 100 ft is half on the ground. -/
example : ∃ z : ℝ → ℝ, zmf [0, 100, 300] (0:ℝ) 200 = .ok [z 0, z 100, z 300] ∧ z 100 = 1 / 2 ∧
    z 300 = 0 := by
  obtain ⟨z, s, h1, -, -, -, h2, -, h3, h4, -⟩ := C64_feet [0, 100, 300] (by norm_num : (0:ℝ) < 200)
  refine ⟨z, h1, ?_, ?_⟩
  · have := h2 100
    norm_num at h4
    linarith
  · have := h2 300
    have := h3 300 (by norm_num)
    linarith

/-- **C64, Gaussian.** For a non-zero width the Gaussian membership is in `(0, 1]`, equal to 1 exactly
at the centre, symmetric about it, and falls strictly with the distance from it. -/
theorem C64_gauss (m : ℝ) {s : ℝ} (hs : s ≠ 0) :
    (∀ x, 0 < gaussmf x m s ∧ gaussmf x m s ≤ 1) ∧ (∀ x, gaussmf x m s = 1 ↔ x = m) ∧
    (∀ x, gaussmf (m + x) m s = gaussmf (m - x) m s) ∧
    (∀ x y, |x - m| < |y - m| → gaussmf y m s < gaussmf x m s) := by
  have hp : 0 < 2 * s ^ 2 := by positivity
  have lt : ∀ x y, |x - m| < |y - m| → gaussmf y m s < gaussmf x m s := by
    intro x y h
    unfold gaussmf
    apply Real.exp_lt_exp.2
    rw [div_lt_div_iff_of_pos_right hp]
    have := sq_lt_sq.2 h
    linarith
  have at_m : gaussmf m m s = 1 := by simp [gaussmf]
  have lt1 : ∀ x, x ≠ m → gaussmf x m s < 1 := by
    intro x hx
    rw [← at_m]
    apply lt
    rw [sub_self, abs_zero]
    exact abs_pos.2 (sub_ne_zero.2 hx)
  refine ⟨fun x => ⟨Real.exp_pos _, ?_⟩, fun x => ⟨fun h => ?_, fun h => h ▸ at_m⟩, fun x => ?_, lt⟩
  · by_cases h : x = m
    · rw [h, at_m]
    · exact (lt1 x h).le
  · by_contra hx; exact (lt1 x hx).ne h
  · unfold gaussmf; congr 2; ring

/-- **C64, feet in the wrong order** are refused. -/
theorem C64_assertion (xs : List ℝ) {a b : ℝ} (hab : b < a) :
    zmf xs a b = .error .assertionError ∧ smf xs a b = .error .assertionError :=
  ⟨if_neg (not_le.2 hab), if_neg (not_le.2 hab)⟩

theorem nr_le (x y : ℝ) : ((NR.val x : NR) ≤ NR.val y) ↔ x ≤ y := Iff.rfl
theorem nr_lt (x y : ℝ) : ((NR.val x : NR) < NR.val y) ↔ x < y := Iff.rfl

/-- **C64, missing values.** With NaN arithmetic a missing value has degree 1 in `zmf` and in
`smf`, whatever the feet. -/
theorem C64_missing {a b : ℝ} (hab : a ≤ b) :
    zmf [NR.nan] (.val a) (.val b) = .ok [.val 1] ∧
    smf [NR.nan] (.val a) (.val b) = .ok [.val 1] := by
  have l : ∀ y : NR, ¬ (NR.nan ≤ y) := fun y h => h
  have r : ∀ y : NR, ¬ (y ≤ NR.nan) := fun y h => by cases y <;> exact h
  have one : (1.0 : NR) = .val 1 := by rw [NR.val_sci]; norm_num
  unfold zmf smf
  rw [if_pos (show (NR.val a : NR) ≤ .val b from hab)]
  constructor
  · simp only [List.map_cons, List.map_nil, zmfAt, l, r, false_and, and_false, if_false, one]
  · rw [if_pos (show (NR.val a : NR) ≤ .val b from hab)]
    simp only [List.map_cons, List.map_nil, smfAt, l, r, and_false, if_false, one]

theorem ite_val {p : Prop} [h : Decidable p] (x y : ℝ) :
    (if p then (NR.val x : NR) else .val y) = .val (if p then x else y) := by
  by_cases hp : p
  · rw [if_pos hp, if_pos hp]
  · rw [if_neg hp, if_neg hp]

/-- **C64, missing values (rest).** For `a < b` numbers get the same degrees with NaN arithmetic as
over the reals, so missing values do not affect them. -/
theorem C64_numbers (xs : List ℝ) {a b : ℝ} (hab : a < b) :
    zmf (xs.map NR.val) (.val a) (.val b) = (zmf xs a b).map (·.map NR.val) ∧
    smf (xs.map NR.val) (.val a) (.val b) = (smf xs a b).map (·.map NR.val) := by
  have hd : b - a ≠ 0 := by linarith
  have h2 : (2.0 : ℝ) ≠ 0 := by norm_num
  have hle : (NR.val a : NR) ≤ .val b := hab.le
  have half : ((NR.val a : NR) + .val b) / (2.0 : NR) = .val ((a + b) / 2.0) := by
    rw [NR.val_sci, NR.val_add, NR.val_div _ _ h2]
  have one : (1.0 : NR) = .val 1.0 := NR.val_sci ..
  have zero : (0.0 : NR) = .val 0.0 := NR.val_sci ..
  have two : (2.0 : NR) = .val 2.0 := NR.val_sci ..
  unfold zmf smf
  rw [if_pos hle, if_pos hle, if_pos hab.le, if_pos hab.le]
  simp only [Except.map, List.map_map]
  refine ⟨congrArg _ (List.map_congr_left fun x _ => ?_), congrArg _ (List.map_congr_left fun x _ => ?_)⟩
  · simp only [Function.comp, zmfAt, nr_le, NR.val_sub, NR.val_div _ _ hd,
      NR.val_pow _ 2 two_ne_zero, one, zero, two, NR.val_mul]
    simp only [ite_val]
    rw [half]
    rfl
  · simp only [Function.comp, smfAt, nr_le, NR.val_sub, NR.val_div _ _ hd,
      NR.val_pow _ 2 two_ne_zero, one, zero, two, NR.val_mul]
    simp only [ite_val]
    rw [half]
    rfl

/-- **C64, equal feet.** With `a = b` and NaN arithmetic `zmf` is the sharp step, but `smf` is NaN
at the step itself. -/
theorem C64_equal_feet (a : ℝ) :
    zmf [NR.val a] (.val a) (.val a) = .ok [.val 0] ∧
    smf [NR.val a] (.val a) (.val a) = .ok [.nan] ∧
    (∀ x, x < a → smf [NR.val x] (.val a) (.val a) = .ok [.val 0] ∧
      zmf [NR.val x] (.val a) (.val a) = .ok [.val 1]) ∧
    (∀ x, a < x → smf [NR.val x] (.val a) (.val a) = .ok [.val 1] ∧
      zmf [NR.val x] (.val a) (.val a) = .ok [.val 0]) := by
  have half : ((NR.val a : NR) + .val a) / (2.0 : NR) = .val a := by
    change (if (2.0 : ℝ) = 0 then NR.nan else NR.val ((a + a) / 2.0)) = _
    rw [if_neg (by norm_num)]; congr 1; norm_num
  have one : (1.0 : NR) = .val 1 := by rw [NR.val_sci]; norm_num
  have zero : (0.0 : NR) = .val 0 := by rw [NR.val_sci]; norm_num
  have two : (2.0 : NR) = .val 2 := by rw [NR.val_sci]; norm_num
  have dz : ∀ x : ℝ, (NR.val x - .val a : NR) / (.val a - .val a) = .nan := by
    intro x
    change (if (a - a : ℝ) = 0 then NR.nan else _) = _
    rw [if_pos (sub_self a)]
  have refl : (NR.val a : NR) ≤ .val a := le_refl a
  have nan2 : (NR.nan : NR) ^ 2 = .nan := NR.nan_pow 2 (by norm_num)
  refine ⟨?_, ?_, ?_, ?_⟩
  · unfold zmf zmfAt
    rw [if_pos refl]
    simp only [List.map_cons, List.map_nil]
    rw [if_pos refl, zero]
  · unfold smf smfAt
    rw [if_pos refl]
    simp only [List.map_cons, List.map_nil, half]
    rw [if_pos ⟨refl, refl⟩, dz, nan2]
    simp
  · intro x hx
    have n1 : ¬ (NR.val a : NR) ≤ .val x := not_le.2 hx
    have n2 : (NR.val x : NR) ≤ .val a := hx.le
    constructor
    · unfold smf smfAt
      rw [if_pos refl]
      simp only [List.map_cons, List.map_nil, half]
      rw [if_neg (fun h => n1 h.1), if_neg (fun h => n1 h.1), if_pos n2, zero]
    · unfold zmf zmfAt
      rw [if_pos refl]
      simp only [List.map_cons, List.map_nil, half]
      rw [if_neg n1, if_neg (fun h => n1 h.1), if_neg (fun h => n1 h.1), one]
  · intro x hx
    have n1 : (NR.val a : NR) ≤ .val x := hx.le
    have n2 : ¬ (NR.val x : NR) ≤ .val a := not_le.2 hx
    constructor
    · unfold smf smfAt
      rw [if_pos refl]
      simp only [List.map_cons, List.map_nil, half]
      rw [if_neg (fun h => n2 h.2), if_neg (fun h => n2 h.2), if_neg n2, one]
    · unfold zmf zmfAt
      rw [if_pos refl]
      simp only [List.map_cons, List.map_nil, half]
      rw [if_pos n1, zero]

/-! ## Defuzzification -/

/-- The elements of `x` where the membership is largest. -/
def IsPeak (x mfx : List ℝ) (v : ℝ) : Prop :=
  ∃ i, ∃ (h : i < x.length) (h' : i < mfx.length), x[i] = v ∧ ∀ m ∈ mfx, m ≤ mfx[i]

theorem mem_atMax_iff (x mfx : List ℝ) (v : ℝ) : v ∈ atMax x mfx ↔ IsPeak x mfx v := by
  unfold atMax IsPeak
  simp only [List.mem_map, List.mem_filter, decide_eq_true_eq]
  constructor
  · rintro ⟨⟨a, b⟩, ⟨h1, h2⟩, rfl⟩
    obtain ⟨i, hi, e⟩ := List.mem_iff_getElem.1 h1
    rw [List.length_zip] at hi
    rw [List.getElem_zip] at e
    obtain ⟨e1, e2⟩ := Prod.mk.inj e
    refine ⟨i, by omega, by omega, e1, ?_⟩
    intro m hm
    rw [e2]; simp only at h2; rw [h2]; exact npMax_le hm
  · rintro ⟨i, h, h', rfl, hm⟩
    refine ⟨(x[i], mfx[i]), ⟨?_, ?_⟩, rfl⟩
    · exact List.mem_iff_getElem.2 ⟨i, by simp; omega, by simp⟩
    · exact (npMax_eq (List.getElem_mem h') hm).symm

theorem sum_bounds (l : List ℝ) {lo hi : ℝ} (h : ∀ v ∈ l, lo ≤ v ∧ v ≤ hi) :
    lo * l.length ≤ l.sum ∧ l.sum ≤ hi * l.length := by
  induction l with
  | nil => simp
  | cons a l ih =>
    have h1 := h a List.mem_cons_self
    have h2 := ih fun v hv => h v (List.mem_cons_of_mem _ hv)
    simp only [List.sum_cons, List.length_cons]
    push_cast
    constructor <;> nlinarith

/-- **C92.** On non-empty arrays of equal length, `som` and `lom` are the smallest and the largest
position of the maximal membership and `mom` lies between them; letter case of the mode does not
matter. Unequal lengths and other modes raise ValueError. -/
theorem C92_defuzz (x mfx : List ℝ) (hne : mfx ≠ []) (hl : x.length = mfx.length) :
    ∃ s m l : ℝ, defuzz x mfx "som".toList = .ok s ∧ defuzz x mfx "mom".toList = .ok m ∧
      defuzz x mfx "lom".toList = .ok l ∧ defuzz x mfx "LOM".toList = .ok l ∧
      IsPeak x mfx s ∧ IsPeak x mfx l ∧ (∀ v, IsPeak x mfx v → s ≤ v ∧ v ≤ l) ∧
      s ≤ m ∧ m ≤ l := by
  have hpk : atMax x mfx ≠ [] := by
    obtain ⟨i, hi, e⟩ := List.mem_iff_getElem.1 (npMax_mem hne)
    apply List.ne_nil_of_mem (a := x[i]'(by omega))
    rw [mem_atMax_iff]
    exact ⟨i, by omega, hi, rfl, fun m hm => by rw [e]; exact npMax_le hm⟩
  have hb : ∀ v ∈ atMax x mfx, npMin (atMax x mfx) ≤ v ∧ v ≤ npMax (atMax x mfx) :=
    fun v hv => ⟨npMin_le hv, npMax_le hv⟩
  have hs := sum_bounds _ hb
  have hpos : (0:ℝ) < (atMax x mfx).length := by exact_mod_cast List.length_pos_of_ne_nil hpk
  have c1 : contains "som".toList ("som".toList.map Char.toLower) = true := by decide
  have c2 : contains "mom".toList ("som".toList.map Char.toLower) = false := by decide
  have c3 : contains "mom".toList ("mom".toList.map Char.toLower) = true := by decide
  have c4 : contains "lom".toList ("LOM".toList.map Char.toLower) = true := by decide
  have c5 : contains "mom".toList ("LOM".toList.map Char.toLower) = false := by decide
  have c6 : contains "som".toList ("LOM".toList.map Char.toLower) = false := by decide
  refine ⟨npMin (atMax x mfx), npMean (atMax x mfx), npMax (atMax x mfx), ?_, ?_,
    Phase.defuzz_lom x mfx hl, ?_, (mem_atMax_iff ..).1 (npMin_mem hpk),
    (mem_atMax_iff ..).1 (npMax_mem hpk), fun v hv => hb v ((mem_atMax_iff ..).2 hv), ?_, ?_⟩
  · unfold defuzz; simp only [c1, c2]; simp [hl]
  · unfold defuzz; simp only [c3]; simp [hl]
  · unfold defuzz; simp only [c4, c5, c6]; simp [hl]
  · unfold npMean; rw [le_div_iff₀ hpos]; exact hs.1
  · unfold npMean; rw [div_le_iff₀ hpos]; exact hs.2

/-- A plateau: the maximal membership is reached at 2 and 3 only. -/
example : ∃ m, defuzz [1, 2, 3] [0.5, 0.7, 0.7] "mom".toList = .ok m ∧ 2 ≤ m ∧ m ≤ 3 := by
  obtain ⟨s, m, l, -, h, -, -, ⟨i, hi, hi', hs, hs'⟩, ⟨j, hj, hj', hl, -⟩, -, h1, h2⟩ :=
    C92_defuzz [1, 2, 3] [0.5, 0.7, 0.7] (by simp) rfl
  refine ⟨m, h, ?_, ?_⟩
  · refine le_trans ?_ h1
    rw [← hs]
    have h07 := hs' 0.7 (by simp)
    rcases i with _ | _ | _ | i
    · norm_num at h07
    · norm_num
    · norm_num
    · exact absurd hi (by simp)
  · refine h2.trans ?_
    rw [← hl]
    rcases j with _ | _ | _ | j
    · norm_num
    · norm_num
    · norm_num
    · exact absurd hj (by simp)

theorem filter_zip_sum (P : ℝ → Prop) [DecidablePred P] (x mfx : List ℝ)
    (hl : x.length = mfx.length) :
    (((x.zip mfx).filter fun p => P p.2).map Prod.fst).sum =
      ∑ i ∈ Finset.range mfx.length, (if P (mfx.getD i 0) then x.getD i 0 else 0) ∧
    ((((x.zip mfx).filter fun p => P p.2).map Prod.fst).length : ℝ) =
      ∑ i ∈ Finset.range mfx.length, (if P (mfx.getD i 0) then 1 else 0) := by
  induction mfx generalizing x with
  | nil => simp
  | cons m mfx ih =>
    rcases x with _ | ⟨a, x⟩
    · simp at hl
    obtain ⟨h1, h2⟩ := ih x (by simpa using hl)
    rw [List.length_cons, Finset.sum_range_succ', Finset.sum_range_succ']
    simp only [List.getD_cons_succ, List.getD_cons_zero, List.zip_cons_cons]
    rw [← h1, ← h2]
    by_cases hp : P m
    · simp [hp, add_comm]
    · simp [hp]

/-- **C92, mom.** The mean of maxima is the mean of the points with maximal membership. -/
theorem C92_mean_of_maxima (x mfx : List ℝ) (hne : mfx ≠ []) (hl : x.length = mfx.length)
    (peaks : Finset ℕ)
    (hp : ∀ i, i ∈ peaks ↔ i < mfx.length ∧ ∀ v ∈ mfx, v ≤ mfx.getD i 0) :
    peaks.Nonempty ∧
    defuzz x mfx "mom".toList = .ok ((∑ i ∈ peaks, x.getD i 0) / peaks.card) := by
  have c3 : contains "mom".toList ("mom".toList.map Char.toLower) = true := by decide
  have e : defuzz x mfx "mom".toList = .ok (npMean (atMax x mfx)) := by
    unfold defuzz; simp only [c3]; simp [hl]
  obtain ⟨h1, h2⟩ := filter_zip_sum (fun v => v = npMax mfx) x mfx hl
  have hpe : peaks = (Finset.range mfx.length).filter fun i => mfx.getD i 0 = npMax mfx := by
    ext i
    rw [hp, Finset.mem_filter, Finset.mem_range]
    constructor
    · rintro ⟨hi, h⟩
      refine ⟨hi, le_antisymm ?_ (h _ (npMax_mem hne))⟩
      rw [List.getD_eq_getElem?_getD, List.getElem?_eq_getElem hi, Option.getD_some]
      exact npMax_le (List.getElem_mem hi)
    · rintro ⟨hi, h⟩
      exact ⟨hi, fun v hv => by rw [h]; exact npMax_le hv⟩
  constructor
  · obtain ⟨i, hi, e⟩ := List.mem_iff_getElem.1 (npMax_mem hne)
    exact ⟨i, (hp i).2 ⟨hi, fun v hv => by
      rw [List.getD_eq_getElem?_getD, List.getElem?_eq_getElem hi, Option.getD_some, e]
      exact npMax_le hv⟩⟩
  · rw [e, hpe, Finset.sum_filter, Finset.card_filter]
    unfold npMean atMax
    rw [h1, h2]
    push_cast
    rfl

/-- The plateau at 2 and 3 has mean 2.5. -/
example : defuzz [1, 2, 3] [0.5, 0.7, 0.7] "mom".toList = .ok 2.5 := by
  obtain ⟨-, h⟩ := C92_mean_of_maxima [1, 2, 3] [0.5, 0.7, 0.7] (by simp) rfl {1, 2} (by
    intro i
    rcases i with _ | _ | _ | i
    · simp; norm_num
    · simp; norm_num
    · simp; norm_num
    · simp)
  rw [h]
  norm_num

/-- **C92, letter case.** -/
theorem C92_letter_case (x mfx : List ℝ) (mode mode' : List Char)
    (h : mode.map Char.toLower = mode'.map Char.toLower) :
    defuzz x mfx mode = defuzz x mfx mode' := by
  unfold defuzz
  rw [h]

example : ("MoM".toList.map Char.toLower) = "mom".toList.map Char.toLower := by decide

/-- **C92, errors.** -/
theorem C92_defuzz_errors (x mfx : List ℝ) (mode : List Char) :
    (x.length ≠ mfx.length → defuzz x mfx mode = .error .valueError) ∧
    ((∀ p q, ∀ c : Char, c = 'm' ∨ c = 's' ∨ c = 'l' →
        mode.map Char.toLower ≠ p ++ [c, 'o', 'm'] ++ q) → defuzz x mfx mode = .error .valueError) := by
  constructor
  · intro h; unfold defuzz; simp [h]
  · intro h
    have key : ∀ c : Char, c = 'm' ∨ c = 's' ∨ c = 'l' →
        contains [c, 'o', 'm'] (mode.map Char.toLower) = false := by
      intro c hc
      rw [Bool.eq_false_iff]
      intro hcon
      unfold contains at hcon
      rw [List.any_eq_true] at hcon
      obtain ⟨t, ht, hp⟩ := hcon
      rw [List.mem_tails] at ht
      rw [List.isPrefixOf_iff_prefix] at hp
      obtain ⟨p, hp1⟩ := ht
      obtain ⟨q, hq1⟩ := hp
      apply h p q c hc
      rw [← hp1, ← hq1]; simp
    have k1 : contains "mom".toList (mode.map Char.toLower) = false := key 'm' (by simp)
    have k2 : contains "som".toList (mode.map Char.toLower) = false := key 's' (by simp)
    have k3 : contains "lom".toList (mode.map Char.toLower) = false := key 'l' (by simp)
    unfold defuzz
    simp only [k1, k2, k3]
    simp

/-! ## Interpolated membership -/

theorem interpGo_bounds {x lo hi : ℝ} (xs fs : List ℝ) : ∀ x0 f0, x0 ≤ x →
    (x0 :: xs).Pairwise (· < ·) → xs.length = fs.length →
    (∀ f ∈ f0 :: fs, lo ≤ f ∧ f ≤ hi) →
    lo ≤ interpGo x x0 f0 xs fs ∧ interpGo x x0 f0 xs fs ≤ hi := by
  induction xs generalizing fs with
  | nil =>
    intro x0 f0 _ _ _ hf
    unfold interpGo
    exact hf f0 List.mem_cons_self
  | cons x1 xs ih =>
    intro x0 f0 h0 hp hl hf
    cases fs with
    | nil => simp at hl
    | cons f1 fs =>
      unfold interpGo
      have h01 : x0 < x1 := (List.pairwise_cons.1 hp).1 x1 List.mem_cons_self
      split_ifs with h
      · have a := hf f0 List.mem_cons_self
        have b := hf f1 (List.mem_cons_of_mem _ List.mem_cons_self)
        have hd : 0 < x1 - x0 := by linarith
        set t := (x - x0) / (x1 - x0) with ht
        have t0 : 0 ≤ t := div_nonneg (by linarith) hd.le
        have t1 : t ≤ 1 := by rw [ht, div_le_one hd]; linarith
        have e : f0 + (f1 - f0) / (x1 - x0) * (x - x0) = f0 + (f1 - f0) * t := by
          rw [ht]; ring
        rw [e]
        constructor <;> nlinarith
      · exact ih fs x1 f1 (not_lt.1 h) hp.of_cons (by simpa using hl)
          (fun f hf' => hf f (List.mem_cons_of_mem _ hf'))

theorem interpGo_node (xs fs : List ℝ) : ∀ x0 f0, (x0 :: xs).Pairwise (· < ·) →
    xs.length = fs.length → ∀ i, ∀ (h : i < (x0 :: xs).length) (h' : i < (f0 :: fs).length),
    interpGo ((x0 :: xs)[i]) x0 f0 xs fs = (f0 :: fs)[i] := by
  induction xs generalizing fs with
  | nil =>
    intro x0 f0 _ hl i h h'
    obtain rfl : i = 0 := by simp at h; omega
    rfl
  | cons x1 xs ih =>
    intro x0 f0 hp hl i h h'
    cases fs with
    | nil => simp at hl
    | cons f1 fs =>
      have h01 : x0 < x1 := (List.pairwise_cons.1 hp).1 x1 List.mem_cons_self
      cases i with
      | zero =>
        unfold interpGo
        simp [h01]
      | succ i =>
        unfold interpGo
        have hge : ¬ (x0 :: x1 :: xs)[i + 1] < x1 := by
          rw [List.getElem_cons_succ]
          cases i with
          | zero => simp
          | succ i =>
            rw [List.getElem_cons_succ]
            exact not_lt.2 ((List.pairwise_cons.1 hp.of_cons).1 _ (List.getElem_mem _)).le
        rw [if_neg hge]
        simp only [List.getElem_cons_succ]
        exact ih fs x1 f1 hp.of_cons (by simpa using hl) i (by simpa using h) (by simpa using h')

/-- **C93.** On a strictly increasing, non-empty universe `x`, the interpolated membership agrees with
the table at its nodes, stays within the range of the table inside the universe, and outside is 0
by default or the value at the nearer end on request. -/
theorem C93_interp_membership (x xmf : List ℝ) (hx : x.Pairwise (· < ·)) (hne : x ≠ [])
    (hl : x.length = xmf.length) (z : Bool) :
    (∀ i, ∀ (h : i < x.length) (h' : i < xmf.length),
      interpMembership x xmf x[i] z = xmf[i]) ∧
    (∀ lo hi, (∀ m ∈ xmf, lo ≤ m ∧ m ≤ hi) → ∀ xx, x.head hne ≤ xx → xx ≤ x.getLast hne →
      lo ≤ interpMembership x xmf xx z ∧ interpMembership x xmf xx z ≤ hi) ∧
    (∀ xx, xx < x.head hne ∨ x.getLast hne < xx →
      interpMembership x xmf xx true = 0 ∧ interpMembership x xmf xx = 0) ∧
    (∀ xx, xx < x.head hne → interpMembership x xmf xx false = xmf.headD 0) ∧
    (∀ xx, x.getLast hne < xx → interpMembership x xmf xx false = xmf.getLastD 0) := by
  cases x with
  | nil => exact absurd rfl hne
  | cons x0 xs =>
    cases xmf with
    | nil => simp at hl
    | cons f0 fs =>
      have hlast : (x0 :: xs).getLastD 0 = (x0 :: xs).getLast hne := by
        rw [List.getLastD_cons, List.getLast_eq_getLastD]
      have hhd : (x0 :: xs).headD 0 = x0 := rfl
      have hle : ∀ y ∈ x0 :: xs, x0 ≤ y ∧ y ≤ (x0 :: xs).getLast hne := by
        intro y hy
        constructor
        · rcases List.mem_cons.1 hy with rfl | hy
          · exact le_refl _
          · exact ((List.pairwise_cons.1 hx).1 y hy).le
        · exact (hx.imp le_of_lt).rel_getLast_of_rel_getLast_getLast hy (le_refl _)
      have inside : ∀ xx, x0 ≤ xx → xx ≤ (x0 :: xs).getLast hne →
          interpMembership (x0 :: xs) (f0 :: fs) xx z = interpGo xx x0 f0 xs fs := by
        intro xx h1 h2
        unfold interpMembership
        rw [hhd, hlast, if_neg (not_lt.2 h1), if_neg (not_lt.2 h2), interpR, if_neg (not_lt.2 h1)]
      have h0l := (hle x0 List.mem_cons_self).2
      refine ⟨?_, ?_, ?_, ?_, ?_⟩
      · intro i h h'
        have := hle _ (List.getElem_mem h)
        rw [inside _ this.1 this.2]
        exact interpGo_node xs fs x0 f0 hx (by simpa using hl) i h h'
      · intro lo hi hf xx h1 h2
        rw [inside xx h1 h2]
        exact interpGo_bounds xs fs x0 f0 h1 hx (by simpa using hl) hf
      · intro xx h
        unfold interpMembership
        rw [hhd, hlast]
        by_cases c : xx < x0
        · rw [if_pos c]; exact ⟨rfl, rfl⟩
        · rw [if_neg c, if_pos (h.resolve_left c)]; exact ⟨rfl, rfl⟩
      · intro xx h
        unfold interpMembership
        rw [hhd, if_pos (show xx < x0 from h)]; rfl
      · intro xx h
        unfold interpMembership
        rw [hhd, hlast, if_neg (by linarith), if_pos h]; rfl

example : interpMembership [0, 10, 20] [0, 1, 0] 10 true = 1 ∧
    interpMembership [0, 10, 20] [0, 1, 0] 25 true = 0 := by
  obtain ⟨h1, -, h2, -⟩ := C93_interp_membership [0, 10, 20] [0, 1, 0] (by simp; norm_num)
    (by simp) rfl true
  exact ⟨h1 1 (by simp) (by simp), (h2 25 (Or.inr (by norm_num))).1⟩

end Verif.Props
