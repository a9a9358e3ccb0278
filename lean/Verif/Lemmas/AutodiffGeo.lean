import Verif.Lemmas.AutodiffAero
import Verif.Lemmas.Geo

/-! Derivatives of distance, bearing and destination. -/

namespace Verif.AD
open Verif.NR Verif.Spec Verif.Geo

variable {E : Type} [NormedAddCommGroup E] [NormedSpace ℝ E] {f g a l c m h : E → ℝ} {x : E} {v : Mode x} [Laws v]
  {F G A L C M H : v.N}

theorem d2rT : Ex (fun _ : E => deg2rad np) x v (deg2rad v.b) :=
  divT (piT) (sciT _ _ _ : Ex (fun _ : E => (180.0 : ℝ)) x v 180.0) (by norm_num)

theorem r2dT : Ex (fun _ : E => rad2deg np) x v (rad2deg v.b) :=
  divT (sciT _ _ _ : Ex (fun _ : E => (180.0 : ℝ)) x v 180.0) (piT)
    Real.pi_ne_zero

theorem radT (hf : Ex f x v F) : Ex (fun y => f y * deg2rad np) x v
    (F * deg2rad v.b) := mulT hf d2rT

/-- Scalar product of two points of the globe as the code's haversine. -/
theorem hav_eq (a l c m : ℝ) :
    np.sin ((c * deg2rad np - a * deg2rad np) / 2.0) ^ 2 + np.cos (a * deg2rad np) *
      np.cos (c * deg2rad np) * np.sin ((m * deg2rad np - l * deg2rad np) / 2.0) ^ 2 =
    (1 - inner ℝ (globe a l) (globe c m)) / 2 := by
  have e2 : (2.0 : ℝ) = 2 := by norm_num
  rw [inner_globe, ← haversine_eq, e2]
  simp only [mul_deg2rad]
  rfl

theorem inner_lt_one {a l c m : ℝ} (h : globe a l ≠ globe c m) :
    inner ℝ (globe a l) (globe c m) < 1 :=
  (inner_lt_one_iff_real_of_norm_eq_one (norm_globe a l) (norm_globe c m)).2 h

theorem neg_one_lt_inner {a l c m : ℝ} (h : globe a l ≠ -globe c m) :
    -1 < inner ℝ (globe a l) (globe c m) := by
  have := (inner_lt_one_iff_real_of_norm_eq_one (norm_globe a l)
    ((norm_neg (globe c m)).trans (norm_globe c m))).2 h
  rw [inner_neg_right] at this
  linarith

/-- The haversine under the root. -/
theorem havT (ha : Ex a x v A) (hl : Ex l x v L) (hc : Ex c x v C)
    (hm : Ex m x v M) : ∃ (q : E → ℝ) (Q : v.N), Ex q x v Q ∧
      (∀ y, q y = (1 - inner ℝ (globe (a y) (l y)) (globe (c y) (m y))) / 2) ∧
      (∀ y, distance np (a y) (l y) (c y) (m y) (h y) =
        2.0 * np.arcsin (np.sqrt (q y)) * (rEarth + h y)) ∧
      distance v.b A L C M H = 2.0 * v.b.arcsin (v.b.sqrt Q) * (rEarth + H) := by
  have t2 : Ex (fun _ : E => (2.0 : ℝ)) x v 2.0 := sciT _ _ _
  have tq := addT (powT (sinT (divT (subT (radT hc) (radT ha)) t2 (by norm_num))) 2 two_ne_zero)
    (mulT (mulT (cosT (radT ha)) (cosT (radT hc)))
      (powT (sinT (divT (subT (radT hm) (radT hl)) t2 (by norm_num))) 2 two_ne_zero))
  exact ⟨_, _, tq, fun y => hav_eq _ _ _ _, fun _ => rfl, rfl⟩

theorem distanceT (ha : Ex a x v A) (hl : Ex l x v L) (hc : Ex c x v C)
    (hm : Ex m x v M) (hh : Ex h x v H)
    (h1 : globe (a x) (l x) ≠ globe (c x) (m x)) (h2 : globe (a x) (l x) ≠ -globe (c x) (m x)) :
    Ex (fun y => distance np (a y) (l y) (c y) (m y) (h y)) x v
      (distance v.b A L C M H) := by
  obtain ⟨q, Q, tq, e1, e2, e3⟩ := havT (h := h) (H := H) ha hl hc hm
  simp only [e2]
  rw [e3]
  have b1 := inner_lt_one h1
  have b2 := neg_one_lt_inner h2
  have ts := sqrtT tq (by rw [e1]; linarith)
  have hs : np.sqrt (q x) < 1 := by
    show Real.sqrt _ < 1
    rw [Real.sqrt_lt' one_pos, e1]; linarith
  exact mulT (mulT (sciT _ _ _ : Ex (fun _ : E => (2.0 : ℝ)) x v 2.0)
    (arcsinT ts (lt_of_lt_of_le (by norm_num) (Real.sqrt_nonneg _)) hs))
    (addT (sciT _ _ _ : Ex (fun _ : E => (rEarth : ℝ)) x v rEarth) hh)

/-- Compass angle of a vector in degrees, away from north. -/
theorem compass (e n : ℝ) (h : ¬ (0 ≤ n ∧ e = 0)) :
    fmodR (atan2R e n * (180 / Real.pi) + 360) 360 =
      (atan2R (-e) (-n) + Real.pi) * (180 / Real.pi) := by
  have hp := Real.pi_pos
  have hz : ((⟨-n, -e⟩ : ℂ)) = -(⟨n, e⟩ : ℂ) := by apply Complex.ext <;> simp
  obtain ⟨d1, d2⟩ := deg_arg e n
  unfold atan2R at *
  rw [hz]
  have hcase : (0 < e ∨ e = 0 ∧ n < 0) ∨ e < 0 := by
    rcases lt_trichotomy e 0 with he | he | he
    · exact Or.inr he
    · exact Or.inl (Or.inr ⟨he, not_le.1 fun hn => h ⟨hn, he⟩⟩)
    · exact Or.inl (Or.inl he)
  rcases hcase with hc | hc
  · rw [(Complex.arg_neg_eq_arg_sub_pi_iff (x := ⟨n, e⟩)).2 hc]
    have h0 : 0 ≤ Complex.arg ⟨n, e⟩ := Complex.arg_nonneg_iff.2 (by
      rcases hc with hc | hc
      · exact hc.le
      · exact hc.1.ge)
    have hd0 : 0 ≤ Complex.arg ⟨n, e⟩ * (180 / Real.pi) := by positivity
    set t := Complex.arg ⟨n, e⟩ * (180 / Real.pi) with ht
    have hq : 0 ≤ (t + 360) / 360 := by positivity
    have hfl : ⌊(t + 360) / 360⌋ = 1 := by
      rw [Int.floor_eq_iff]; push_cast
      constructor
      · rw [le_div_iff₀ (by norm_num)]; linarith
      · rw [div_lt_iff₀ (by norm_num)]; linarith
    simp only [fmodR, hq, if_true, hfl]
    rw [sub_add_cancel, ← ht]; push_cast; ring
  · rw [(Complex.arg_neg_eq_arg_add_pi_iff (x := ⟨n, e⟩)).2 (Or.inl hc)]
    have h0 : Complex.arg ⟨n, e⟩ < 0 := Complex.arg_neg_iff.2 hc
    have hd0 : Complex.arg ⟨n, e⟩ * (180 / Real.pi) < 0 :=
      mul_neg_of_neg_of_pos h0 (by positivity)
    have e2 : (Complex.arg ⟨n, e⟩ + Real.pi + Real.pi) * (180 / Real.pi) =
        Complex.arg ⟨n, e⟩ * (180 / Real.pi) + 360 := by field_simp; ring
    rw [e2]
    set t := Complex.arg ⟨n, e⟩ * (180 / Real.pi) with ht
    have hq : 0 ≤ (t + 360) / 360 := by
      apply div_nonneg _ (by norm_num); linarith
    have hfl : ⌊(t + 360) / 360⌋ = 0 := by
      rw [Int.floor_eq_iff]; push_cast
      constructor
      · linarith
      · rw [div_lt_iff₀ (by norm_num)]; linarith
    simp only [fmodR, hq, if_true, hfl]
    push_cast; ring

theorem compassT (hf : Ex f x v F) (hg : Ex g x v G) (h : ¬ (0 ≤ g x ∧ f x = 0)) :
    Ex (fun y => np.fmod (np.arctan2 (f y) (g y) * rad2deg np + 360.0) 360.0) x v
      (v.b.fmod (v.b.arctan2 F G * rad2deg v.b + 360.0) 360.0) := Laws.compass hf hg h

theorem bearingT (ha : Ex a x v A) (hl : Ex l x v L) (hc : Ex c x v C)
    (hm : Ex m x v M) (h0 : bearing np (a x) (l x) (c x) (m x) ≠ 0) :
    Ex (fun y => bearing np (a y) (l y) (c y) (m y)) x v (bearing v.b A L C M) := by
  have tx := mulT (sinT (subT (radT hm) (radT hl))) (cosT (radT hc))
  have ty := subT (mulT (cosT (radT ha)) (sinT (radT hc)))
    (mulT (mulT (sinT (radT ha)) (cosT (radT hc))) (cosT (subT (radT hm) (radT hl))))
  refine compassT tx ty ?_
  rintro ⟨h1, h2⟩
  apply h0
  rw [bearing_eq]
  have e1 : eastC (a x) (l x) (c x) (m x) = 0 := by
    have : np.sin (m x * deg2rad np - l x * deg2rad np) * np.cos (c x * deg2rad np) = 0 := h2
    simp only [mul_deg2rad] at this
    exact this
  have e2 : 0 ≤ northC (a x) (l x) (c x) (m x) := by
    have : 0 ≤ np.cos (a x * deg2rad np) * np.sin (c x * deg2rad np) - np.sin (a x * deg2rad np) *
      np.cos (c x * deg2rad np) * np.cos (m x * deg2rad np - l x * deg2rad np) := h1
    simp only [mul_deg2rad] at this
    exact this
  rw [e1]
  have : atan2R 0 (northC (a x) (l x) (c x) (m x)) = 0 := by
    unfold atan2R
    exact Complex.arg_ofReal_of_nonneg e2
  rw [this, zero_mul, zero_add]
  norm_num [fmodR]

/-- Destination: away from the poles and from a longitude change of 180°. -/
theorem latlonT {d b : E → ℝ} {D B : v.N} (ha : Ex a x v A) (hl : Ex l x v L)
    (hd : Ex d x v D) (hb : Ex b x v B) (hh : Ex h x v H)
    (hR : 6371000 + h x ≠ 0)
    (hp : |(latlon np (a x) (l x) (d x) (b x) (h x)).1| ≠ 90)
    (ht : (latlon np (a x) (l x) (d x) (b x) (h x)).2 ≠ l x + 180)
    (hz : Real.cos (rad (a x)) ≠ 0) :
    Ex (fun y => (latlon np (a y) (l y) (d y) (b y) (h y)).1) x v
      (latlon v.b A L D B H).1 ∧
    Ex (fun y => (latlon np (a y) (l y) (d y) (b y) (h y)).2) x v
      (latlon v.b A L D B H).2 := by
  have e0 : (6371000.0 : ℝ) = 6371000 := by norm_num
  have hR' : (rEarth : ℝ) + h x ≠ 0 := by unfold rEarth; rw [e0]; exact hR
  have tδ := divT hd (addT (sciT _ _ _ : Ex (fun _ : E => (rEarth : ℝ)) x v rEarth) hh) hR'
  have ts := addT (mulT (sinT (radT ha)) (cosT tδ))
    (mulT (mulT (cosT (radT ha)) (sinT tδ)) (cosT (radT hb)))
  have er : (rEarth : ℝ) = 6371000 := e0
  have e1 : (latlon np (a x) (l x) (d x) (b x) (h x)).1 =
      Real.arcsin (Real.sin (rad (a x)) * Real.cos (d x / (6371000 + h x)) +
        Real.cos (rad (a x)) * Real.sin (d x / (6371000 + h x)) * Real.cos (rad (b x))) *
      rad2deg np := by
    simp only [latlon, mul_deg2rad, er]
    rfl
  have ht : atan2R (Real.sin (rad (b x)) * Real.sin (d x / (6371000 + h x)) * Real.cos (rad (a x)))
      (Real.cos (d x / (6371000 + h x)) - Real.sin (rad (a x)) *
        Real.sin (rad (latlon np (a x) (l x) (d x) (b x) (h x)).1)) ≠ Real.pi := by
    intro h1
    apply ht
    have e2 : (latlon np (a x) (l x) (d x) (b x) (h x)).2 = (rad (l x) +
        atan2R (Real.sin (rad (b x)) * Real.sin (d x / (6371000 + h x)) * Real.cos (rad (a x)))
      (Real.cos (d x / (6371000 + h x)) - Real.sin (rad (a x)) *
        Real.sin (rad (latlon np (a x) (l x) (d x) (b x) (h x)).1))) * rad2deg np := by
      rw [e1, rad_mul_rad2deg]
      simp only [latlon, mul_deg2rad, er]
      rfl
    rw [e2, h1]
    simp only [rad, rad2deg, np]
    have := Real.pi_ne_zero
    norm_num
    field_simp
  rw [e1] at hp ht
  rw [rad_mul_rad2deg] at ht
  have hu := travel_unit (rad (a x)) (d x / (6371000 + h x)) (rad (b x))
  set s := Real.sin (rad (a x)) * Real.cos (d x / (6371000 + h x)) +
        Real.cos (rad (a x)) * Real.sin (d x / (6371000 + h x)) * Real.cos (rad (b x)) with hs
  set X := Real.cos (d x / (6371000 + h x)) * Real.cos (rad (a x)) -
    Real.sin (d x / (6371000 + h x)) * Real.cos (rad (b x)) * Real.sin (rad (a x)) with hX
  set Y := Real.sin (d x / (6371000 + h x)) * Real.sin (rad (b x)) with hY
  have hpi := Real.pi_pos
  have h90 : (Real.pi / 2) * rad2deg np = 90 := by
    simp only [rad2deg, np]; field_simp; norm_num
  have hs1 : s < 1 := by
    refine lt_of_le_of_ne (by nlinarith) fun h1 => hp ?_
    rw [h1, Real.arcsin_one, h90]; norm_num
  have hs2 : -1 < s := by
    refine lt_of_le_of_ne (by nlinarith) fun h1 => hp ?_
    rw [← h1, Real.arcsin_neg_one, neg_mul, h90]; norm_num
  have es : np.sin (a x * deg2rad np) * np.cos (d x / (rEarth + h x)) +
      np.cos (a x * deg2rad np) * np.sin (d x / (rEarth + h x)) * np.cos (b x * deg2rad np) = s := by
    simp only [mul_deg2rad, er]; rfl
  have tla := arcsinT ts (by rw [← es] at hs2; exact hs2) (by rw [← es] at hs1; exact hs1)
  have hsin : Real.sin (Real.arcsin s) = s := Real.sin_arcsin hs2.le hs1.le
  have ex : Real.cos (d x / (6371000 + h x)) - Real.sin (rad (a x)) * Real.sin (Real.arcsin s) =
      Real.cos (rad (a x)) * X := by
    rw [hsin, hs, hX]
    linear_combination -Real.cos (d x / (6371000 + h x)) * Real.sin_sq_add_cos_sq (rad (a x))
  have ey : Real.sin (rad (b x)) * Real.sin (d x / (6371000 + h x)) * Real.cos (rad (a x)) =
      Real.cos (rad (a x)) * Y := by rw [hY]; ring
  rw [ex, ey] at ht
  have hslit : 0 < Real.cos (rad (a x)) * X ∨ Real.cos (rad (a x)) * Y ≠ 0 := by
    by_contra hcon
    push Not at hcon
    obtain ⟨c1, c2⟩ := hcon
    have hY0 : Y = 0 := (mul_eq_zero.1 c2).resolve_left hz
    have hX0 : X ≠ 0 := by
      intro hX0; rw [hX0, hY0] at hu; nlinarith
    have hneg : Real.cos (rad (a x)) * X < 0 := lt_of_le_of_ne c1 (mul_ne_zero hz hX0)
    apply ht
    rw [c2]
    exact Complex.arg_ofReal_of_neg hneg
  refine ⟨mulT tla r2dT, mulT (addT (radT hl) (arctan2T (mulT (mulT (sinT (radT hb)) (sinT tδ))
    (cosT (radT ha))) (subT (cosT tδ) (mulT (sinT (radT ha)) (sinT tla))) ?_)) r2dT⟩
  have g1 : np.sin (b x * deg2rad np) * np.sin (d x / (rEarth + h x)) * np.cos (a x * deg2rad np) =
      Real.cos (rad (a x)) * Y := by
    rw [← ey]; simp only [mul_deg2rad, er]; rfl
  have g2 : np.cos (d x / (rEarth + h x)) - np.sin (a x * deg2rad np) * np.sin (np.arcsin
      (np.sin (a x * deg2rad np) * np.cos (d x / (rEarth + h x)) +
      np.cos (a x * deg2rad np) * np.sin (d x / (rEarth + h x)) * np.cos (b x * deg2rad np))) =
      Real.cos (rad (a x)) * X := by
    rw [es, ← ex]; simp only [mul_deg2rad, er]; rfl
  simp only [g1, g2]
  exact hslit

end Verif.AD
