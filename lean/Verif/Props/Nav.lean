import Verif.Lemmas.Nav

/-!
# C74, C75, C97, C98: airports and fixes
-/

namespace Verif.Props
open Verif Verif.Spec Verif.Geo Verif.Nav Verif.Tables Verif.Registry Verif.Filters Real

/-- A point of the box of half width `w` degrees around `(lat, lon)`. -/
def InBox (w lat lon x y : ℝ) : Prop := |x - lat| ≤ w ∧ |y - lon| ≤ w

theorem between_box {w lat lon x y : ℝ} :
    (between x (lat - w) (lat + w) && between y (lon - w) (lon + w)) = true ↔ InBox w lat lon x y := by
  unfold between InBox
  simp only [Bool.and_eq_true, decide_eq_true_eq, abs_le]
  constructor
  · rintro ⟨⟨h1, h2⟩, h3, h4⟩; exact ⟨⟨by linarith, by linarith⟩, by linarith, by linarith⟩
  · rintro ⟨⟨h1, h2⟩, h3, h4⟩; exact ⟨⟨by linarith, by linarith⟩, by linarith, by linarith⟩

theorem getD_map_of_lt {β : Type} {l : List β} {i : ℕ} (h : i < l.length) (g : β → ℝ) :
    (l.map g).getD i 0 = g l[i] := by
  rw [List.getD_eq_getElem?_getD, List.getElem?_map, List.getElem?_eq_getElem h]; rfl

/-- The element chosen by `argmin`: it splits the list into strictly larger and not smaller ones. -/
theorem argmin_split {β : Type} {l : List β} (h : l ≠ []) (g : β → ℝ) :
    ∃ x l1 l2, l = l1 ++ x :: l2 ∧ l[argmin (l.map g)]? = some x ∧
      (l.map g).getD (argmin (l.map g)) 0 = g x ∧
      (∀ y ∈ l, g x ≤ g y) ∧ ∀ y ∈ l1, g x < g y := by
  have hm : l.map g ≠ [] := by simpa using h
  have hi : argmin (l.map g) < l.length := by simpa using argmin_lt hm
  refine ⟨l[argmin (l.map g)], l.take (argmin (l.map g)), l.drop (argmin (l.map g) + 1), ?_,
    List.getElem?_eq_getElem hi, getD_map_of_lt hi g, ?_, ?_⟩
  · simp
  · intro y hy
    obtain ⟨j, hj, rfl⟩ := List.mem_iff_getElem.1 hy
    have := argmin_min hm j (by simpa using hj)
    rwa [getD_map_of_lt hi, getD_map_of_lt hj] at this
  · intro y hy
    obtain ⟨j, hj, rfl⟩ := List.mem_iff_getElem.1 hy
    rw [List.length_take] at hj
    have hj' : j < l.length := by omega
    have := argmin_first hm j (by omega)
    rw [getD_map_of_lt hi, getD_map_of_lt hj'] at this
    simpa using this

/-- **C74, fixes.** `closest_fix` raises ValueError when no fix of the table is within 1 degree in
latitude and longitude. Otherwise it returns the first of the fixes of that box with the smallest
great-circle distance, and that distance rounded down to metres. -/
theorem C74_closest_fix (table : List Fix) (lat lon : ℝ) :
    ((∀ f ∈ table, ¬ InBox 1 lat lon f.lat f.lon) → closestFix table lat lon = .error .valueError) ∧
    ((∃ f ∈ table, InBox 1 lat lon f.lat f.lon) → ∃ f t1 t2, table = t1 ++ f :: t2 ∧
      InBox 1 lat lon f.lat f.lon ∧
      closestFix table lat lon = .ok (f, ⌊greatCircle lat lon f.lat f.lon 0⌋) ∧
      (∀ g ∈ table, InBox 1 lat lon g.lat g.lon →
        greatCircle lat lon f.lat f.lon 0 ≤ greatCircle lat lon g.lat g.lon 0) ∧
      ∀ g ∈ t1, InBox 1 lat lon g.lat g.lon →
        greatCircle lat lon f.lat f.lon 0 < greatCircle lat lon g.lat g.lon 0) := by
  unfold closestFix
  simp only
  constructor
  · intro h
    have : (table.filter fun f =>
        between f.lat (lat - 1) (lat + 1) && between f.lon (lon - 1) (lon + 1)) = [] := by
      rw [List.filter_eq_nil_iff]
      intro f hf hb
      exact h f hf (between_box.1 hb)
    rw [this]
    rfl
  · rintro ⟨f0, hf0, hb0⟩
    generalize hc : (table.filter fun f =>
        between f.lat (lat - 1) (lat + 1) && between f.lon (lon - 1) (lon + 1)) = chunk
    have hmem : ∀ g, g ∈ chunk ↔ g ∈ table ∧ InBox 1 lat lon g.lat g.lon := by
      intro g; rw [← hc, List.mem_filter, between_box]
    have hne : chunk ≠ [] := List.ne_nil_of_mem ((hmem f0).2 ⟨hf0, hb0⟩)
    obtain ⟨f, l1, l2, e1, e2, e3, e4, e5⟩ := argmin_split hne
      fun f : Fix => distance np lat lon f.lat f.lon 0
    have hf := (hmem f).1 (by rw [e1]; simp)
    rw [e1] at hc
    obtain ⟨s1, s2, hs1, hs2, hs3⟩ := List.filter_eq_append_iff.1 hc
    obtain ⟨u1, u2, hu1, hu2, hu3, hu4⟩ := List.filter_eq_cons_iff.1 hs3
    refine ⟨f, s1 ++ u1, u2, by rw [hs1, hu1]; simp, hf.2, ?_, ?_, ?_⟩
    · rw [if_neg (by simpa using hne), e2]
      simp only
      rw [e3, distance_eq]
      congr 2
      unfold pyInt
      rw [if_pos]
      · rw [greatCircle]
        exact mul_nonneg (by norm_num) (InnerProductGeometry.angle_nonneg _ _)
    · intro g hg hgb
      simpa [distance_eq] using e4 g ((hmem g).2 ⟨hg, hgb⟩)
    · intro g hg hgb
      have : g ∈ l1 := by
        rcases List.mem_append.1 hg with h | h
        · rw [← hs2, List.mem_filter]; exact ⟨h, between_box.2 hgb⟩
        · exact absurd (between_box.2 hgb) (hu2 g h)
      simpa [distance_eq] using e5 g this

/-- **C74, airports.** `closest_airport` returns None exactly when no airport of the table is within
2 degrees in latitude and longitude. Otherwise it returns the code of the first airport of that box
with the smallest squared difference in degrees. -/
theorem C74_closest_airport (table : List Airport) (lat lon : ℝ) :
    (closestAirport table lat lon = none ↔ ∀ a ∈ table, ¬ InBox 2 lat lon a.lat a.lon) ∧
    ((∃ a ∈ table, InBox 2 lat lon a.lat a.lon) → ∃ a t1 t2, table = t1 ++ a :: t2 ∧
      InBox 2 lat lon a.lat a.lon ∧ closestAirport table lat lon = some a.icao ∧
      (∀ g ∈ table, InBox 2 lat lon g.lat g.lon →
        (a.lat - lat) ^ 2 + (a.lon - lon) ^ 2 ≤ (g.lat - lat) ^ 2 + (g.lon - lon) ^ 2) ∧
      ∀ g ∈ t1, InBox 2 lat lon g.lat g.lon →
        (a.lat - lat) ^ 2 + (a.lon - lon) ^ 2 < (g.lat - lat) ^ 2 + (g.lon - lon) ^ 2) := by
  have key : (∃ a ∈ table, InBox 2 lat lon a.lat a.lon) → ∃ a t1 t2, table = t1 ++ a :: t2 ∧
      InBox 2 lat lon a.lat a.lon ∧ closestAirport table lat lon = some a.icao ∧
      (∀ g ∈ table, InBox 2 lat lon g.lat g.lon →
        (a.lat - lat) ^ 2 + (a.lon - lon) ^ 2 ≤ (g.lat - lat) ^ 2 + (g.lon - lon) ^ 2) ∧
      ∀ g ∈ t1, InBox 2 lat lon g.lat g.lon →
        (a.lat - lat) ^ 2 + (a.lon - lon) ^ 2 < (g.lat - lat) ^ 2 + (g.lon - lon) ^ 2 := by
    rintro ⟨f0, hf0, hb0⟩
    unfold closestAirport
    simp only
    generalize hc : (table.filter fun f =>
        between f.lat (lat - 2) (lat + 2) && between f.lon (lon - 2) (lon + 2)) = chunk
    have hmem : ∀ g, g ∈ chunk ↔ g ∈ table ∧ InBox 2 lat lon g.lat g.lon := by
      intro g; rw [← hc, List.mem_filter, between_box]
    have hne : chunk ≠ [] := List.ne_nil_of_mem ((hmem f0).2 ⟨hf0, hb0⟩)
    obtain ⟨f, l1, l2, e1, e2, -, e4, e5⟩ := argmin_split hne
      fun a : Airport => (a.lat - lat) ^ 2 + (a.lon - lon) ^ 2
    have hf := (hmem f).1 (by rw [e1]; simp)
    rw [e1] at hc
    obtain ⟨s1, s2, hs1, hs2, hs3⟩ := List.filter_eq_append_iff.1 hc
    obtain ⟨u1, u2, hu1, hu2, hu3, hu4⟩ := List.filter_eq_cons_iff.1 hs3
    refine ⟨f, s1 ++ u1, u2, by rw [hs1, hu1]; simp, hf.2, ?_, ?_, ?_⟩
    · rw [if_neg (by simpa using hne), e2]; rfl
    · intro g hg hgb
      exact e4 g ((hmem g).2 ⟨hg, hgb⟩)
    · intro g hg hgb
      have : g ∈ l1 := by
        rcases List.mem_append.1 hg with h | h
        · rw [← hs2, List.mem_filter]; exact ⟨h, between_box.2 hgb⟩
        · exact absurd (between_box.2 hgb) (hu2 g h)
      exact e5 g this
  refine ⟨⟨?_, ?_⟩, key⟩
  · intro h a ha hb
    obtain ⟨f, _, _, _, _, e, _⟩ := key ⟨a, ha, hb⟩
    rw [h] at e
    simp at e
  · intro h
    unfold closestAirport
    have : (table.filter fun f =>
        between f.lat (lat - 2) (lat + 2) && between f.lon (lon - 2) (lon + 2)) = [] := by
      rw [List.filter_eq_nil_iff]
      intro f hf hb
      exact h f hf (between_box.1 hb)
    simp only [this]
    rfl

/-- A point outside the box is at least this far away (metres), provided neither longitude is close to
the date line. -/
theorem outside_box {w lat lon x y : ℝ} (hw : 0 ≤ w) (hw' : w ≤ 90) (hlat : -90 ≤ lat ∧ lat ≤ 90)
    (hx : -90 ≤ x ∧ x ≤ 90) (hlon : |lon| ≤ 180 - w) (hy : |y| ≤ 180) (h : ¬ InBox w lat lon x y) :
    6371000 * arcsin (cos (rad lat) * sin (rad w)) ≤ greatCircle lat lon x y 0 := by
  have hp := pi_pos
  unfold greatCircle
  rw [add_zero]
  refine mul_le_mul_of_nonneg_left ?_ (by norm_num)
  unfold InBox at h
  rw [not_and_or, not_le, not_le] at h
  have hsd : 0 ≤ sin (rad w) := by
    apply sin_nonneg_of_nonneg_of_le_pi <;> unfold rad
    · positivity
    · nlinarith
  rcases h with h | h
  · refine le_trans ?_ (angle_lat hlat hx hw h.le)
    have : cos (rad lat) * sin (rad w) ≤ sin (rad w) := by
      nlinarith [cos_le_one (rad lat)]
    refine (arcsin_le_arcsin this).trans_eq (arcsin_sin ?_ ?_) <;> unfold rad
    · nlinarith
    · nlinarith
  · refine angle_lon hlat hx hw hw' h.le ?_
    rw [abs_le] at hlon hy ⊢
    constructor <;> linarith [hlon.1, hlon.2, hy.1, hy.2]

/-- **C75, where the answer is right.** Away from the date line, if the distance of the fix returned
by `closest_fix` is below 6371 km times `arcsin (cos lat · sin 1°)` (60 nautical miles at the equator,
30 at 60 degrees), then no fix of the whole table is closer. -/
theorem C75_closest_fix_global (table : List Fix) (lat lon : ℝ) (hlat : -90 ≤ lat ∧ lat ≤ 90)
    (hlon : |lon| ≤ 179) (ht : ∀ f ∈ table, -90 ≤ f.lat ∧ f.lat ≤ 90 ∧ |f.lon| ≤ 180) (f : Fix) (d : ℤ)
    (hr : closestFix table lat lon = .ok (f, d))
    (hd : (d : ℝ) + 1 ≤ 6371000 * arcsin (cos (rad lat) * sin (rad 1))) :
    ∀ g ∈ table, greatCircle lat lon f.lat f.lon 0 ≤ greatCircle lat lon g.lat g.lon 0 := by
  intro g hg
  by_cases hex : ∃ f ∈ table, InBox 1 lat lon f.lat f.lon
  · obtain ⟨f', t1, t2, h1, h2, h3, h4, -⟩ := (C74_closest_fix table lat lon).2 hex
    rw [h3] at hr
    obtain ⟨rfl, rfl⟩ := Prod.mk.inj (Except.ok.inj hr)
    by_cases hb : InBox 1 lat lon g.lat g.lon
    · exact h4 g hg hb
    · obtain ⟨g1, g2, g3⟩ := ht g hg
      have := outside_box (by norm_num) (by norm_num) hlat ⟨g1, g2⟩ (by linarith) g3 hb
      have := Int.lt_floor_add_one (greatCircle lat lon f'.lat f'.lon 0)
      linarith
  · push Not at hex
    rw [(C74_closest_fix table lat lon).1 hex] at hr
    simp at hr

/-- **C75, where None is right.** Away from the date line, when `closest_airport` returns None there
is no airport within 6371 km times `arcsin (cos lat · sin 2°)` (120 nautical miles at the equator). -/
theorem C75_no_airport_near (table : List Airport) (lat lon : ℝ) (hlat : -90 ≤ lat ∧ lat ≤ 90)
    (hlon : |lon| ≤ 178) (ht : ∀ a ∈ table, -90 ≤ a.lat ∧ a.lat ≤ 90 ∧ |a.lon| ≤ 180)
    (hr : closestAirport table lat lon = none) :
    ∀ a ∈ table, 6371000 * arcsin (cos (rad lat) * sin (rad 2)) ≤ greatCircle lat lon a.lat a.lon 0 := by
  intro a ha
  obtain ⟨h1, h2, h3⟩ := ht a ha
  exact outside_box (by norm_num) (by norm_num) hlat ⟨h1, h2⟩ (by linarith) h3
    (((C74_closest_airport table lat lon).1.1 hr) a ha)

/-! ### Where `closest_airport` is wrong -/

/-- The squared half chord between two points of the unit sphere. -/
noncomputable def hav (a l c m : ℝ) : ℝ :=
  sin ((rad c - rad a) / 2) ^ 2 + cos (rad a) * cos (rad c) * sin ((rad m - rad l) / 2) ^ 2

theorem greatCircle_hav (a l c m : ℝ) :
    greatCircle a l c m 0 = 6371000 * (2 * arcsin (sqrt (hav a l c m))) ∧
      0 ≤ hav a l c m ∧ hav a l c m ≤ 1 := by
  obtain ⟨b1, b2⟩ := inner_bounds a l c m
  unfold greatCircle hav
  rw [angle_globe, haversine_eq, two_arcsin_sqrt (by linarith) (by linarith)]
  refine ⟨?_, by linarith, by linarith⟩
  rw [add_zero]; congr 2; ring

theorem greatCircle_lt {a l c m e n : ℝ} (h : hav a l c m < hav a l e n) :
    greatCircle a l c m 0 < greatCircle a l e n 0 := by
  obtain ⟨h1, h2, h3⟩ := greatCircle_hav a l c m
  obtain ⟨h4, h5, h6⟩ := greatCircle_hav a l e n
  rw [h1, h4]
  have : arcsin (sqrt (hav a l c m)) < arcsin (sqrt (hav a l e n)) :=
    arcsin_lt_arcsin (by linarith [sqrt_nonneg (hav a l c m)]) (sqrt_lt_sqrt h2 h)
      (by rw [Real.sqrt_le_left (by norm_num)]; linarith)
  linarith

theorem sin_half_sq_le (x : ℝ) : sin (x / 2) ^ 2 ≤ x ^ 2 / 4 := by
  have h := abs_sin_le_abs (x := x / 2)
  have := sq_le_sq' (by linarith [abs_nonneg (sin (x / 2)), abs_nonneg (x / 2)]) h
  rw [sq_abs, sq_abs] at this
  linarith

/-- **C75, high latitudes.** At every position between 60 and 88 degrees north there are tables of two
airports for which the airport returned is not the closer one. -/
theorem C75_wrong_at_high_latitude (lat lon : ℝ) (h1 : 60 ≤ lat) (h2 : lat ≤ 88) (p q : Str) :
    closestAirport [⟨some p, lat, lon + 1.9, 0, none⟩, ⟨some q, lat + 1, lon, 0, none⟩] lat lon =
      some (some q) ∧
    greatCircle lat lon lat (lon + 1.9) 0 < greatCircle lat lon (lat + 1) lon 0 := by
  constructor
  · obtain ⟨a, t1, t2, e1, e2, e3, e4, -⟩ := (C74_closest_airport
      [⟨some p, lat, lon + 1.9, 0, none⟩, ⟨some q, lat + 1, lon, 0, none⟩] lat lon).2
      ⟨⟨some q, lat + 1, lon, 0, none⟩, by simp, by
        unfold InBox; simp only [add_sub_cancel_left, sub_self]; norm_num⟩
    rw [e3]
    have hm : a ∈ [(⟨some p, lat, lon + 1.9, 0, none⟩ : Airport), ⟨some q, lat + 1, lon, 0, none⟩] := by
      rw [e1]; simp
    simp only [List.mem_cons, List.not_mem_nil, or_false] at hm
    rcases hm with rfl | rfl
    · have := e4 ⟨some q, lat + 1, lon, 0, none⟩ (by simp) (by
        unfold InBox; simp only [add_sub_cancel_left, sub_self]; norm_num)
      simp only [add_sub_cancel_left, sub_self] at this
      norm_num at this
    · rfl
  · apply greatCircle_lt
    have hp := pi_pos
    have hp1 := pi_gt_d2
    have hp2 := pi_lt_d2
    unfold hav
    have hc0 : 0 ≤ cos (rad lat) := cos_rad_nonneg (by linarith) (by linarith)
    have hc : cos (rad lat) ≤ 1 / 2 := by
      rw [← cos_pi_div_three]
      apply cos_le_cos_of_nonneg_of_le_pi
      · positivity
      · unfold rad; nlinarith
      · unfold rad; nlinarith
    have e1 : (rad (lat + 1) - rad lat) / 2 = π / 360 := by unfold rad; ring
    have e2 : (rad (lon + 1.9) - rad lon) = 1.9 * π / 180 := by unfold rad; ring
    rw [e1, e2, sub_self, sub_self, zero_div, sin_zero]
    have hb := sin_half_sq_le (1.9 * π / 180)
    have hs : π / 360 - (π / 360) ^ 3 / 6 < sin (π / 360) :=
      sin_gt_sub_cube (by positivity)
    have hb0 : 0 ≤ sin (1.9 * π / 180 / 2) ^ 2 := sq_nonneg _
    have hcc : cos (rad lat) * cos (rad lat) ≤ 1 / 4 := by nlinarith
    have hlo : 0.999 * (π / 360) ≤ sin (π / 360) := by
      refine le_trans ?_ hs.le
      have : (π / 360) ^ 2 ≤ 0.001 := by
        have : π / 360 ≤ 0.01 := by linarith
        nlinarith [div_pos hp (by norm_num : (0:ℝ) < 360)]
      nlinarith [div_pos hp (by norm_num : (0:ℝ) < 360)]
    have hsq : (0.999 * (π / 360)) ^ 2 ≤ sin (π / 360) ^ 2 :=
      pow_le_pow_left₀ (by positivity) hlo 2
    have : cos (rad lat) * cos (rad lat) * sin (1.9 * π / 180 / 2) ^ 2 ≤
        1 / 4 * ((1.9 * π / 180) ^ 2 / 4) := by
      refine mul_le_mul hcc hb hb0 (by norm_num)
    have hpp : 0 < π ^ 2 := by positivity
    have e3 : 1 / 4 * ((1.9 * π / 180) ^ 2 / 4) < (0.999 * (π / 360)) ^ 2 := by
      have : 1 / 4 * ((1.9 * π / 180) ^ 2 / 4) = 1.9 ^ 2 / (16 * 180 ^ 2) * π ^ 2 := by ring
      rw [this, show (0.999 * (π / 360)) ^ 2 = 0.999 ^ 2 / 360 ^ 2 * π ^ 2 by ring]
      exact mul_lt_mul_of_pos_right (by norm_num) hpp
    nlinarith

/-- **C75, date line.** On either side of the date line airports of the other side are not found: with
the only airport 0.2 degrees away the answer is None, and a farther airport on the same side is
preferred to it. -/
theorem C75_wrong_at_date_line (lat : ℝ) (h1 : -90 < lat) (h2 : lat < 90) (p q : Str) :
    closestAirport [⟨some p, lat, -179.9, 0, none⟩] lat 179.9 = none ∧
    closestAirport [⟨some p, lat, -179.9, 0, none⟩, ⟨some q, lat, 179, 0, none⟩] lat 179.9 =
      some (some q) ∧
    greatCircle lat 179.9 lat (-179.9) 0 < greatCircle lat 179.9 lat 179 0 := by
  have hout : ¬ InBox 2 lat 179.9 lat (-179.9) := by
    unfold InBox; rintro ⟨-, h⟩; rw [abs_le] at h; norm_num at h
  refine ⟨?_, ?_, ?_⟩
  · rw [(C74_closest_airport _ _ _).1]
    intro a ha
    simp only [List.mem_cons, List.not_mem_nil, or_false] at ha
    subst ha; exact hout
  · obtain ⟨a, t1, t2, e1, e2, e3, -, -⟩ := (C74_closest_airport
      [⟨some p, lat, -179.9, 0, none⟩, ⟨some q, lat, 179, 0, none⟩] lat 179.9).2
      ⟨⟨some q, lat, 179, 0, none⟩, by simp, by
        unfold InBox; simp only [sub_self]; rw [abs_le, abs_le]; norm_num⟩
    rw [e3]
    have hm : a ∈ [(⟨some p, lat, -179.9, 0, none⟩ : Airport), ⟨some q, lat, 179, 0, none⟩] := by
      rw [e1]; simp
    simp only [List.mem_cons, List.not_mem_nil, or_false] at hm
    rcases hm with rfl | rfl
    · exact absurd e2 hout
    · rfl
  · apply greatCircle_lt
    have hp := pi_pos
    unfold hav
    have hc := cos_rad_pos h1 h2
    have e1 : (rad (-179.9) - rad 179.9) / 2 = 0.1 * π / 180 - π := by unfold rad; ring
    have e2 : (rad 179 - rad 179.9) / 2 = -(0.45 * π / 180) := by unfold rad; ring
    rw [e1, e2, sub_self, sin_sub_pi, sin_neg]
    have hlt : sin (0.1 * π / 180) < sin (0.45 * π / 180) := by
      apply sin_lt_sin_of_lt_of_le_pi_div_two <;> nlinarith
    have h0 : 0 < sin (0.1 * π / 180) := by
      apply sin_pos_of_pos_of_lt_pi <;> nlinarith
    have : sin (0.1 * π / 180) ^ 2 < sin (0.45 * π / 180) ^ 2 := by nlinarith
    have hcc : 0 < cos (rad lat) * cos (rad lat) := by positivity
    nlinarith

/-- Three fixes around Amsterdam: the closest is found although it is listed last. -/
example : ∃ d, closestFix [⟨52.5, 5.5, some [65]⟩, ⟨10, 10, some [66]⟩, ⟨52, 5, some [67]⟩] 52 5 =
    .ok (⟨52, 5, some [67]⟩, d) := by
  obtain ⟨f, t1, t2, e1, e2, e3, e4, -⟩ := (C74_closest_fix
    [⟨52.5, 5.5, some [65]⟩, ⟨10, 10, some [66]⟩, ⟨52, 5, some [67]⟩] 52 5).2
    ⟨⟨52, 5, some [67]⟩, by simp, by unfold InBox; norm_num⟩
  have hm : f ∈ [(⟨52.5, 5.5, some [65]⟩ : Fix), ⟨10, 10, some [66]⟩, ⟨52, 5, some [67]⟩] := by
    rw [e1]; simp
  simp only [List.mem_cons, List.not_mem_nil, or_false] at hm
  rcases hm with rfl | rfl | rfl
  · exfalso
    have := e4 ⟨52, 5, some [67]⟩ (by simp) (by unfold InBox; norm_num)
    refine absurd this (not_le.2 (greatCircle_lt ?_))
    have h0 : hav 52 5 52 5 = 0 := by unfold hav; simp
    have h1 : 0 < hav 52 5 52.5 5.5 := by
      unfold hav
      have hp := pi_pos
      have : 0 < sin ((rad 52.5 - rad 52) / 2) := by
        apply sin_pos_of_pos_of_lt_pi <;> unfold rad <;> nlinarith
      have hc1 := cos_rad_nonneg (lat := 52) (by norm_num) (by norm_num)
      have hc2 := cos_rad_nonneg (lat := 52.5) (by norm_num) (by norm_num)
      positivity
    simp only
    rw [h0]; exact h1
  · exact absurd e2 (by unfold InBox; norm_num [abs_le])
  · exact ⟨_, e3⟩

/-- At the equator with a fix overhead, the hypotheses of `C75_closest_fix_global` hold. -/
example : ∃ f d, closestFix [⟨0.5, 0.5, some [65]⟩, ⟨40, 50, some [66]⟩, ⟨0, 0, some [67]⟩] 0 0 = .ok (f, d) ∧
    (d : ℝ) + 1 ≤ 6371000 * arcsin (cos (rad 0) * sin (rad 1)) ∧
    ∀ g ∈ [(⟨0.5, 0.5, some [65]⟩ : Fix), ⟨40, 50, some [66]⟩, ⟨0, 0, some [67]⟩],
      greatCircle 0 0 f.lat f.lon 0 ≤ greatCircle 0 0 g.lat g.lon 0 := by
  obtain ⟨f, t1, t2, e1, e2, e3, e4, -⟩ := (C74_closest_fix
    [⟨0.5, 0.5, some [65]⟩, ⟨40, 50, some [66]⟩, ⟨0, 0, some [67]⟩] 0 0).2
    ⟨⟨0, 0, some [67]⟩, by simp, by unfold InBox; norm_num⟩
  have h0 : greatCircle 0 0 0 0 0 = 0 := by
    rw [(greatCircle_hav 0 0 0 0).1]; simp [hav]
  have hle := e4 ⟨0, 0, some [67]⟩ (by simp) (by unfold InBox; norm_num)
  simp only [h0] at hle
  have hd : ((⌊greatCircle 0 0 f.lat f.lon 0⌋ : ℤ) : ℝ) + 1 ≤
      6371000 * arcsin (cos (rad 0) * sin (rad 1)) := by
    have : rad 0 = 0 := by simp [rad]
    have hr : rad 1 = π / 180 := by simp [rad]
    rw [this, cos_zero, one_mul, hr, arcsin_sin (by linarith [pi_pos]) (by linarith [pi_pos])]
    have := Int.floor_le (greatCircle 0 0 f.lat f.lon 0)
    linarith [pi_gt_three]
  refine ⟨f, _, e3, hd, C75_closest_fix_global _ 0 0 (by norm_num) (by norm_num) ?_ f _ e3 hd⟩
  intro g hg
  simp only [List.mem_cons, List.not_mem_nil, or_false] at hg
  rcases hg with rfl | rfl | rfl <;> norm_num [abs_le]

/-- No airport within two degrees of (0, 0), so none within 6371 km times 2 degrees. -/
example (a : Airport) (ha : a = ⟨some [65], 10, 10, 0, none⟩) :
    6371000 * arcsin (cos (rad 0) * sin (rad 2)) ≤ greatCircle 0 0 a.lat a.lon 0 := by
  refine C75_no_airport_near [a] 0 0 (by norm_num) (by norm_num) ?_ ?_ a (List.mem_singleton_self _)
  · intro b hb
    rw [List.mem_singleton.1 hb, ha]; norm_num [abs_le]
  · refine (C74_closest_airport [a] 0 0).1.2 ?_
    intro b hb
    rw [List.mem_singleton.1 hb, ha]; unfold InBox; norm_num [abs_le]

/-! ### C97: changes of the data files -/

/-- Calls that look at fixes. -/
def IsFixCall : Op → Prop
  | .fix _ | .closestFix _ _ => True
  | _ => False

/-- Calls, as opposed to replacements of the files. -/
def IsCall : Op → Prop
  | .replace _ => False
  | _ => True

theorem run_calls {s : Session} {ops : List Op} (h : ∀ o ∈ ops, IsCall o) :
    (run s ops).files = s.files := by
  induction ops generalizing s with
  | nil => rfl
  | cons o ops ih =>
    have h0 := h o (by simp)
    have : run s (o :: ops) = run (step s o).2 ops := rfl
    rw [this, ih fun o ho => h o (by simp [ho])]
    cases o <;> first | rfl | exact absurd h0 (by simp [IsCall])

theorem run_append (s : Session) (p q : List Op) : run s (p ++ q) = run (run s p) q := by
  unfold run; rw [List.foldl_append]

/-- **C97, airports.** After any history the airport functions answer from the file as last
replaced. -/
theorem C97_airports_fresh (s : Session) (history calls : List Op) (F : Files)
    (hc : ∀ o ∈ calls, IsCall o) (name : Str) (lat lon : ℝ) :
    (step (run s (history ++ .replace F :: calls)) (.airport name)).1 =
      .airport (airport (F.airports.map readAirport) name) ∧
    (step (run s (history ++ .replace F :: calls)) (.closestAirport lat lon)).1 =
      .closestAirport (closestAirport (F.airports.map readAirport) lat lon) := by
  have : (run s (history ++ .replace F :: calls)).files = F := by
    rw [run_append]
    change (run (step (run s history) (.replace F)).2 calls).files = F
    rw [run_calls hc]; rfl
  simp only [step, this, and_self]

theorem run_loaded {s : Session} {t : List Fix} (h : s.fixes = some t) (ops : List Op) :
    (run s ops).fixes = some t := by
  induction ops generalizing s with
  | nil => exact h
  | cons o ops ih =>
    have : run s (o :: ops) = run (step s o).2 ops := rfl
    rw [this]
    apply ih
    cases o <;> simp [step, loadFixes, h]

theorem run_unloaded {s : Session} (h : s.fixes = none) {ops : List Op}
    (ho : ∀ o ∈ ops, ¬ IsFixCall o) : (run s ops).fixes = none := by
  induction ops generalizing s with
  | nil => exact h
  | cons o ops ih =>
    have h0 := ho o (by simp)
    have : run s (o :: ops) = run (step s o).2 ops := rfl
    rw [this]
    apply ih _ fun o h => ho o (by simp [h])
    cases o <;> first | exact h | exact absurd trivial h0

/-- **C97, fixes.** The first call of `fix` or `closest_fix` in a session fixes the table: whatever
happens later, also to the file, all calls answer from the file as it was then. -/
theorem C97_fixes_frozen (s : Session) (hs : s.fixes = none) (before after : List Op) (o : Op)
    (hb : ∀ o ∈ before, ¬ IsFixCall o) (ho : IsFixCall o) (name : Str) (lat lon : ℝ) :
    (step (run s (before ++ o :: after)) (.fix name)).1 =
      .fix (fix ((run s before).files.fixes.map readFix) name) ∧
    (step (run s (before ++ o :: after)) (.closestFix lat lon)).1 =
      .closestFix (closestFix ((run s before).files.fixes.map readFix) lat lon) := by
  have h1 := run_unloaded hs hb
  have h2 : (step (run s before) o).2.fixes = some ((run s before).files.fixes.map readFix) := by
    cases o <;> first | simp [step, loadFixes, h1]; done | exact absurd ho (by simp [IsFixCall])
  have h3 : (run s (before ++ o :: after)).fixes = some ((run s before).files.fixes.map readFix) := by
    rw [run_append]
    exact run_loaded h2 after
  simp only [step, loadFixes, h3, and_self]

/-- A fix moved by a file update between two calls is still reported at its old place, an airport at
its new one. -/
example :
    let F1 : Files := ⟨[⟨[69, 72, 65, 77], 52, 4, 0, [78, 76]⟩], [⟨52, 4, [83, 80, 76]⟩]⟩
    let F2 : Files := ⟨[⟨[69, 72, 65, 77], 53, 5, 0, [78, 76]⟩], [⟨53, 5, [83, 80, 76]⟩]⟩
    let s := run ⟨F1, none⟩ [.fix [83, 80, 76], .replace F2]
    (step s (.fix [83, 80, 76])).1 = .fix (.ok ⟨52, 4, some [83, 80, 76]⟩) ∧
    (step s (.airport [69, 72, 65, 77])).1 =
      .airport (some ⟨some [69, 72, 65, 77], 53, 5, 0, some [78, 76]⟩) := by
  intro F1 F2 s
  refine ⟨?_, ?_⟩
  · rw [show s = run ⟨F1, none⟩ ([] ++ .fix [83, 80, 76] :: [.replace F2]) from rfl,
      (C97_fixes_frozen ⟨F1, none⟩ rfl [] [.replace F2] (.fix [83, 80, 76]) (by simp) trivial
        [83, 80, 76] 0 0).1]
    simp [run, F1, fix, readFix, cell, naValues, upper, upC]
  · rw [show s = run ⟨F1, none⟩ ([.fix [83, 80, 76]] ++ .replace F2 :: []) from rfl,
      (C97_airports_fresh ⟨F1, none⟩ [.fix [83, 80, 76]] [] F2 (by simp) [69, 72, 65, 77] 0 0).1]
    simp [F2, airport, readAirport, cell, naValues, upper, upC]

/-! ### C98: lookup by name -/

/-- **C98, airports.** `airport` ignores the letter case of the request, returns the first row whose
code is the request in capitals, and None exactly when there is none. -/
theorem C98_airport (table : List Airport) (name : Str) :
    (∀ name', upper name' = upper name → airport table name' = airport table name) ∧
    (airport table name = none ↔ ∀ a ∈ table, a.icao ≠ some (upper name)) ∧
    ∀ a, airport table name = some a ↔ a.icao = some (upper name) ∧
      ∃ t1 t2, table = t1 ++ a :: t2 ∧ ∀ g ∈ t1, g.icao ≠ some (upper name) := by
  refine ⟨fun n h => by simp only [airport, h], ?_, ?_⟩
  · unfold airport
    simp only
    cases h : table.filter (fun a => a.icao == some (upper name)) with
    | nil =>
      simp only [true_iff]
      intro a ha e
      have := List.filter_eq_nil_iff.1 h a ha
      simp [e] at this
    | cons b l =>
      simp only [reduceCtorEq, false_iff]
      intro hall
      have hb : b ∈ table.filter (fun a => a.icao == some (upper name)) := by rw [h]; simp
      rw [List.mem_filter] at hb
      exact hall b hb.1 (by simpa using hb.2)
  · intro a
    unfold airport
    simp only
    constructor
    · intro h
      cases hf : table.filter (fun a => a.icao == some (upper name)) with
      | nil => rw [hf] at h; simp at h
      | cons b l =>
        rw [hf] at h
        simp only [Option.some.injEq] at h
        subst h
        obtain ⟨u1, u2, hu1, hu2, hu3, hu4⟩ := List.filter_eq_cons_iff.1 hf
        exact ⟨by simpa using hu3, u1, u2, hu1, fun g hg => by simpa using hu2 g hg⟩
    · rintro ⟨h1, t1, t2, rfl, h2⟩
      have : (t1 ++ a :: t2).filter (fun a => a.icao == some (upper name)) =
          a :: t2.filter (fun a => a.icao == some (upper name)) := by
        rw [List.filter_append, List.filter_eq_nil_iff.2 (fun g hg => by simpa using h2 g hg),
          List.filter_cons_of_pos (by simp [h1])]
        rfl
      rw [this]

/-- **C98, fixes.** `fix` ignores the letter case of the request and returns the first row whose name is
the request in capitals; an unknown name raises IndexError. -/
theorem C98_fix (table : List Fix) (name : Str) :
    (∀ name', upper name' = upper name → fix table name' = fix table name) ∧
    ((∀ f ∈ table, f.name ≠ some (upper name)) → fix table name = .error .indexError) ∧
    (∀ e, fix table name = .error e → e = .indexError ∧ ∀ f ∈ table, f.name ≠ some (upper name)) ∧
    ∀ f, fix table name = .ok f ↔ f.name = some (upper name) ∧
      ∃ t1 t2, table = t1 ++ f :: t2 ∧ ∀ g ∈ t1, g.name ≠ some (upper name) := by
  have hnil : (∀ f ∈ table, f.name ≠ some (upper name)) ↔
      table.filter (fun f => f.name == some (upper name)) = [] := by
    rw [List.filter_eq_nil_iff]; simp
  refine ⟨fun n h => by simp only [fix, h], ?_, ?_, ?_⟩
  · intro h
    unfold fix
    simp only [hnil.1 h]
  · intro e h
    unfold fix at h
    simp only at h
    cases hf : table.filter (fun f => f.name == some (upper name)) with
    | nil => rw [hf] at h; exact ⟨(Except.error.inj h).symm, hnil.2 hf⟩
    | cons b l => rw [hf] at h; simp at h
  · intro a
    unfold fix
    simp only
    constructor
    · intro h
      cases hf : table.filter (fun f => f.name == some (upper name)) with
      | nil => rw [hf] at h; simp at h
      | cons b l =>
        rw [hf] at h
        simp only [Except.ok.injEq] at h
        subst h
        obtain ⟨u1, u2, hu1, hu2, hu3, hu4⟩ := List.filter_eq_cons_iff.1 hf
        exact ⟨by simpa using hu3, u1, u2, hu1, fun g hg => by simpa using hu2 g hg⟩
    · rintro ⟨h1, t1, t2, rfl, h2⟩
      have : (t1 ++ a :: t2).filter (fun f => f.name == some (upper name)) =
          a :: t2.filter (fun f => f.name == some (upper name)) := by
        rw [List.filter_append, List.filter_eq_nil_iff.2 (fun g hg => by simpa using h2 g hg),
          List.filter_cons_of_pos (by simp [h1])]
        rfl
      rw [this]

/-- **C98, unreachable fixes.** A fix cannot be looked up by name when its name contains a lower-case
letter (`gagmo`, `ViTEM` in the shipped file), when pandas reads its name as a missing value (`NA`),
or when the first row with its name is a different one. -/
theorem C98_unreachable_fixes (rows : List FixRow) (r : FixRow) (name : Str)
    (h : (∃ c ∈ r.name, 97 ≤ c ∧ c ≤ 122) ∨ r.name = [78, 65] ∨
      ∃ t1 t2 r', rows = t1 ++ r' :: t2 ∧ (∀ g ∈ t1, g.name ≠ r.name) ∧ r'.name = r.name ∧
        (r'.lat, r'.lon) ≠ (r.lat, r.lon)) :
    fix (rows.map readFix) name ≠ .ok (readFix r) := by
  intro hok
  obtain ⟨h1, t1, t2, h2, h3⟩ := ((C98_fix (rows.map readFix) name).2.2.2 _).1 hok
  rcases h with ⟨c, hc, hc1, hc2⟩ | hna | ⟨u1, u2, r', hu, hu2, hn, hne⟩
  · unfold readFix cell at h1
    simp only at h1
    split_ifs at h1 with hcell
    have h1 := Option.some.inj h1
    rw [h1] at hc
    unfold upper at hc
    obtain ⟨d, -, rfl⟩ := List.mem_map.1 hc
    unfold upC at hc1 hc2
    split_ifs at hc1 hc2 with hd
    · omega
    · exact hd ⟨hc1, hc2⟩
  · unfold readFix cell at h1
    rw [hna] at h1
    simp [naValues] at h1
  · have hname : (readFix r').name = some (upper name) := by
      rw [← h1]; unfold readFix; simp only [hn]
    have h4 := ((C98_fix (rows.map readFix) name).2.2.2 (readFix r')).2
      ⟨hname, u1.map readFix, u2.map readFix, by rw [hu]; simp, ?_⟩
    · rw [hok] at h4
      have := Except.ok.inj h4
      unfold readFix at this
      simp only [Fix.mk.injEq] at this
      exact hne (by rw [this.1, this.2.1])
    · intro g hg e
      obtain ⟨g, hg', rfl⟩ := List.mem_map.1 hg
      rw [← h1] at e
      unfold readFix cell at e h1
      simp only at e h1
      split_ifs at e h1
      exact hu2 g hg' (Option.some.inj e)

/-- Two fixes named W: only the first is ever returned. -/
example (name : Str) : fix ([⟨1, 2, [87]⟩, ⟨50, 60, [87]⟩].map readFix) name ≠
    .ok (readFix ⟨50, 60, [87]⟩) :=
  C98_unreachable_fixes _ ⟨50, 60, [87]⟩ name
    (Or.inr (Or.inr ⟨[], [⟨50, 60, [87]⟩], ⟨1, 2, [87]⟩, rfl, by simp, rfl, by norm_num⟩))

end Verif.Props
