import Verif.Props.Nav
import Verif.Lemmas.NavShipped

/-!
# C75, C99: the shipped airport table
-/

namespace Verif.Props
open Verif Verif.Spec Verif.Geo Verif.Nav Verif.Tables Verif.Registry Real

/-- What `_read_airport` makes of the shipped file. -/
noncomputable def shippedTable : List Airport := shippedAirports.map readAirport

theorem shippedTable_mem {a : Airport} (ha : a ∈ shippedTable) :
    ∃ r ∈ shippedInt, a = readAirport r.toRow := by
  obtain ⟨x, hx, rfl⟩ := List.mem_map.1 ha
  obtain ⟨r, hr, rfl⟩ := List.mem_map.1 hx
  exact ⟨r, hr, rfl⟩

theorem mem_shippedTable {r : IntRow} (hr : r ∈ shippedInt) : readAirport r.toRow ∈ shippedTable :=
  List.mem_map_of_mem (List.mem_map_of_mem hr)

theorem cell_icao {r : IntRow} (hr : r ∈ shippedInt) : cell r.icao = some r.icao := by
  obtain ⟨h1, -, hnull, -, -, -, -, hl, -⟩ := shippedInt_mem hr
  unfold cell
  rw [if_neg]
  intro hc
  rw [List.contains_iff_mem] at hc
  simp only [naValues, List.mem_cons, List.not_mem_nil, or_false] at hc
  rcases hc with h | h | h | h | h | h | h | h | h | h | h | h | h | h | h | h | h | h | h <;>
    rw [h] at h1 hl hnull <;> simp_all [capitals]

theorem cell_country {r : IntRow} (hr : r ∈ shippedInt) :
    cell r.country = if r.country = [78, 65] then none else some r.country := by
  obtain ⟨-, h1, -, -, -, -, -, -, hl⟩ := shippedInt_mem hr
  unfold cell
  split_ifs with hc h2 h2
  · rfl
  · exfalso
    rw [List.contains_iff_mem] at hc
    simp only [naValues, List.mem_cons, List.not_mem_nil, or_false] at hc
    rcases hc with h | h | h | h | h | h | h | h | h | h | h | h | h | h | h | h | h | h | h <;>
      rw [h] at h1 hl h2 <;> simp_all [capitals]
  · exact absurd (by rw [h2]; decide) hc
  · rfl

/-- **C99, lookup.** Every airport of the shipped table is found by its code in any letter case, and all
positions are valid. -/
theorem C99_shipped_lookup (r : AirportRow) (hr : r ∈ shippedAirports) (name : Str)
    (hn : upper name = r.icao) :
    airport shippedTable name = some (readAirport r) ∧ (readAirport r).icao = some r.icao ∧
    -90 ≤ r.lat ∧ r.lat ≤ 90 ∧ |r.lon| ≤ 180 := by
  obtain ⟨z, hz, rfl⟩ := List.mem_map.1 hr
  obtain ⟨hcap, -, -, p1, p2, p3, p4, -, -⟩ := shippedInt_mem hz
  have hi : (readAirport z.toRow).icao = some z.icao := cell_icao hz
  refine ⟨?_, hi, ?_, ?_, ?_⟩
  · rw [(C98_airport shippedTable name).2.2]
    refine ⟨by rw [hi, hn]; rfl, ?_⟩
    obtain ⟨u1, u2, hu⟩ := List.append_of_mem hz
    refine ⟨(u1.map IntRow.toRow).map readAirport, (u2.map IntRow.toRow).map readAirport, ?_, ?_⟩
    · unfold shippedTable shippedAirports
      rw [hu]; simp
    · intro g hg
      rw [List.map_map] at hg
      obtain ⟨y, hy, rfl⟩ := List.mem_map.1 hg
      have hy' : y ∈ shippedInt := by rw [hu]; simp [hy]
      change cell y.icao ≠ _
      rw [cell_icao hy', hn]
      intro e
      have hs := shipped_sorted
      rw [hu, List.pairwise_append] at hs
      have := hs.2.2 y hy z (by simp)
      rw [Option.some.inj e] at this
      rw [show z.toRow.icao = z.icao from rfl, strLt_irrefl] at this
      exact absurd this (by simp)
  · change (-90:ℝ) ≤ (z.lat : ℝ) / 100000
    have : ((-9000000 : ℤ) : ℝ) ≤ z.lat := by exact_mod_cast p1
    push_cast at this; linarith
  · change (z.lat : ℝ) / 100000 ≤ 90
    have : (z.lat : ℝ) ≤ ((9000000 : ℤ) : ℝ) := by exact_mod_cast p2
    push_cast at this; linarith
  · change |(z.lon : ℝ) / 100000| ≤ 180
    have h3 : ((-18000000 : ℤ) : ℝ) ≤ z.lon := by exact_mod_cast p3
    have h4 : (z.lon : ℝ) ≤ ((18000000 : ℤ) : ℝ) := by exact_mod_cast p4
    push_cast at h3 h4
    rw [abs_le]; constructor <;> linarith

/-- **C99, Namibia.** The country is missing from the answer for exactly the airports whose country
code is `NA` (176 rows), and reported as in the file for all others. -/
theorem C99_missing_country :
    (∀ r ∈ shippedAirports, ∀ name, upper name = r.icao →
      (airport shippedTable name).map (·.country) =
        some (if r.country = [78, 65] then none else some r.country)) ∧
    (shippedAirports.filter fun r => r.country == [78, 65]).length = 176 := by
  constructor
  · intro r hr name hn
    rw [(C99_shipped_lookup r hr name hn).1]
    obtain ⟨z, hz, rfl⟩ := List.mem_map.1 hr
    simp only [Option.map_some]
    congr 1
    exact cell_country hz
  · unfold shippedAirports
    rw [List.filter_map, List.length_map]
    exact shipped_na

/-- In the box of 2 degrees around 76.5 N 70 W and nearer in degrees than `BGQQ`? -/
def nearerThule (r : IntRow) : Bool :=
  decide (|r.lat - 7650000| ≤ 200000) && decide (|r.lon + 7000000| ≤ 200000) &&
  decide ((r.lat - 7650000) ^ 2 + (r.lon + 7000000) ^ 2 ≤ 99111 ^ 2 + 59353 ^ 2) &&
  !(r.icao == [66, 71, 81, 81])

set_option maxRecDepth 100000 in
theorem thule_checked : shippedInt.all (fun r => !nearerThule r) = true ∧
    shippedInt.any (fun r => r.icao == [66, 71, 81, 81] && r.lat == 7749111 && r.lon == -6940647) =
      true ∧
    shippedInt.any (fun r => r.icao == [66, 71, 84, 76] && r.lat == 7653001 && r.lon == -6876151) =
      true := by
  decide +kernel

theorem thule_inBox {r : IntRow} (h : InBox 2 76.5 (-70) r.toRow.lat r.toRow.lon) :
    |r.lat - 7650000| ≤ 200000 ∧ |r.lon + 7000000| ≤ 200000 := by
  unfold InBox at h
  change |(r.lat : ℝ) / 100000 - 76.5| ≤ 2 ∧ |(r.lon : ℝ) / 100000 - -70| ≤ 2 at h
  rw [abs_le, abs_le] at h
  obtain ⟨⟨h1, h2⟩, h3, h4⟩ := h
  have a1 : ((7450000 : ℤ) : ℝ) ≤ r.lat := by push_cast; linarith
  have a2 : (r.lat : ℝ) ≤ ((7850000 : ℤ) : ℝ) := by push_cast; linarith
  have a3 : ((-7200000 : ℤ) : ℝ) ≤ r.lon := by push_cast; linarith
  have a4 : (r.lon : ℝ) ≤ ((-6800000 : ℤ) : ℝ) := by push_cast; linarith
  have b1 : 7450000 ≤ r.lat := by exact_mod_cast a1
  have b2 : r.lat ≤ 7850000 := by exact_mod_cast a2
  have b3 : -7200000 ≤ r.lon := by exact_mod_cast a3
  have b4 : r.lon ≤ -6800000 := by exact_mod_cast a4
  rw [abs_le, abs_le]
  omega

/-- `airport("fywh")` (Windhoek) is found and has no country. -/
example : (airport shippedTable [102, 121, 119, 104]).map (·.country) = some none := by
  have h : (shippedInt.any fun r => r.icao == [70, 89, 87, 72] && r.country == [78, 65]) = true := by
    decide +kernel
  obtain ⟨r, hr, h2⟩ := List.any_eq_true.1 h
  simp only [Bool.and_eq_true, beq_iff_eq] at h2
  have := C99_missing_country.1 r.toRow (List.mem_map_of_mem hr) [102, 121, 119, 104]
    (by rw [show r.toRow.icao = r.icao from rfl, h2.1]; decide)
  rw [this, if_pos (show r.toRow.country = [78, 65] from h2.2)]

/-- **C75, shipped table.** At 76.5 N 70 W, some 30 km from Thule (`BGTL`), the shipped table gives
Qaanaaq (`BGQQ`), more than three times as far. -/
theorem C75_shipped_wrong :
    closestAirport shippedTable 76.5 (-70) = some (some [66, 71, 81, 81]) ∧
    ∃ qaanaaq ∈ shippedTable, ∃ thule ∈ shippedTable,
      qaanaaq.icao = some [66, 71, 81, 81] ∧ thule.icao = some [66, 71, 84, 76] ∧
      3 * greatCircle 76.5 (-70) thule.lat thule.lon 0 <
        greatCircle 76.5 (-70) qaanaaq.lat qaanaaq.lon 0 := by
  obtain ⟨k1, k2, k3⟩ := thule_checked
  obtain ⟨q, hq, hq'⟩ := List.any_eq_true.1 k2
  obtain ⟨t, ht, ht'⟩ := List.any_eq_true.1 k3
  simp only [Bool.and_eq_true, beq_iff_eq] at hq' ht'
  obtain ⟨⟨q1, q2⟩, q3⟩ := hq'
  obtain ⟨⟨t1, t2⟩, t3⟩ := ht'
  have hqb : InBox 2 76.5 (-70) (readAirport q.toRow).lat (readAirport q.toRow).lon := by
    change |(q.lat : ℝ) / 100000 - 76.5| ≤ 2 ∧ |(q.lon : ℝ) / 100000 - -70| ≤ 2
    rw [q2, q3, abs_le, abs_le]; norm_num
  refine ⟨?_, readAirport q.toRow, mem_shippedTable hq, readAirport t.toRow, mem_shippedTable ht,
    by rw [show (readAirport q.toRow).icao = cell q.icao from rfl, cell_icao hq, q1],
    by rw [show (readAirport t.toRow).icao = cell t.icao from rfl, cell_icao ht, t1], ?_⟩
  · obtain ⟨a, s1, s2, e1, e2, e3, e4, -⟩ := (C74_closest_airport shippedTable 76.5 (-70)).2
      ⟨_, mem_shippedTable hq, hqb⟩
    rw [e3]
    obtain ⟨r, hr, rfl⟩ := shippedTable_mem (a := a) (by rw [e1]; simp)
    change some (cell r.icao) = _
    rw [cell_icao hr]
    have hno := List.all_eq_true.1 k1 r hr
    have hle := e4 _ (mem_shippedTable hq) hqb
    by_contra hne
    have hne' : r.icao ≠ [66, 71, 81, 81] := fun e => hne (by rw [e])
    obtain ⟨b1, b2⟩ := thule_inBox e2
    have hz : (r.lat - 7650000) ^ 2 + (r.lon + 7000000) ^ 2 ≤ 99111 ^ 2 + 59353 ^ 2 := by
      change ((r.lat : ℝ) / 100000 - 76.5) ^ 2 + ((r.lon : ℝ) / 100000 - -70) ^ 2 ≤
        ((q.lat : ℝ) / 100000 - 76.5) ^ 2 + ((q.lon : ℝ) / 100000 - -70) ^ 2 at hle
      rw [q2, q3] at hle
      have : (((r.lat - 7650000) ^ 2 + (r.lon + 7000000) ^ 2 : ℤ) : ℝ) ≤
          ((99111 ^ 2 + 59353 ^ 2 : ℤ) : ℝ) := by
        push_cast
        push_cast at hle
        nlinarith
      exact_mod_cast this
    simp [nearerThule, b1, b2, hne'] at hno
    norm_num at hz
    omega
  · change 3 * greatCircle 76.5 (-70) ((t.lat : ℝ) / 100000) ((t.lon : ℝ) / 100000) 0 <
      greatCircle 76.5 (-70) ((q.lat : ℝ) / 100000) ((q.lon : ℝ) / 100000) 0
    rw [q2, q3, t2, t3]
    push_cast
    have hp := pi_pos
    have hp1 := pi_gt_d2
    have hp2 := pi_lt_d2
    -- Qaanaaq is at least 0.99 degrees of latitude away
    have hfar : 6371000 * rad 0.991 ≤ greatCircle 76.5 (-70) (7749111 / 100000) (-6940647 / 100000) 0 := by
      unfold greatCircle
      rw [add_zero]
      refine mul_le_mul_of_nonneg_left ?_ (by norm_num)
      refine angle_lat (by norm_num) (by norm_num) (by norm_num) ?_
      rw [le_abs]; left; norm_num
    -- Thule is less than 0.33 degrees away
    have hnear : greatCircle 76.5 (-70) (7653001 / 100000) (-6876151 / 100000) 0 < 6371000 * rad 0.33 := by
      obtain ⟨g1, g2, g3⟩ := greatCircle_hav 76.5 (-70) (7653001 / 100000) (-6876151 / 100000)
      rw [g1]
      refine mul_lt_mul_of_pos_left ?_ (by norm_num)
      by_contra hcon
      rw [not_lt] at hcon
      have hx : 0 < rad 0.33 / 2 := by unfold rad; positivity
      have hge : sin (rad 0.33 / 2) ≤ sqrt (hav 76.5 (-70) (7653001 / 100000) (-6876151 / 100000)) := by
        have s0 := sqrt_nonneg (hav 76.5 (-70) (7653001 / 100000) (-6876151 / 100000))
        have s1 : sqrt (hav 76.5 (-70) (7653001 / 100000) (-6876151 / 100000)) ≤ 1 := by
          rw [Real.sqrt_le_left (by norm_num)]; linarith
        rw [← sin_arcsin (by linarith) s1]
        apply sin_le_sin_of_le_of_le_pi_div_two
        · linarith
        · exact arcsin_le_pi_div_two _
        · linarith
      have hlo : 0.999 * (rad 0.33 / 2) ≤ sin (rad 0.33 / 2) := by
        refine le_trans ?_ (sin_gt_sub_cube hx).le
        have : rad 0.33 / 2 ≤ 0.01 := by unfold rad; linarith
        have : (rad 0.33 / 2) ^ 2 ≤ 0.001 := by nlinarith
        nlinarith
      have hsq : (0.999 * (rad 0.33 / 2)) ^ 2 ≤ hav 76.5 (-70) (7653001 / 100000) (-6876151 / 100000) := by
        rw [← sq_sqrt g2]
        exact pow_le_pow_left₀ (by positivity) (hlo.trans hge) 2
      have hup : hav 76.5 (-70) (7653001 / 100000) (-6876151 / 100000) ≤
          (0.03001 * π / 180) ^ 2 / 4 + 0.24 * 0.24 * ((1.23849 * π / 180) ^ 2 / 4) := by
        unfold hav
        have hcos : ∀ x : ℝ, 76.5 ≤ x → x ≤ 90 → 0 ≤ cos (rad x) ∧ cos (rad x) ≤ 0.24 := by
          intro x hx1 hx2
          refine ⟨cos_rad_nonneg (by linarith) hx2, ?_⟩
          rw [← sin_pi_div_two_sub]
          refine (sin_le ?_).trans ?_ <;> unfold rad <;> nlinarith
        have c1 := hcos 76.5 (by norm_num) (by norm_num)
        have c2 := hcos (7653001 / 100000) (by norm_num) (by norm_num)
        have s1 := sin_half_sq_le (rad (7653001 / 100000) - rad 76.5)
        have s2 := sin_half_sq_le (rad (-6876151 / 100000) - rad (-70))
        have r1 : rad (7653001 / 100000) - rad 76.5 = 0.03001 * π / 180 := by unfold rad; ring
        have r2 : rad (-6876151 / 100000) - rad (-70) = 1.23849 * π / 180 := by unfold rad; ring
        rw [r1] at s1 ⊢
        rw [r2] at s2 ⊢
        refine add_le_add s1 (mul_le_mul ?_ s2 (sq_nonneg _) (by norm_num))
        exact mul_le_mul c1.2 c2.2 c2.1 (by norm_num)
      have : (0.999 * (rad 0.33 / 2)) ^ 2 = (0.999 * 0.33 / 360) ^ 2 * π ^ 2 := by unfold rad; ring
      rw [this] at hsq
      have e : (0.03001 * π / 180) ^ 2 / 4 + 0.24 * 0.24 * ((1.23849 * π / 180) ^ 2 / 4) =
        ((0.03001 / 180) ^ 2 / 4 + 0.24 * 0.24 * ((1.23849 / 180) ^ 2 / 4)) * π ^ 2 := by ring
      rw [e] at hup
      have hlt : ((0.03001 / 180) ^ 2 / 4 + 0.24 * 0.24 * ((1.23849 / 180) ^ 2 / 4)) * π ^ 2 <
          (0.999 * 0.33 / 360) ^ 2 * π ^ 2 :=
        mul_lt_mul_of_pos_right (by norm_num) (by positivity)
      linarith
    have : 3 * rad 0.33 < rad 0.991 := by unfold rad; nlinarith
    linarith

end Verif.Props
