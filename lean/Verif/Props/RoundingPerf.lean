import Verif.Props.Rounding
import Verif.Lemmas.FloatEmission
import Verif.Lemmas.Construct
import Verif.Data.Shipped

/-!
# C121, continued: take-off thrust and emissions in floating point
-/

namespace Verif.Props
open Verif Verif.Aero Verif.Spec Verif.Tables Verif.Construct Real

variable {f : Format} (M : Machine f)

/-- Take-off thrust, from standstill. The error is a multiple of the static thrust. -/
theorem C121_takeoff (hw : f.Wide) (e : Thrust.Params ℝ) (hb : 0 ≤ e.bpr ∧ e.bpr ≤ 15)
    (hT : 1000 ≤ e.maxThrust ∧ e.maxThrust ≤ 1000000) (hN : 1 ≤ e.number ∧ e.number ≤ 10)
    {tas alt : ℝ} (ht : 0 ≤ tas ∧ tas ≤ 400) (hh : -1000 ≤ alt * 0.3048 ∧ alt * 0.3048 ≤ 15000)
    (dT : ℝ) :
    |(Thrust.takeoff (flt M) (Fl.thrust M e) ⟨tas⟩ ⟨alt⟩ ⟨dT⟩).val -
      Thrust.takeoff np e tas alt dT| ≤ 2900 * f.u * (e.maxThrust * e.number) :=
  Thrust.fl_takeoff M hw e hb.1 hb.2 hT.1 hT.2 hN.1 hN.2 ht.1 ht.2 hh.1 hh.2 dT

/-- CO2, H2O, soot and SOx. -/
theorem C121_gases (hw : f.Wide) {x : ℝ} (h1 : 1 / 10000 ≤ x) (h2 : x ≤ 100) :
    Accurate f 2.1 (Emission.co2 (α := Fl M) ⟨x⟩).val (3160 * x) ∧
    Accurate f 2.1 (Emission.h2o (α := Fl M) ⟨x⟩).val (1230 * x) ∧
    Accurate f 2.1 (Emission.soot (α := Fl M) ⟨x⟩).val (0.03 * x) ∧
    Accurate f 2.1 (Emission.sox (α := Fl M) ⟨x⟩).val (1.2 * x) := by
  have ex := Ap.exact (u := f.u) (L := 14) (b := x) (le_trans (by norm_num) h1)
    (h2.trans (by norm_num))
  have k : ∀ c : ℝ, (2 : ℝ) ^ (-(12 : ℕ) : ℤ) ≤ c → c ≤ (2 : ℝ) ^ ((12 : ℕ) : ℤ) →
      Accurate f 2.1 (M.rnd (x * M.rnd c)) (c * x) := fun c c1 c2 => by
    rw [mul_comm c]
    exact accurate_of_ap hw ((ex.mul (Ap.lit M hw c1 c2 (by norm_num))).rnd M hw (by norm_num)
      (by norm_num)) (by norm_num) (by norm_num) (by norm_num)
  refine ⟨?_, ?_, ?_, ?_⟩
  · rw [show (3160 : ℝ) = 3160.0 by norm_num]; exact k 3160.0 (by norm_num) (by norm_num)
  · rw [show (1230 : ℝ) = 1230.0 by norm_num]; exact k 1230.0 (by norm_num) (by norm_num)
  · exact k 0.03 (by norm_num) (by norm_num)
  · exact k 1.2 (by norm_num) (by norm_num)

/-- NOx, CO and HC. The error is a multiple of what the highest of the four indices, or a bound
`E` of it, would give at the same conditions. -/
theorem C121_indices (hw : f.Wide) (e : Emission.Params ℝ) (hN : 1 ≤ e.number ∧ e.number ≤ 10)
    {ffac tas alt E : ℝ} (hf : 1 / 10000 ≤ ffac ∧ ffac ≤ 100) (ht : 0 ≤ tas ∧ tas ≤ 600)
    (hh : -1000 ≤ alt * 0.3048 ∧ alt * 0.3048 ≤ 15000) (dT : ℝ) :
    let ratio := (Emission.fl2sl np e ffac tas alt dT).2
    (LtoRange e.ff e.co E →
      |(Emission.co (flt M) (Fl.emission M e) ⟨ffac⟩ ⟨tas⟩ ⟨alt⟩ ⟨dT⟩).val -
        Emission.co np e ffac tas alt dT| ≤ 3560 * f.u * (E * ratio * ffac)) ∧
    (LtoRange e.ff e.hc E →
      |(Emission.hc (flt M) (Fl.emission M e) ⟨ffac⟩ ⟨tas⟩ ⟨alt⟩ ⟨dT⟩).val -
        Emission.hc np e ffac tas alt dT| ≤ 3560 * f.u * (E * ratio * ffac)) ∧
    (LtoRange e.ff e.nox E →
      |(Emission.nox (flt M) (Fl.emission M e) ⟨ffac⟩ ⟨tas⟩ ⟨alt⟩ ⟨dT⟩).val -
        Emission.nox np e ffac tas alt dT| ≤ 3480 * f.u * (E * √(1 / ratio) *
          exp (-19 * (0.001 * exp (-0.0001426 * (alt - 12900)) - 0.00634)) * ffac)) :=
  ⟨fun h => Emission.fl_index_ratio M hw e h hN.1 hN.2 hf.1 hf.2 ht.1 ht.2 hh.1 hh.2 dT,
    fun h => Emission.fl_index_ratio M hw e h hN.1 hN.2 hf.1 hf.2 ht.1 ht.2 hh.1 hh.2 dT,
    fun h => Emission.fl_nox M hw e h hN.1 hN.2 hf.1 hf.2 ht.1 ht.2 hh.1 hh.2 dT⟩

/-- The highest of four numbers, at least 0.01. -/
noncomputable def peak (v : Fin 4 → ℝ) : ℝ := max (max (max (v 0) (v 1)) (max (v 2) (v 3))) 0.01

private theorem quad_nonneg (q : Quad) (k : Fin 4) : 0 ≤ quad q k := by
  fin_cases k <;> exact real_nonneg _

private theorem peak_ge (v : Fin 4 → ℝ) (k : Fin 4) : v k ≤ peak v := by
  unfold peak
  fin_cases k
  · exact le_max_of_le_left (le_max_of_le_left (le_max_left _ _))
  · exact le_max_of_le_left (le_max_of_le_left (le_max_right _ _))
  · exact le_max_of_le_left (le_max_of_le_right (le_max_left _ _))
  · exact le_max_of_le_left (le_max_of_le_right (le_max_right _ _))

/-- The numbers of every shipped engine lie in these ranges. -/
theorem C121_engines : ∀ r ∈ Data.shipped.engines,
    (∀ b, r.bpr = some b → 0 ≤ real b ∧ real b ≤ 15) ∧
    LtoRange (quad r.ff) (quad r.nox) (peak (quad r.nox)) ∧
    LtoRange (quad r.ff) (quad r.ei_co) (peak (quad r.ei_co)) ∧
    LtoRange (quad r.ff) (quad r.hc) (peak (quad r.hc)) := by
  have h : ∀ r ∈ Data.shipped.engines, (∀ b ∈ r.bpr, b ≤ 150000000000000000) ∧
      (0 < r.ff.idl ∧ r.ff.toff + 12 * r.ff.idl ≤ 12 * r.ff.app ∧
        r.ff.toff + 12 * r.ff.app ≤ 12 * r.ff.cout ∧ 12 * r.ff.cout ≤ 11 * r.ff.toff ∧
        100000000000000 ≤ r.ff.toff ∧ r.ff.toff ≤ 100000000000000000) ∧
      ∀ q ∈ [r.nox, r.ei_co, r.hc], ∀ v ∈ [q.idl, q.app, q.cout, q.toff],
        v ≤ 100000000000000000000 := by decide +kernel
  intro r hr
  obtain ⟨hb, ⟨f0, g1, g2, g3, t1, t2⟩, hq⟩ := h r hr
  have c : ∀ m n : ℕ, m ≤ n → (m : ℝ) ≤ n := fun m n h => by exact_mod_cast h
  have g1' := c _ _ g1
  have g2' := c _ _ g2
  have g3' := c _ _ g3
  have t1' := c _ _ t1
  have t2' := c _ _ t2
  push_cast at g1' g2' g3' t1' t2'
  have key : ∀ q ∈ [r.nox, r.ei_co, r.hc], LtoRange (quad r.ff) (quad q) (peak (quad q)) := by
    intro q hm
    have up : ∀ v ∈ [q.idl, q.app, q.cout, q.toff], real v ≤ 10000 := by
      intro v hv
      have := c _ _ (hq q hm v hv)
      push_cast at this
      unfold real
      rw [div_le_iff₀ (by positivity)]
      linarith
    refine ⟨real_pos f0, ?_, ⟨?_, ?_⟩, fun k => ⟨quad_nonneg q k, peak_ge _ k⟩, ?_, ?_⟩
    · intro k
      fin_cases k
      · change real r.ff.toff ≤ 12 * (real r.ff.app - real r.ff.idl)
        unfold real
        rw [← sub_div, ← mul_div_assoc]
        exact div_le_div_of_nonneg_right (by linarith) (by positivity)
      · change real r.ff.toff ≤ 12 * (real r.ff.cout - real r.ff.app)
        unfold real
        rw [← sub_div, ← mul_div_assoc]
        exact div_le_div_of_nonneg_right (by linarith) (by positivity)
      · change real r.ff.toff ≤ 12 * (real r.ff.toff - real r.ff.cout)
        unfold real
        rw [← sub_div, ← mul_div_assoc]
        exact div_le_div_of_nonneg_right (by linarith) (by positivity)
    · change _ ≤ real r.ff.toff
      unfold real
      rw [le_div_iff₀ (by positivity)]
      linarith
    · change real r.ff.toff ≤ _
      unfold real
      rw [div_le_iff₀ (by positivity)]
      linarith
    · refine le_trans (by norm_num) (le_max_right _ _)
    · refine max_le (max_le (max_le ?_ ?_) (max_le ?_ ?_)) (by norm_num)
      · exact up q.idl (by simp)
      · exact up q.app (by simp)
      · exact up q.cout (by simp)
      · exact up q.toff (by simp)
  refine ⟨fun b e => ⟨real_nonneg b, ?_⟩, key _ (by simp), key _ (by simp), key _ (by simp)⟩
  have := c _ _ (hb b e)
  push_cast at this
  unfold real
  rw [div_le_iff₀ (by positivity)]
  linarith

/-! Cases: an engine of the size of the CFM56-5B on the ground in double precision; its emissions at
FL360. -/

example : ∃ e : Thrust.Params ℝ, 0 ≤ e.bpr ∧ e.bpr ≤ 15 ∧
    |(Thrust.takeoff (flt (rounded Format.binary64_wide)) (Fl.thrust _ e) ⟨150⟩ ⟨0⟩ ⟨0⟩).val -
      Thrust.takeoff np e 150 0 0| ≤ 0.0001 := by
  refine ⟨⟨35000, 5.9, 117900, 2, 0.8, 22000⟩, by norm_num, by norm_num, ?_⟩
  refine (C121_takeoff _ Format.binary64_wide ⟨35000, 5.9, 117900, 2, 0.8, 22000⟩ (by norm_num)
    (by norm_num) (by norm_num) (tas := 150) (alt := 0) (by norm_num) (by norm_num) 0).trans ?_
  rw [show Format.binary64.u = (2 : ℝ) ^ (-53 : ℤ) from rfl]
  norm_num

example : LtoRange ![0.107, 0.342, 0.961, 1.166] ![4.3, 10.7, 22.2, 28.0] 28 where
  hFirst := by norm_num
  hGap k := by
    fin_cases k
    · change (1.166 : ℝ) ≤ 12 * (0.342 - 0.107); norm_num
    · change (1.166 : ℝ) ≤ 12 * (0.961 - 0.342); norm_num
    · change (1.166 : ℝ) ≤ 12 * (1.166 - 0.961); norm_num
  hLast := by change 1 / 100 ≤ (1.166 : ℝ) ∧ (1.166 : ℝ) ≤ 10; norm_num
  hIndex k := by
    fin_cases k
    · change 0 ≤ (4.3 : ℝ) ∧ (4.3 : ℝ) ≤ 28; norm_num
    · change 0 ≤ (10.7 : ℝ) ∧ (10.7 : ℝ) ≤ 28; norm_num
    · change 0 ≤ (22.2 : ℝ) ∧ (22.2 : ℝ) ≤ 28; norm_num
    · change 0 ≤ (28.0 : ℝ) ∧ (28.0 : ℝ) ≤ 28; norm_num
  hBound := by norm_num

end Verif.Props
