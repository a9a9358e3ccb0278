import Verif.Lemmas.EnvelopeFlight
import Verif.Props.GenPhases

/-!
# Speeds and altitudes of the rows of a complete flight
-/

namespace Verif.Gen
open Verif Verif.Aero Verif.Tables Verif.Kinematic Verif.Registry Verif.Spec
open Verif.Props (cas2tas_ge truncate_nonneg truncate_zero)

/-- Bounds of the rows of `data`: at rest vertically on the ground, or at 61 m/s or more. -/
structure RowBounds (x : Row) : Prop where
  h0 : 0 ≤ x.h
  h1 : x.h ≤ 13200
  v0 : 0 ≤ x.v
  v1 : x.v ≤ 307
  vs : |x.vs| ≤ 25
  fast : (x.h = 0 ∧ x.vs = 0) ∨ 61 ≤ x.v

theorem vsound_sea {h : ℝ} (hh : 0 ≤ h) : vsound np h 0 ≤ 340.3 := by
  rw [vsound_eq]
  have h0 : shift 0 = 0 := by simp [shift]; norm_num
  have : isaTemp h 0 ≤ 288.15 := by
    unfold isaTemp
    rw [h0]
    split_ifs
    · linarith
    · norm_num
  refine Real.sqrt_le_iff.2 ⟨by norm_num, ?_⟩
  norm_num at this ⊢
  linarith

theorem slow_of_mach {v h m : ℝ} (hh : 0 ≤ h) (hm : m ≤ 0.9) (hv : tas2mach np v h 0 ≤ 1.0002 * m) :
    v ≤ 307 := by
  have h1 := vsound_pos h 0
  have h2 := vsound_sea hh
  have e : tas2mach np v h 0 = v / vsound np h 0 := rfl
  rw [e, div_le_iff₀ h1] at hv
  have : 1.0002 * m * vsound np h 0 ≤ 1.0002 * 0.9 * vsound np h 0 := by gcongr
  linarith

theorem mach_fast {m : ℝ} (hm : 0.5 ≤ m) (h : ℝ) : 61 ≤ mach2tas np m h 0 := by
  have := vsound_lower h
  show 61 ≤ m * vsound np h 0
  nlinarith

theorem cas_fast {c h : ℝ} (hc : 62 ≤ c) (hh : 0 ≤ h) : 61 ≤ cas2tas np c h 0 := by
  have := cas2tas_ge (v := c) (by linarith) hh
  linarith

theorem descent_fast {P : DescentParams} (hP : P.Valid) (hO : P.Ordered) (hA : 62 ≤ P.vApp)
    (hm : 0.5 ≤ P.mach) (hd : P.dt ≤ 10) {ss : List Row}
    (h : Trace (descentBody P) (descentInit P) ss) :
    ∀ x ∈ ss, (x.h = 0 ∧ x.vs = 0) ∨ 61 ≤ x.v := by
  have hc := hO.approach
  have key := trace_inv (Inv := fun x => DescentInv P x ∧ ((x.h = 0 ∧ x.vs = 0) ∨ 61 ≤ x.v)) ?_ h
    ⟨descentInv_init hP, Or.inr (mach_fast hm _)⟩
  · exact fun x hx => (key x hx).2
  intro x hx _
  obtain ⟨hi, hf⟩ := hx
  refine ⟨(descentInv_step hP hi).1, ?_⟩
  unfold descentBody
  dsimp only
  split_ifs with c1 c2 c3 c4 c5 c6 <;> dsimp only
  · exact Or.inr (mach_fast hm _)
  · exact Or.inr (mach_fast hm _)
  · have := hP.hCas
    exact Or.inr (cas_fast (by linarith) (by linarith))
  · have : (0:ℝ) < ft := by unfold ft; norm_num
    exact Or.inr (cas_fast hA (by linarith))
  · right
    have h4 : 0 < x.h + x.vs * P.dt := by
      have : (0:ℝ) < ft := by unfold ft; norm_num
      linarith
    have hv : 61 ≤ x.v := by
      rcases hf with ⟨e1, e2⟩ | hf
      · rw [e1, e2] at h4; simp at h4
      · exact hf
    have := cas_le_tas (v := x.v + -0.2 * P.dt) (by linarith) h4.le
    have := not_lt.1 c5
    norm_num at *
    linarith
  · exact Or.inr (by linarith)
  · exact Or.inl ⟨rfl, rfl⟩

section
variable {G : Type} {R : Rng G}

theorem alt_upper {w : List WrapRow} (hw : tableOk w = true) :
    wreal (look w cruiseAlt).opt * 1000 ≤ 13000 := by
  simp only [tableOk, Bool.and_eq_true, List.all_cons, List.all_nil, Bool.and_true] at hw
  obtain ⟨⟨⟨⟨⟨⟨⟨⟨⟨⟨⟨⟨x1, x2, x3, x4, x5⟩, x6⟩, y1⟩, y2⟩, z1, z2, z3⟩, y3⟩, y4⟩, y5⟩, y6⟩, y7⟩, y8⟩,
    v1, v2, v3, v4⟩ := hw
  obtain ⟨r, e, a⟩ := entry_of y3
  have : look w cruiseAlt = r := by unfold look; rw [e]
  rw [this]
  have := wreal_le a.2.2.2.1
  have c : wreal 130000 = 13 := by unfold wreal; norm_num
  rw [c] at this
  linarith

theorem lift_lower {w : List WrapRow} (hw : tableOk w = true) :
    80 ≤ wreal (look w takeoffSpeed).opt := by
  simp only [tableOk, Bool.and_eq_true, List.all_cons, List.all_nil, Bool.and_true] at hw
  obtain ⟨⟨⟨⟨⟨⟨⟨⟨⟨⟨⟨⟨x1, x2, x3, x4, x5⟩, x6⟩, y1⟩, y2⟩, z1, z2, z3⟩, y3⟩, y4⟩, y5⟩, y6⟩, y7⟩, y8⟩,
    v1, v2, v3, v4⟩ := hw
  obtain ⟨r, e, a⟩ := entry_of' y1
  have : look w takeoffSpeed = r := by unfold look; rw [e]
  rw [this]
  have := wreal_ge a.1
  norm_num at this
  linarith

variable {f f' : FlightGen G} (hw : tableOk f.wrap = true)
  (hs : scheduleOk f.wrap = true) (hn : f.noise = false) {kw : Kw}
  (hr : kw.random.getD false = false)
  (hd : ∀ d, kw.dt = some d → 0 < d ∧ d ≤ 10)
include hw hs hn hr hd

theorem climb_rowBounds {fr : ClimbFrame} (hc : kw.casCl = none)
    (hm : kw.machCl = some (wreal (look f.wrap cruiseMach).opt))
    (ha : kw.altCr = some (roundHundreds (wreal (look f.wrap cruiseAlt).opt * 1000 / ft)))
    (h : ClimbReturns R f kw fr f') :
    (∃ x, fr.rows.head? = some x ∧ x.h = 0 ∧ x.v = 0 ∧ x.vs = 0) ∧
    ∀ x ∈ fr.rows, RowBounds x.toRow := by
  have F := table_facts hw hs
  obtain ⟨P, g, ss, h1, h2, rfl, -⟩ := climbReturns_iff.1 h
  obtain ⟨p1, p2, p3, p4, p5, p6⟩ := climb_schedule hw hs hr hc (Or.inr hm) (Or.inr ha) hd h1
  obtain ⟨e1, e2, e3, e4, e5, e6, e7, e8, e9, e10, -⟩ := climb_default hw hr hc h1
  rw [hm, Option.getD_some] at e5
  have hx := climb_within p1 p2 p3 h2
  have hv80 : 80 ≤ P.vTof := by
    rw [e3]
    exact lift_lower hw
  have hmx : P.vsMax ≤ 15 := by
    unfold ClimbParams.vsMax
    rw [e7, e8, e9, e10]
    exact max_le (max_le F.ic.2 F.pre.2) (max_le F.con.2 F.com.2)
  rw [addNoise_off hn]
  refine ⟨⟨derive climbInit.toRow, by simp [trace_head h2], rfl, rfl, rfl⟩, ?_⟩
  intro y hy
  simp only [List.map_map, List.mem_map, Function.comp] at hy
  obtain ⟨x, hm, rfl⟩ := hy
  obtain ⟨i, w, roll⟩ := hx x hm
  have hup := alt_upper hw
  have hk := F.kmach.2
  refine ⟨i.h, ?_, i.v, slow_of_mach i.h (e5 ▸ hk) w.2, ?_, ?_⟩
  · have := i.top.le
    show x.h ≤ _
    linarith
  · show |x.vs| ≤ 25
    have := i.vs_nonneg p1
    rw [abs_of_nonneg this]
    rcases i.vs with e | ⟨-, e, -⟩ <;> linarith
  · rcases lt_or_ge x.v P.vTof with c | c
    · exact Or.inl (roll c)
    · right
      show 61 ≤ x.v
      linarith

theorem descent_rowBounds {fr : DescentFrame} (hc : kw.casDe = none)
    (hm : kw.machDe = some (wreal (look f.wrap cruiseMach).opt))
    (ha : kw.altCr = some (roundHundreds (wreal (look f.wrap cruiseAlt).opt * 1000 / ft)))
    (h : DescentReturns R f kw fr f') : ∀ x ∈ fr.rows, RowBounds x.toRow := by
  have F := table_facts hw hs
  obtain ⟨P, g, ss, h1, h2, rfl, -⟩ := descentReturns_iff.1 h
  obtain ⟨p1, p2, p3, p4, p5, p6⟩ := descent_schedule hw hs hr hc (Or.inr hm) (Or.inr ha) hd h1
  obtain ⟨e1, e2, e3, e4, e5, -⟩ := descent_default hw hr hc h1
  rw [hm, Option.getD_some] at e5
  have hdt : P.dt ≤ 10 := by
    rw [e1]
    exact getD_cases (p := fun x => x ≤ 10) (fun d h => (hd d h).2) (by norm_num)
  have hk := F.kmach
  rw [← e5] at hk
  have hx := descent_within p1 p2 p3 h2
  have hf := descent_fast p1 p2 (e3 ▸ F.vApp.1) hk.1 hdt h2
  rw [addNoise_off hn]
  intro y hy
  simp only [List.mem_map] at hy
  obtain ⟨x, hm, rfl⟩ := hy
  obtain ⟨i, v, w, rate, -⟩ := hx x hm
  have hup := alt_upper hw
  refine ⟨i.h, ?_, v, slow_of_mach i.h hk.2 w.2, ?_, hf x hm⟩
  · have := i.h_le
    show x.h ≤ _
    linarith
  · show |x.vs| ≤ 25
    have := i.vs
    rw [abs_of_nonpos this]
    have r : -x.vs * P.mach ≤ 10.5 := by
      rcases rate with r | ⟨-, r⟩ <;> linarith
    nlinarith [hk.1]
end

section
variable {G : Type} {R : Rng G}

/-- All rows of a complete flight with default arguments. -/
theorem complete_rowBounds {f f' : FlightGen G} (hw : tableOk f.wrap = true)
    (hs : scheduleOk f.wrap = true) (hn : f.noise = false) {kw : Kw} {rows : List OutRow}
    (hk : kw.Default) (h : CompleteReturns R f kw rows f') :
    (∃ x, rows.head? = some x ∧ x.altitude = 0 ∧ x.groundspeed = 0 ∧ x.verticalRate = 0) ∧
    ∀ x ∈ rows, RowBounds x.toRow ∧ ∃ y, x = derive y := by
  have F := table_facts hw hs
  obtain ⟨-, -, cr, f1, cl, f2, de, c1, c2, c3, rfl⟩ := completeReturns_iff.1 h
  have hr : kw.random.getD false = false := by
    have := hk.random
    rcases hq : kw.random with _ | _ | _ <;> simp_all
  obtain ⟨m1, a1, w1, n1, near, crow⟩ := cruise_rows hw hn hr hk.machCr hk.altCr c1
  have hp : passAlt kw cr.params.alt = { kw with altCr := some cr.params.alt } := by
    unfold passAlt
    rw [hk.altCr]
    rfl
  rw [hp] at c2 c3
  obtain ⟨P, g, ss, -, -, -, e2⟩ := climbReturns_iff.1 c2
  have w2 : f2.wrap = f.wrap := by rw [e2]; exact w1
  have n2 : f2.noise = false := by rw [e2]; exact n1
  obtain ⟨⟨x0, hx0, z1, z2, z3⟩, bc⟩ := climb_rowBounds (by rwa [w1]) (by rwa [w1]) n1 (kw := { kw with
      altCr := some cr.params.alt, machCl := some cr.params.mach }) hr hk.dt hk.casCl
      (by rw [w1]; exact congrArg some m1) (by rw [w1]; exact congrArg some a1) c2
  have bd := descent_rowBounds (by rwa [w2]) (by rwa [w2]) n2 (kw := { kw with
      altCr := some cr.params.alt, machDe := some cr.params.mach }) hr hk.dt hk.casDe
      (by rw [w2]; exact congrArg some m1) (by rw [w2]; exact congrArg some a1) c3
  have bm : ∀ x ∈ cr.rows, RowBounds x.toRow := by
    obtain ⟨P', g', ss', -, t, rfl, -⟩ := cruiseReturns_iff.1 c1
    rw [addNoise_off hn] at crow ⊢
    intro x hx
    obtain ⟨q1, q2⟩ := crow x hx
    have near := abs_le.1 near
    have hup := alt_upper hw
    have ha := F.alt
    have h0 : 0 ≤ x.h := by rw [q1]; linarith
    have hk := F.kmach
    have hf := mach_fast hk.1 x.h
    refine ⟨h0, by rw [q1]; linarith, by rw [q2]; linarith, ?_, ?_, Or.inr (by rw [q2]; exact hf)⟩
    · refine slow_of_mach h0 hk.2 ?_
      rw [q2, tas2mach_mach2tas]
      linarith
    · simp only [List.mem_map] at hx
      obtain ⟨y, hy, rfl⟩ := hx
      have : y.vs = 0 := (cruise_trace_const t y hy).2.2
      show |y.vs| ≤ 25
      rw [this]; norm_num
  have off : ∀ t s (x : OutRow), RowBounds x.toRow → RowBounds (offset t s x).toRow ∧
      ∃ y, offset t s x = derive y :=
    fun t s x b => ⟨⟨b.h0, b.h1, b.v0, b.v1, b.vs, b.fast⟩, _, rfl⟩
  constructor
  · refine ⟨offset 0 0 x0, ?_, ?_, ?_, ?_⟩
    · simp [joinParts, hx0]
    · show truncate (x0.h / ft) = 0
      rw [z1, zero_div, truncate_zero]
    · show truncate (x0.v / kts) = 0
      rw [z2, zero_div, truncate_zero]
    · show truncate (x0.vs / fpm) = 0
      rw [z3, zero_div, truncate_zero]
  · intro x hx
    simp only [joinParts, List.mem_append, List.mem_map] at hx
    rcases hx with (⟨y, hy, rfl⟩ | ⟨y, hy, rfl⟩) | ⟨y, hy, rfl⟩
    · exact off _ _ y (bc y hy)
    · exact off _ _ y (bm y hy)
    · exact off _ _ y (bd y hy)

/-- The columns of such a row. -/
theorem rowBounds_columns {y : Row} (b : RowBounds y) :
    0 ≤ (derive y).altitude ∧ (derive y).altitude ≤ 43400 ∧ 0 ≤ (derive y).groundspeed ∧
    (derive y).groundspeed ≤ 600 ∧ |((derive y).verticalRate : ℝ)| ≤ 5000 ∧
    (((derive y).altitude = 0 ∧ (derive y).verticalRate = 0) ∨ 117 ≤ (derive y).groundspeed) := by
  have hft : (0:ℝ) < ft := by unfold ft; norm_num
  have hk : (0:ℝ) < kts := by unfold kts; norm_num
  have hf : (0:ℝ) < fpm := by unfold fpm; norm_num
  have a0 : 0 ≤ y.h / ft := div_nonneg b.h0 hft.le
  have s0 : 0 ≤ y.v / kts := div_nonneg b.v0 hk.le
  have ea : (derive y).altitude = ⌊y.h / ft⌋ := if_pos a0
  have eg : (derive y).groundspeed = ⌊y.v / kts⌋ := if_pos s0
  have ev : (derive y).verticalRate = truncate (y.vs / fpm) := rfl
  rw [ea, eg, ev]
  refine ⟨Int.floor_nonneg.2 a0, ?_, Int.floor_nonneg.2 s0, ?_, ?_, ?_⟩
  · have : y.h / ft < 43401 := by
      rw [div_lt_iff₀ hft]; have := b.h1; unfold ft; linarith
    exact Int.lt_add_one_iff.1 (Int.floor_lt.2 (by push_cast; linarith))
  · have : y.v / kts < 601 := by
      rw [div_lt_iff₀ hk]; have := b.v1; unfold kts; linarith
    exact Int.lt_add_one_iff.1 (Int.floor_lt.2 (by push_cast; linarith))
  · have h1 := abs_le.1 b.vs
    have h2 : y.vs / fpm ≤ 4990 := by
      rw [div_le_iff₀ hf]; unfold fpm; linarith
    have h3 : -4990 ≤ y.vs / fpm := by
      rw [le_div_iff₀ hf]; unfold fpm; linarith
    unfold truncate
    split_ifs with c
    · have := Int.floor_le (y.vs / fpm)
      have := Int.lt_floor_add_one (y.vs / fpm)
      rw [abs_le]; constructor <;> linarith
    · have := Int.le_ceil (y.vs / fpm)
      have := Int.ceil_lt_add_one (y.vs / fpm)
      rw [abs_le]; constructor <;> linarith
  · rcases b.fast with ⟨e1, e2⟩ | c
    · left
      rw [e1, e2, zero_div, zero_div]
      exact ⟨Int.floor_zero, truncate_zero⟩
    · right
      refine Int.le_floor.2 ?_
      rw [le_div_iff₀ hk]; unfold kts; push_cast; linarith
end

end Verif.Gen
