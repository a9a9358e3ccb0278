import Verif.Lemmas.PhaseRegions
import Verif.Props.GenComplete

/-!
# C137: which label plain situations get

Conditions on the samples of a time window under which its label is known.
-/

namespace Verif.Props
open Verif Verif.Phase Verif.PhaseSpec

section
variable {o o' : Obj} {ts : List ℝ} {alt spd roc : List NR} {d : ℝ} {labels : List Label} {i : ℕ}

theorem members_nonempty (hi : i < ts.length) : (members ts d (window ts d i)).Nonempty :=
  ⟨i, Finset.mem_filter.2 ⟨by simpa using hi, rfl⟩⟩

theorem of_members {j : ℕ} (hj : j ∈ members ts d (window ts d i)) :
    j < ts.length ∧ window ts d j = window ts d i := by
  have := Finset.mem_filter.1 hj
  exact ⟨by simpa using this.1, this.2⟩

/-- **C137, climb.** If the altitudes of a window are known and every rate of climb in it is above
300 ft/min, its samples are labelled CL, at whatever altitude and whatever, or unknown, speed. -/
theorem C137_climb (hset : setTrajectory o ts alt spd roc = (.ok (), o')) (hd : 0 < d)
    (hs : ts.Pairwise (· ≤ ·)) (hl : phaselabel o' d = .ok labels) (hi : i < ts.length)
    (hw : window ts d i < window ts d (ts.length - 1))
    (ha : ∀ j < ts.length, window ts d j = window ts d i → ∃ x, alt[j]? = some (.val x))
    (hr : ∀ j < ts.length, window ts d j = window ts d i →
      ∃ x, roc[j]? = some (.val x) ∧ 300 < x) :
    labels[i]? = some .CL := by
  refine (C59_strongest_phase hset hd hs hl i hi hw).2.1.2 ?_
  obtain ⟨a, ea⟩ := mean_val (members_nonempty (d := d) hi)
    fun j hj => ha j (of_members hj).1 (of_members hj).2
  obtain ⟨r, er, h⟩ := mean_gt (members_nonempty (d := d) hi)
    fun j hj => hr j (of_members hj).1 (of_members hj).2
  unfold WindowPhase
  rw [ea, er]
  exact strongest_of_roc (Or.inl rfl) (roc_up h).1 (roc_up h).2

/-- **C137, descent.** Likewise below -300 ft/min the label is DE. -/
theorem C137_descent (hset : setTrajectory o ts alt spd roc = (.ok (), o')) (hd : 0 < d)
    (hs : ts.Pairwise (· ≤ ·)) (hl : phaselabel o' d = .ok labels) (hi : i < ts.length)
    (hw : window ts d i < window ts d (ts.length - 1))
    (ha : ∀ j < ts.length, window ts d j = window ts d i → ∃ x, alt[j]? = some (.val x))
    (hr : ∀ j < ts.length, window ts d j = window ts d i →
      ∃ x, roc[j]? = some (.val x) ∧ x < -300) :
    labels[i]? = some .DE := by
  refine (C59_strongest_phase hset hd hs hl i hi hw).2.2.1.2 ?_
  obtain ⟨a, ea⟩ := mean_val (members_nonempty (d := d) hi)
    fun j hj => ha j (of_members hj).1 (of_members hj).2
  obtain ⟨r, er, h⟩ := mean_lt (members_nonempty (d := d) hi)
    fun j hj => hr j (of_members hj).1 (of_members hj).2
  unfold WindowPhase
  rw [ea, er]
  exact strongest_of_roc (Or.inr rfl) (roc_down h).1 (roc_down h).2

/-- **C137, cruise.** At 29500 ft or more and 410 kt or more, with rates of climb of at most
10 ft/min, the label is CR. -/
theorem C137_cruise (hset : setTrajectory o ts alt spd roc = (.ok (), o')) (hd : 0 < d)
    (hs : ts.Pairwise (· ≤ ·)) (hl : phaselabel o' d = .ok labels) (hi : i < ts.length)
    (hw : window ts d i < window ts d (ts.length - 1))
    (ha : ∀ j < ts.length, window ts d j = window ts d i →
      ∃ x, alt[j]? = some (.val x) ∧ 29500 ≤ x)
    (hv : ∀ j < ts.length, window ts d j = window ts d i → ∃ x, spd[j]? = some (.val x) ∧ 410 ≤ x)
    (hr : ∀ j < ts.length, window ts d j = window ts d i →
      ∃ x, roc[j]? = some (.val x) ∧ -10 ≤ x ∧ x ≤ 10) :
    labels[i]? = some .CR := by
  refine (C59_strongest_phase hset hd hs hl i hi hw).2.2.2.1.2 ?_
  have hn := members_nonempty (d := d) hi
  obtain ⟨a, ea, a1⟩ := mean_ge hn fun j hj => ha j (of_members hj).1 (of_members hj).2
  obtain ⟨v, ev, v1⟩ := mean_ge hn fun j hj => hv j (of_members hj).1 (of_members hj).2
  obtain ⟨r, er, r1, r2⟩ := mean_both hn fun j hj => hr j (of_members hj).1 (of_members hj).2
  unfold WindowPhase
  rw [ea, ev, er]
  refine (level_or_cruise (by linarith) r1 r2 rfl rfl).1 ?_
  have A1 : 29500 ≤ max (min a 39999) 0 := le_max_of_le_left (le_min a1 (by norm_num))
  have A2 : max (min a 39999) 0 ≤ 39999 := max_le (min_le_right _ _) (by norm_num)
  have V1 : 410 ≤ max (min v 599) 0 := le_max_of_le_left (le_min v1 (by norm_num))
  have V2 : max (min v 599) 0 ≤ 599 := max_le (min_le_right _ _) (by norm_num)
  generalize max (min a 39999) 0 = A at *
  generalize max (min v 599) 0 = V at *
  refine lt_of_le_of_lt (b := 1.92) ?_ (lt_max_of_lt_left ?_)
  · have : max (|A - 35000| / 20000) (|V - 600| / 100) ≤ 1.9 := by
      refine max_le ?_ ?_
      · rw [div_le_iff₀ (by norm_num), abs_le]
        constructor <;> linarith
      · rw [div_le_iff₀ (by norm_num), abs_le]
        constructor <;> linarith
    linarith
  · rw [lt_div_iff₀ (by norm_num), abs_of_pos (by linarith)]
    linarith

/-- **C137, slow.** At 200 ft or more and at most 300 kt, with rates of climb of at most 10 ft/min,
the label is LVL: neither a slow cruise nor an aircraft standing on an airport above 200 ft is
recognised. -/
theorem C137_slow (hset : setTrajectory o ts alt spd roc = (.ok (), o')) (hd : 0 < d)
    (hs : ts.Pairwise (· ≤ ·)) (hl : phaselabel o' d = .ok labels) (hi : i < ts.length)
    (hw : window ts d i < window ts d (ts.length - 1))
    (ha : ∀ j < ts.length, window ts d j = window ts d i →
      ∃ x, alt[j]? = some (.val x) ∧ 200 ≤ x)
    (hv : ∀ j < ts.length, window ts d j = window ts d i → ∃ x, spd[j]? = some (.val x) ∧ x ≤ 300)
    (hr : ∀ j < ts.length, window ts d j = window ts d i →
      ∃ x, roc[j]? = some (.val x) ∧ -10 ≤ x ∧ x ≤ 10) :
    labels[i]? = some .LVL := by
  refine (C59_strongest_phase hset hd hs hl i hi hw).2.2.2.2.2 ?_
  have hn := members_nonempty (d := d) hi
  obtain ⟨a, ea, a1⟩ := mean_ge hn fun j hj => ha j (of_members hj).1 (of_members hj).2
  obtain ⟨v, ev, v1⟩ := mean_le hn fun j hj => hv j (of_members hj).1 (of_members hj).2
  obtain ⟨r, er, r1, r2⟩ := mean_both hn fun j hj => hr j (of_members hj).1 (of_members hj).2
  unfold WindowPhase
  rw [ea, ev, er]
  exact slow_level a1 v1 r1 r2

/-- **C137, in between.** For a constant whole altitude of 200 to 39999 ft and a constant whole
speed of at most 599 kt, with rates of climb of at most 10 ft/min, the label is CR or LVL: CR
exactly if the larger of the distances of the altitude from 35000 ft, in units of 20000 ft, and of
the speed from 600 kt, in units of 100 kt, is smaller than the larger of those from 10000 ft, in
units of 10000 ft, and from 300 kt, in units of 100 kt. -/
theorem C137_level (hset : setTrajectory o ts alt spd roc = (.ok (), o')) (hd : 0 < d)
    (hs : ts.Pairwise (· ≤ ·)) (hl : phaselabel o' d = .ok labels) (hi : i < ts.length)
    (hw : window ts d i < window ts d (ts.length - 1)) {a v : ℤ} (h1 : 200 ≤ a) (h2 : a ≤ 39999)
    (h3 : 0 ≤ v) (h4 : v ≤ 599)
    (ha : ∀ j < ts.length, window ts d j = window ts d i → alt[j]? = some (.val a))
    (hv : ∀ j < ts.length, window ts d j = window ts d i → spd[j]? = some (.val v))
    (hr : ∀ j < ts.length, window ts d j = window ts d i →
      ∃ x, roc[j]? = some (.val x) ∧ -10 ≤ x ∧ x ≤ 10) :
    (max (|(a:ℝ) - 35000| / 20000) (|(v:ℝ) - 600| / 100) <
        max (|(a:ℝ) - 10000| / 10000) (|(v:ℝ) - 300| / 100) → labels[i]? = some .CR) ∧
    (max (|(a:ℝ) - 10000| / 10000) (|(v:ℝ) - 300| / 100) ≤
        max (|(a:ℝ) - 35000| / 20000) (|(v:ℝ) - 600| / 100) → labels[i]? = some .LVL) := by
  obtain ⟨-, -, -, c, l⟩ := C59_strongest_phase hset hd hs hl i hi hw
  rw [c, l]
  have hn := members_nonempty (d := d) hi
  obtain ⟨a', ea, p1, p2⟩ := mean_both hn (lo := a) (hi := a) (data := alt)
    fun j hj => ⟨a, ha j (of_members hj).1 (of_members hj).2, le_rfl, le_rfl⟩
  obtain ⟨v', ev, q1, q2⟩ := mean_both hn (lo := v) (hi := v) (data := spd)
    fun j hj => ⟨v, hv j (of_members hj).1 (of_members hj).2, le_rfl, le_rfl⟩
  obtain ⟨r, er, r1, r2⟩ := mean_both hn fun j hj => hr j (of_members hj).1 (of_members hj).2
  obtain rfl := le_antisymm p2 p1
  obtain rfl := le_antisymm q2 q1
  have e1 : max (min (a:ℝ) 39999) 0 = a := by
    have h1 : (200:ℝ) ≤ a := by exact_mod_cast h1
    have h2 : (a:ℝ) ≤ 39999 := by exact_mod_cast h2
    rw [min_eq_left h2, max_eq_left (by linarith)]
  have e2 : max (min (v:ℝ) 599) 0 = v := by
    have h1 : (0:ℝ) ≤ v := by exact_mod_cast h3
    have h2 : (v:ℝ) ≤ 599 := by exact_mod_cast h4
    rw [min_eq_left h2, max_eq_left h1]
  unfold WindowPhase
  rw [ea, ev, er]
  have k := (level_or_cruise (h := a) (v := v) (by exact_mod_cast h1) r1 r2 rfl rfl).2.2
    a v rfl rfl
  rw [e1, e2] at k
  exact k

/-- **C137, runway.** On a runway at or below sea level, with rates of climb of at most 10 ft/min,
the label is GND below 100 kt and LVL from 100 to 300 kt, during the take-off and landing roll. -/
theorem C137_runway (hset : setTrajectory o ts alt spd roc = (.ok (), o')) (hd : 0 < d)
    (hs : ts.Pairwise (· ≤ ·)) (hl : phaselabel o' d = .ok labels) (hi : i < ts.length)
    (hw : window ts d i < window ts d (ts.length - 1))
    (ha : ∀ j < ts.length, window ts d j = window ts d i → ∃ x, alt[j]? = some (.val x) ∧ x ≤ 0)
    (hr : ∀ j < ts.length, window ts d j = window ts d i →
      ∃ x, roc[j]? = some (.val x) ∧ -10 ≤ x ∧ x ≤ 10) :
    ((∀ j < ts.length, window ts d j = window ts d i →
      ∃ x, spd[j]? = some (.val x) ∧ x < 100) → labels[i]? = some .GND) ∧
    ((∀ j < ts.length, window ts d j = window ts d i →
      ∃ x, spd[j]? = some (.val x) ∧ 100 ≤ x ∧ x ≤ 300) → labels[i]? = some .LVL) := by
  obtain ⟨gnd, -, -, -, l⟩ := C59_strongest_phase hset hd hs hl i hi hw
  rw [gnd, l]
  have hn := members_nonempty (d := d) hi
  obtain ⟨a, ea, a1⟩ := mean_le hn fun j hj => ha j (of_members hj).1 (of_members hj).2
  obtain ⟨r, er, r1, r2⟩ := mean_both hn fun j hj => hr j (of_members hj).1 (of_members hj).2
  unfold WindowPhase
  rw [ea, er]
  constructor
  · intro hv
    obtain ⟨v, ev, v1⟩ := mean_lt hn fun j hj => hv j (of_members hj).1 (of_members hj).2
    rw [ev]
    exact (runway a1 r1 r2).1 v1
  · intro hv
    obtain ⟨v, ev, v1, v2⟩ := mean_both hn fun j hj => hv j (of_members hj).1 (of_members hj).2
    rw [ev]
    exact (runway a1 r1 r2).2 v1 v2

end

/-- The bound of 300 ft/min is exact: at 300 ft/min, at 10000 ft and standing still, climb and level
flight are equally strong, so that the phase is level flight. -/
example : Strongest (strength (.val 10000) (.val 0) (.val 300)) .level := by
  have eA : max (min (10000:ℝ) 39999) 0 = ((10000:ℤ):ℝ) * 1 := by norm_num
  have eV : max (min (0:ℝ) 599) 0 = ((0:ℤ):ℝ) * 1 := by norm_num
  have eR : max (min (300:ℝ) 3999.9) (-4000) = ((3000:ℤ):ℝ) * 0.1 := by norm_num
  have hL : strength (.val 10000) (.val 0) (.val 300) .level = at_ 3 := by
    show min (altDegree .level 10000) (min (rocDegree .level 300) (spdDegree .level 0)) = _
    unfold altDegree rocDegree spdDegree
    rw [eA, eV, eR, between_grid one_pos, between_grid one_pos, between_grid (by norm_num)]
    show min (bell 10000 10000 _) (min (bell 0 100 _) (bell 300 100 _)) = _
    rw [bell_at, bell_at, bell_at]
    have z1 : |((3000:ℤ):ℝ) * 0.1 - 0| / 100 = 3 := by norm_num
    have z2 : |((0:ℤ):ℝ) * 1 - 300| / 100 = 3 := by norm_num
    have z3 : |((10000:ℤ):ℝ) * 1 - 10000| / 10000 = 0 := by norm_num
    rw [z1, z2, z3, min_self]
    exact min_eq_right (at_le le_rfl (by norm_num))
  have small : ∀ q, rocDegree q 300 ≤ at_ 3 ∨ spdDegree q 0 ≤ at_ 3 := by
    intro q
    unfold rocDegree spdDegree
    rw [eV, eR, between_grid one_pos, between_grid (by norm_num)]
    cases q with
    | ground => left; exact bell_le (by norm_num) (by norm_num) (by norm_num)
    | climb => right; exact bell_le (by norm_num) (by norm_num) (by norm_num)
    | descent => right; exact bell_le (by norm_num) (by norm_num) (by norm_num)
    | cruise => left; exact bell_le (by norm_num) (by norm_num) (by norm_num)
    | level => left; exact bell_le (by norm_num) (by norm_num) (by norm_num)
  intro q
  rw [hL]
  refine ⟨?_, fun h => by cases q <;> exact absurd h (by decide)⟩
  rcases small q with h | h
  · exact ((min_le_right _ _).trans (min_le_left _ _)).trans h
  · exact ((min_le_right _ _).trans (min_le_right _ _)).trans h

/-- A climb at 1500 ft/min, sampled every 30 s, in windows of a minute: the first two samples are
labelled CL. -/
example : ∃ o' labels, setTrajectory { } [0, 30, 60, 90] [.val 10000, .val 10750, .val 11500, .val 12250]
      [.val 300, .nan, .val 310, .val 310] [.val 1500, .val 1500, .val 1500, .val 1500] =
        (.ok (), o') ∧
    phaselabel o' 60 = .ok labels ∧ labels[0]? = some .CL ∧ labels[1]? = some .CL := by
  have hp : ([0, 30, 60, 90] : List ℝ).Pairwise (· ≤ ·) := by
    simp only [List.pairwise_cons, List.mem_cons, List.not_mem_nil, or_false, forall_eq_or_imp,
      forall_eq]
    norm_num
  obtain ⟨labels, hl, -⟩ := C58_one_label_per_sample (o := { }) (ts := [0, 30, 60, 90])
    (alt := [.val 10000, .val 10750, .val 11500, .val 12250])
    (spd := [.val 300, .nan, .val 310, .val 310])
    (roc := [.val 1500, .val 1500, .val 1500, .val 1500]) (d := 60) rfl (by norm_num) hp
  have w0 : window [0, 30, 60, 90] 60 0 = 0 := by norm_num [window]
  have w1 : window [0, 30, 60, 90] 60 1 = 0 := by norm_num [window]
  have w3 : window [0, 30, 60, 90] 60 3 = 1 := by norm_num [window]
  have key : ∀ i : ℕ, i < 4 → window [0, 30, 60, 90] 60 i = 0 → labels[i]? = some .CL := by
    intro i hi h0
    refine C137_climb (o := { }) (spd := [.val 300, .nan, .val 310, .val 310])
      (alt := [.val 10000, .val 10750, .val 11500, .val 12250])
      (roc := [.val 1500, .val 1500, .val 1500, .val 1500]) rfl (by norm_num) hp hl hi ?_ ?_ ?_
    · rw [h0]; exact w3 ▸ (by norm_num)
    · intro j hj _
      match j, hj with
      | 0, _ => exact ⟨_, rfl⟩
      | 1, _ => exact ⟨_, rfl⟩
      | 2, _ => exact ⟨_, rfl⟩
      | 3, _ => exact ⟨_, rfl⟩
    · intro j hj _
      match j, hj with
      | 0, _ => exact ⟨_, rfl, by norm_num⟩
      | 1, _ => exact ⟨_, rfl, by norm_num⟩
      | 2, _ => exact ⟨_, rfl, by norm_num⟩
      | 3, _ => exact ⟨_, rfl, by norm_num⟩
  exact ⟨_, labels, rfl, hl, key 0 (by norm_num) w0, key 1 (by norm_num) w1⟩

/-- At 29000 ft the two distances are equal at 410 kt: such a level flight is labelled LVL. -/
example : max (|(29000:ℝ) - 35000| / 20000) (|(410:ℝ) - 600| / 100) = 1.9 ∧
    max (|(29000:ℝ) - 10000| / 10000) (|(410:ℝ) - 300| / 100) = 1.9 := by
  constructor
  · rw [abs_of_neg (by norm_num), abs_of_neg (by norm_num)]; norm_num
  · rw [abs_of_pos (by norm_num), abs_of_pos (by norm_num)]; norm_num

/-! ## Generated cruises -/

section
open Verif.Gen Verif.Aero Verif.Tables Verif.Kinematic Verif.Registry
open Verif.Data (shipped)
variable {G : Type} {R : Rng G}

theorem truncate_nonneg {x : ℝ} (h : 0 ≤ x) : x - 1 < (truncate x : ℝ) := by
  unfold truncate
  rw [if_pos h]
  have := Int.lt_floor_add_one x
  linarith

/-- Every table has cruise Mach numbers of at least 0.74 and cruise altitudes of at least 9.3 km. -/
theorem shipped_cruise : (availableAircraft shipped true).all (fun ac =>
    match Gen.init shipped ac () true with
    | .ok f => entryIn f.wrap 7400 9000 cruiseMach && entryIn f.wrap 93000 130000 cruiseAlt
    | .error _ => false) = true := by
  decide +kernel

theorem init_cruise {ac : Str} (hac : ac ∈ availableAircraft shipped true) (seed : G) :
    ∃ f, Gen.init shipped ac seed true = .ok f ∧ entryIn f.wrap 7400 9000 cruiseMach = true ∧
      entryIn f.wrap 93000 130000 cruiseAlt = true ∧ f.noise = false := by
  have := List.all_eq_true.1 shipped_cruise ac hac
  unfold Gen.init at this ⊢
  simp only [bind, Except.bind, pure, Except.pure] at this ⊢
  rcases h1 : Registry.aircraft shipped ac true with e | a
  · rw [h1] at this; simp at this
  · rw [h1] at this
    rcases h2 : Construct.wrap shipped ac (some true) with e | w
    · rw [h2] at this; simp at this
    · rw [h2] at this
      simp only [Bool.and_eq_true] at this
      exact ⟨_, rfl, this.1, this.2, rfl⟩

theorem cruise_params {f : FlightGen G} (hm : entryIn f.wrap 7400 9000 cruiseMach = true)
    (ha : entryIn f.wrap 93000 130000 cruiseAlt = true) (hR : R.Unit) {kw : Kw}
    (km : kw.machCr = none) (ka : kw.altCr = none) {P : CruiseParams} {g : G}
    (h : cruiseSetup R f kw = .ok (P, g)) : 0.74 ≤ P.mach ∧ 30400 ≤ P.alt ∧ P.hCr = P.alt * ft := by
  obtain ⟨wMach, e1, a1⟩ := entry_of hm
  obtain ⟨wAlt, e2, a2⟩ := entry_of ha
  have p1 := wreal_ge a1.2.1
  have r1 := wreal_ge a1.1
  have p2 := wreal_ge a2.2.1
  have r2 := wreal_ge a2.1
  norm_num at p1 r1 p2 r2
  have hft : (0:ℝ) < ft := by unfold ft; norm_num
  have high : ∀ u : ℝ, 93 / 10 ≤ u → 30400 ≤ roundHundreds (u * 1000 / ft) := by
    intro u hu
    have h1 := abs_le.1 (round_near (u * 1000 / ft))
    have h2 : 30500 ≤ u * 1000 / ft := by
      rw [le_div_iff₀ hft]
      unfold ft
      linarith
    linarith [h1.1]
  unfold cruiseSetup at h
  rcases e3 : getVar f.wrap cruiseRange with e | wRange
  · rw [e3] at h; cases h
  simp only [e1, e2, e3, bind, Except.bind, pure, Except.pure, km, ka, Option.getD_none] at h
  by_cases hr : kw.random.getD false = true
  · rw [if_pos hr] at h
    injection h with h
    injection h with h _
    subst h
    refine ⟨?_, high _ ?_, rfl⟩
    · exact le_trans (by norm_num) (r1.trans (uniform_mem hR a1.2.2.1 _).1)
    · exact le_trans (by norm_num) (r2.trans (uniform_mem hR a2.2.2.1 _).1)
  · rw [if_neg hr] at h
    injection h with h
    injection h with h _
    subst h
    refine ⟨?_, high _ ?_, rfl⟩
    · simp only; linarith
    · linarith

/-- **C137, generated cruise.** For every offered type code, with the table's Mach number and
altitude, random or not, and without noise, the altitude, speed and rate of climb columns of a
generated cruise are labelled CR in every time window but the last, whatever the time step and the
length of the windows. -/
theorem C137_generated {ac : Str} (hac : ac ∈ availableAircraft shipped true) (seed : G)
    (hR : R.Unit) :
    ∃ f, Gen.init shipped ac seed true = .ok f ∧
      ∀ (g : G) (kw : Kw), kw.machCr = none → kw.altCr = none → (∀ d, kw.dt = some d → 0 < d) →
      ∀ fr f', CruiseReturns R { f with rng := g } kw fr f' → ∀ (o : Obj) (d : ℝ), 0 < d →
        ∃ o', setTrajectory o (fr.rows.map fun x => x.t) (fr.rows.map fun x => .val x.altitude)
            (fr.rows.map fun x => .val x.groundspeed) (fr.rows.map fun x => .val x.verticalRate) =
              (.ok (), o') ∧
          phaselabel o' d = .ok ((List.range fr.rows.length).map fun (i : ℕ) =>
            if ⌊(i : ℝ) * kw.dt.getD 1 / d⌋ < ⌊((fr.rows.length - 1 : ℕ) : ℝ) * kw.dt.getD 1 / d⌋
            then .CR else .NA) := by
  obtain ⟨f, h1, h2, h3, h4⟩ := init_cruise hac seed
  refine ⟨f, h1, ?_⟩
  intro g kw km ka kd fr f' h o d hd
  have hdt : 0 < kw.dt.getD 1 := by
    rcases hq : kw.dt with _ | x
    · norm_num
    · exact kd x hq
  have time := (C49_time { f with rng := g } f' kw).2.2 fr h
  obtain ⟨P, g', ss, t1, t2, rfl, -⟩ := cruiseReturns_iff.1 h
  obtain ⟨p1, p2, p3⟩ := cruise_params (f := { f with rng := g }) h2 h3 hR km ka t1
  have hne : ss ≠ [] := by cases t2 <;> simp
  rw [Gen.addNoise_off (f := { f with rng := g' }) h4] at time ⊢
  simp only at time ⊢
  have hcol : ∀ x ∈ ss.map derive, 29500 ≤ (x.altitude : ℝ) ∧ 410 ≤ (x.groundspeed : ℝ) ∧
      (x.verticalRate : ℝ) = 0 := by
    intro y hy
    obtain ⟨x, hm, rfl⟩ := List.mem_map.1 hy
    obtain ⟨q1, q2, q3⟩ := cruise_trace_const t2 x hm
    have q2 : x.h = P.alt * ft := (show x.h = P.hCr from q2).trans p3
    have q1 : x.v = mach2tas np P.mach P.hCr 0 := q1
    have q3 : x.vs = 0 := q3
    have hft : (0:ℝ) < ft := by unfold ft; norm_num
    have hk : (0:ℝ) < kts := by unfold kts; norm_num
    refine ⟨?_, ?_, ?_⟩
    · have e : x.h / ft = P.alt := by rw [q2]; field_simp
      have := truncate_nonneg (x := x.h / ft) (by rw [e]; linarith)
      rw [e] at this
      show 29500 ≤ (truncate (x.h / ft) : ℝ)
      rw [e]
      linarith
    · have hv : 0.74 * 295 ≤ x.v := by
        rw [q1]
        have := vsound_lower P.hCr
        show _ ≤ P.mach * vsound np P.hCr 0
        nlinarith
      have : 420 ≤ x.v / kts := by
        rw [le_div_iff₀ hk]
        unfold kts
        linarith
      have := truncate_nonneg (x := x.v / kts) (by linarith)
      show 410 ≤ (truncate (x.v / kts) : ℝ)
      linarith
    · show ((truncate (x.vs / fpm) : ℤ) : ℝ) = 0
      rw [q3, zero_div]
      simp [truncate]
  have hne : ss.map derive ≠ [] := by simpa using hne
  generalize ss.map derive = rows at *
  clear t1 t2
  have hlen : 0 < rows.length := List.length_pos_of_ne_nil hne
  obtain ⟨o', hset⟩ : ∃ o', setTrajectory o (rows.map fun x => x.t)
      (rows.map fun x => .val x.altitude) (rows.map fun x => .val x.groundspeed)
      (rows.map fun x => .val x.verticalRate) = (.ok (), o') := by
    cases rows with
    | nil => exact absurd rfl hne
    | cons x l => exact ⟨_, by simp only [setTrajectory, List.map_cons]; rw [if_pos (by simp)]⟩
  refine ⟨o', hset, ?_⟩
  have ht : ∀ i < rows.length, (rows.map fun x => x.t).getD i 0 = i * kw.dt.getD 1 := by
    intro i hi
    rw [List.getD_eq_getElem?_getD, List.getElem?_map, List.getElem?_eq_getElem hi]
    exact time i hi
  have hw : ∀ i < rows.length, window (rows.map fun x => x.t) d i = ⌊i * kw.dt.getD 1 / d⌋ := by
    intro i hi
    unfold window
    rw [ht i hi, ht 0 hlen]
    simp
  have hs : (rows.map fun x => x.t).Pairwise (· ≤ ·) := by
    rw [List.pairwise_iff_getElem]
    intro i j hi hj hij
    rw [List.getElem_map, List.getElem_map, time, time]
    have : (i:ℝ) ≤ j := by exact_mod_cast hij.le
    exact mul_le_mul_of_nonneg_right this hdt.le
  obtain ⟨labels, hl, hn⟩ := C58_one_label_per_sample hset hd hs
  rw [hl]
  congr 1
  rw [List.length_map] at hn
  refine List.ext_getElem (by simp [hn]) ?_
  intro i h1 h2
  have hi : i < rows.length := hn ▸ h1
  have hi' : i < (rows.map fun x => x.t).length := by simpa using hi
  rw [List.getElem_map, List.getElem_range]
  apply Option.some.inj
  rw [← List.getElem?_eq_getElem h1]
  have hlast : window (rows.map fun x => x.t) d ((rows.map fun x => x.t).length - 1) =
      ⌊((rows.length - 1 : ℕ) : ℝ) * kw.dt.getD 1 / d⌋ := by
    rw [List.length_map]
    exact hw _ (by omega)
  split_ifs with hlt
  · have col : ∀ j < (rows.map fun x => x.t).length, ∃ x ∈ rows, rows[j]? = some x := by
      intro j hj
      rw [List.length_map] at hj
      exact ⟨rows[j], List.getElem_mem _, List.getElem?_eq_getElem hj⟩
    refine C137_cruise hset hd hs hl hi' (by rw [hw i hi, hlast]; exact hlt) ?_ ?_ ?_
    · intro j hj _
      obtain ⟨x, hx, e⟩ := col j hj
      exact ⟨_, by rw [List.getElem?_map, e]; rfl, (hcol x hx).1⟩
    · intro j hj _
      obtain ⟨x, hx, e⟩ := col j hj
      exact ⟨_, by rw [List.getElem?_map, e]; rfl, (hcol x hx).2.1⟩
    · intro j hj _
      obtain ⟨x, hx, e⟩ := col j hj
      refine ⟨_, by rw [List.getElem?_map, e]; rfl, ?_⟩
      rw [(hcol x hx).2.2]
      norm_num
  · refine ((C60_last_window_unlabelled hset hd hs hl).1 i hi').2 ?_
    have := window_mono (d := d) hd hs (show i ≤ (rows.map fun x => x.t).length - 1 by omega)
      (by omega)
    rw [hw i hi, hlast] at *
    omega

/-- Such cruises exist: for every offered type code `cruise()` returns. -/
example {ac : Str} (hac : ac ∈ availableAircraft shipped true) (seed : G) (hR : R.Unit) :
    ∃ f fr f', Gen.init shipped ac seed true = .ok f ∧ CruiseReturns R f { } fr f' := by
  obtain ⟨f, h1, h2, -⟩ := init_shipped hac seed
  obtain ⟨cr, f1, -, -, -, -, h, -⟩ := three_calls (R := R) h2 hR (kw := { })
    ⟨by simp, by simp, by simp, by simp, by simp, by simp⟩
  exact ⟨f, cr, f1, h1, h⟩

end

end Verif.Props
