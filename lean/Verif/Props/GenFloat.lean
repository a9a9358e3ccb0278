import Verif.Lemmas.GenFloatCruise

/-!
# C150: generated flights in floating point
-/

namespace Verif.Props
open Verif Verif.Gen Verif.GenLoop

/-- `(i, x)` is a row of a climb, descent or cruise generated with step `dt`. -/
def RowAt {f : Format} (M : Machine f) (dt : ℝ) (i : ℕ) (x : State (Fl M)) : Prop :=
  (∃ P rows, P.dt = dt ∧ ClimbEnds M P rows ∧ rows[i]? = some x) ∨
  (∃ P rows, P.dt = dt ∧ DescentEnds M P rows ∧ rows[i]? = some x) ∨
  (∃ P rows, P.dt = dt ∧ CruiseEnds M P rows ∧ rows[i]? = some x)

private theorem rowAt_t (M : Machine .binary64) {dt : ℝ} {i : ℕ} {x : State (Fl M)}
    (h : RowAt M dt i x) : x.t.val = M.sums dt i := by
  have z' : (0.0 : Fl M).val = 0 := zero64 M
  rw [← sums_iter]
  rcases h with ⟨P, rows, rfl, h, hx⟩ | ⟨P, rows, rfl, h, hx⟩ | ⟨P, rows, rfl, h, hx⟩
  · obtain ⟨ss, t, rfl⟩ := returns_iff.1 h
    rw [List.map_id] at hx
    have := trace_iter (F := fun x : State (Fl M) => x.t.val) (g := fun t => M.rnd (t + P.dt))
      (fun x => pass_t M x) t i x hx
    rw [this]
    show (_)^[i] (0.0 : Fl M).val = _
    rw [z']
  · obtain ⟨ss, t, rfl⟩ := returns_iff.1 h
    rw [List.map_id] at hx
    have := trace_iter (F := fun x : State (Fl M) => x.t.val) (g := fun t => M.rnd (t + P.dt))
      (fun x => dpass_t M x) t i x hx
    rw [this]
    show (_)^[i] (0.0 : Fl M).val = _
    rw [z']
  · obtain ⟨ss, t, rfl⟩ := returns_iff.1 h
    rw [List.map_id] at hx
    have := trace_iter (F := fun x : State (Fl M) => x.t.val) (g := fun t => M.rnd (t + P.dt))
      (fun x => rfl) t i x hx
    rw [this]
    show (_)^[i] (0.0 : Fl M).val = _
    rw [z']

/-- Time stamps in double precision. With a whole number of seconds as step they are exact as long as
the numbers are below 2⁵³. With any other step the `i`-th is off by at most `i² · 2⁻⁵³` steps. -/
theorem C150_clock (M : Machine .binary64) (dt : ℝ) (i : ℕ) (x : State (Fl M)) (h : RowAt M dt i x) :
    (∀ k : ℕ, dt = k → i * k < 2 ^ 53 → x.t.val = i * k) ∧
    (1 / 10 ^ 9 ≤ dt → dt ≤ 10 ^ 9 → i ≤ 2 ^ 53 → |x.t.val - i * dt| ≤ i ^ 2 / 2 ^ 53 * dt) := by
  have ht := rowAt_t M h
  constructor
  · rintro k rfl hk
    rw [ht, sums_int M k i hk]
  · intro h1 h2 hi
    have hi' : (i : ℝ) ≤ 2 ^ 53 := by exact_mod_cast hi
    have e : Format.binary64.u = 1 / 2 ^ 53 := by rw [Format.u64]; norm_num
    have := M.sums_err Format.binary64_wide h1 h2 i (by
      rw [e, mul_one_div, div_le_one (by norm_num)]; exact hi') (hi'.trans (by norm_num))
    rw [ht]
    refine this.trans (le_of_eq ?_)
    rw [e]
    ring

/-- A climb of ordinary size ends in double precision. Along the rows time passes and neither altitude nor
distance ever falls. It ends level, at least as high as the cruise altitude and the altitudes that
separate the phases, and less than 1.01 steps above them. -/
theorem C150_climb (M : Machine .binary64) (P : Climb ℝ) (hP : P.Ordinary) :
    (∃ rows, ClimbEnds M P rows) ∧ ∀ rows, ClimbEnds M P rows →
      rows.IsChain (fun a b => a.t.val < b.t.val ∧ a.h.val ≤ b.h.val ∧ a.s.val ≤ b.s.val) ∧
      ∃ x, rows.getLast? = some x ∧ x.vs.val = 0 ∧ P.hCr ≤ x.h.val ∧
        max (max P.hCr P.hMach) (max P.hCas 457.199) ≤ x.h.val ∧
        x.h.val < max (max P.hCr P.hMach) (max P.hCas 457.201) +
          1.01 * (max (max P.vsIc P.vsPre) (max P.vsCas P.vsMach) * P.dt) := by
  refine ⟨?_, ?_⟩
  · obtain ⟨ss, t⟩ := climb_ends M hP
    exact ⟨_, returns_iff.2 ⟨ss, t, rfl⟩⟩
  · intro rows h
    obtain ⟨ss, t, rfl⟩ := returns_iff.1 h
    rw [List.map_id]
    refine ⟨trace_chain (Inv := Inv M P) (fun s hs hb => ?_) t (inv_init M), ?_⟩
    · obtain ⟨a, b, c, d, -⟩ := inv_step M hP hs hb
      exact ⟨a, b, c, d⟩
    · obtain ⟨x, hx, h1, h2, h3, h4, -⟩ := climb_end M hP t
      obtain ⟨l1, l2⟩ := low_bounds M
      obtain ⟨k1, k2, k3, k4⟩ := (le_level M).1 h3
      refine ⟨x, hx, h2, k1, max_le (max_le k1 k2) (max_le k3 (l1.trans k4)), h4.trans_le ?_⟩
      unfold level top
      gcongr

/-- A descent of ordinary size ends in double precision. Along the rows time passes, the altitude never
rises, and no row is below the ground or above the cruise altitude. In the last row the aircraft is
on the ground or one step above it, and one step of braking stops it. -/
theorem C150_descent (M : Machine .binary64) (P : Descent ℝ) (hP : P.Ordinary) :
    (∃ rows, DescentEnds M P rows) ∧ ∀ rows, DescentEnds M P rows →
      rows.IsChain (fun a b => a.t.val < b.t.val ∧ b.h.val ≤ a.h.val) ∧
      (∀ x ∈ rows, 0 ≤ x.h.val ∧ x.h.val ≤ P.hCr) ∧
      (∃ x, rows.head? = some x ∧ x.h.val = P.hCr) ∧
      ∃ x, rows.getLast? = some x ∧
        (x.h.val = 0 ∧ x.vs.val = 0 ∨ 0 < x.h.val ∧ x.h.val ≤ 1.01 * (-x.vs.val * P.dt)) ∧
        x.v.val ≤ 1.01 * (-P.aLnd * P.dt) := by
  refine ⟨?_, ?_⟩
  · obtain ⟨ss, t⟩ := descent_ends M hP
    exact ⟨_, returns_iff.2 ⟨ss, t, rfl⟩⟩
  · intro rows h
    obtain ⟨ss, t, rfl⟩ := returns_iff.1 h
    rw [List.map_id]
    refine ⟨trace_chain (Inv := DInv M P) (fun s hs hb => ?_) t (dinv_init M hP), ?_, ?_,
      descent_end M hP t⟩
    · obtain ⟨a, b, c, -⟩ := dinv_step M hP hs hb
      exact ⟨a, b, c⟩
    · intro x hx
      exact descent_up M hP (trace_inv (Inv := DInv M P) (fun _ hx hb => (dinv_step M hP hx hb).1) t
        (dinv_init M hP) x hx)
    · exact ⟨_, trace_head t, rfl⟩

/-- A cruise of ordinary size ends in double precision. Along the rows time passes and distance grows, at one
altitude and one speed. The last row is within the distance asked for, and less than 1.01 steps
short of it. -/
theorem C150_cruise (M : Machine .binary64) (P : Cruise ℝ) (hP : P.Ordinary) :
    (∃ rows, CruiseEnds M P rows) ∧ ∀ rows, CruiseEnds M P rows →
      rows.IsChain (fun a b => a.t.val < b.t.val ∧ a.s.val < b.s.val ∧ a.v = b.v) ∧
      (∀ x ∈ rows, x.h.val = P.hCr ∧ x.vs.val = 0 ∧ x.s.val ≤ max P.distance 0) ∧
      ∃ x, rows.getLast? = some x ∧ P.distance < x.s.val + 1.01 * (x.v.val * P.dt) := by
  refine ⟨?_, ?_⟩
  · obtain ⟨ss, t⟩ := cruise_ends M hP
    exact ⟨_, returns_iff.2 ⟨ss, t, rfl⟩⟩
  · intro rows h
    obtain ⟨ss, t, rfl⟩ := returns_iff.1 h
    rw [List.map_id]
    have hd := hP.dt.1
    have hi := trace_inv (Inv := CInv M P) (fun _ hx hb => cinv_step M hP hx hb) t (cinv_init M)
    refine ⟨trace_chain (Inv := CInv M P) (fun s hs hb => ?_) t (cinv_init M), ?_, ?_⟩
    · obtain ⟨a, b, c, d, e⟩ := cruise_move M hP hs
      exact ⟨cinv_step M hP hs hb, by linarith, by linarith, rfl⟩
    · intro x hx
      exact ⟨(hi x hx).h, (hi x hx).vs, (hi x hx).s1⟩
    · obtain ⟨x, hx, hb⟩ := trace_last t
      have hx' := hi x (List.mem_of_getLast? hx)
      obtain ⟨a, b, c, d, e⟩ := cruise_move M hP hx'
      refine ⟨x, hx, ?_⟩
      rw [hx'.v]
      have : P.distance < (cpass M P x).1.s.val := by
        have h : decide (flLt (P.on M).distance (cpass M P x).1.s) = true := hb
        exact of_decide_eq_true h
      linarith

/-- What the loop of `climb` uses of the parameters prepared before it. -/
def looped (P : ClimbParams) : Climb ℝ :=
  ⟨P.dt, P.aTof, P.vTof, P.mach, P.vcas, P.hCr, P.vsIc, P.vsPre, P.vsCas, P.vsMach, P.hCas, P.hMach⟩

/-- In exact arithmetic the loops are those of `climb`, `descent` and `cruise`. -/
theorem C150_exact :
    (∀ (P : ClimbParams) (x : State ℝ),
      let y := climbPass np (· < ·) (looped P) x
      let z := climbBody P ⟨x.row, x.tcr⟩
      y.1.row = z.1.toRow ∧ y.1.tcr = z.1.tcr ∧ y.2 = z.2) ∧
    (∀ (P : DescentParams) (x : State ℝ),
      let y := descentPass np (· < ·) ⟨P.dt, P.withcr, P.aLnd, P.vApp, P.mach, P.vcas, P.hCr, P.vsMach,
        P.vsCas, P.vsPost, P.vsFa, P.hCas, P.hMach⟩ x
      y.1.row = (descentBody P x.row).1 ∧ y.2 = (descentBody P x.row).2) ∧
    (∀ (P : CruiseParams) (x : State ℝ),
      let y := cruisePass (· < ·) ⟨P.dt, P.distance, P.mach, P.hCr⟩ x
      y.1.row = (cruiseBody P x.row).1 ∧ y.2 = (cruiseBody P x.row).2) ∧
    ((climbStart : State ℝ).row = climbInit.toRow ∧ (climbStart : State ℝ).tcr = 0) ∧
    (∀ P : DescentParams, (descentStart np ⟨P.dt, P.withcr, P.aLnd, P.vApp, P.mach, P.vcas, P.hCr,
      P.vsMach, P.vsCas, P.vsPost, P.vsFa, P.hCas, P.hMach⟩).row = descentInit P) ∧
    (∀ P : CruiseParams, (cruiseStart np ⟨P.dt, P.distance, P.mach, P.hCr⟩).row = cruiseInit P) := by
  have z : (0.0 : ℝ) = 0 := by norm_num
  refine ⟨climbPass_np, descentPass_np, cruisePass_np, ⟨?_, z⟩, fun _ => ?_, fun _ => ?_⟩
  · unfold climbStart State.row climbInit
    simp only [z]
  · unfold descentStart State.row descentInit
    simp only [z]
  · unfold cruiseStart State.row cruiseInit
    simp only [z]

/-- Fails for steps that are too small: a climb that ends in exact arithmetic never ends in double precision if
one step adds no more than 2⁻⁴⁹ m/s to the speed and more than 32 m/s are needed to take off. -/
theorem C150_stall (M : Machine .binary64) (P : ClimbParams) (hP : P.Valid) (h1 : 32 < P.vTof)
    (h2 : P.aTof * P.dt ≤ 2 ^ (-49 : ℤ)) :
    (∃ rows, LoopReturns (climbBody P) id climbInit rows) ∧ ¬ ∃ rows, ClimbEnds M (looped P) rows := by
  constructor
  · obtain ⟨ss, t⟩ := climb_terminates hP
    exact ⟨_, returns_iff.2 ⟨ss, t, rfl⟩⟩
  · rintro ⟨rows, h⟩
    obtain ⟨ss, t, -⟩ := returns_iff.1 h
    exact climb_stalls M (looped P) h1 (mul_pos hP.aTof hP.dt).le h2 ⟨ss, t⟩

/-! Cases. -/

private theorem repr_nat {n : ℕ} (h : n < 2 ^ 53) : Format.binary64.Repr (n : ℝ) :=
  ⟨n, 0, by rw [Nat.abs_cast]; exact_mod_cast h, by decide, by decide, by simp⟩

example : Climb.Ordinary ⟨1, 2, 80, 0.78, 150, 10668, 12, 10, 8, 5, 1500, 8500⟩ := by
  refine ⟨?_, ?_, ?_, by exact_mod_cast repr_nat (n := 80) (by norm_num), ?_, ?_, ?_, ?_⟩ <;> norm_num

example : Descent.Ordinary ⟨1, true, -1.2, 70, 0.78, 150, 10668, -6, -9, -8, -3, 3000, 8500⟩ := by
  refine ⟨?_, ?_, ?_, ?_, ?_, ?_, ?_, by exact_mod_cast repr_nat (n := 10668) (by norm_num), ?_⟩ <;>
    norm_num

example : Cruise.Ordinary ⟨30, 2000000, 0.78, 10668⟩ := by
  refine ⟨?_, ?_, ?_, ?_⟩ <;> norm_num [abs_of_pos]

/-- Time stamps of a climb with steps of one second on a machine that rounds to nearest. -/
example : ∃ x, RowAt (rounded Format.binary64_wide) 1 0 x ∧ x.t.val = 0 := by
  obtain ⟨⟨rows, h⟩, -⟩ := C150_cruise (rounded Format.binary64_wide) ⟨1, 2000000, 0.78, 10668⟩
    ⟨by norm_num, by norm_num, by norm_num [abs_of_pos], by norm_num⟩
  obtain ⟨ss, t, e⟩ := returns_iff.1 h
  rw [List.map_id] at e
  have hh := trace_head t
  have hx : RowAt (rounded Format.binary64_wide) 1 0 _ :=
    .inr (.inr ⟨_, rows, rfl, h, by rw [e, ← List.head?_eq_getElem?]; exact hh⟩)
  refine ⟨_, hx, ?_⟩
  have := (C150_clock _ _ _ _ hx).1 1 (by norm_num) (by norm_num)
  simpa using this

/-- A step of 10⁻¹⁶ s. -/
example : ¬ ∃ rows, ClimbEnds (rounded Format.binary64_wide)
    (looped ⟨1e-16, 2, 80, 290, 0.78, 35000, 150, 10668, 12, 10, 8, 5, 1500, 8500⟩) rows :=
  (C150_stall _ _ ⟨by norm_num, by norm_num, by norm_num, by norm_num, by norm_num, by norm_num,
    by norm_num⟩ (by norm_num) (by norm_num)).2

end Verif.Props
