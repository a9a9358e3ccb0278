import Verif.Lemmas.Bada4

/-!
# C101: BADA4 models as shipped
-/

namespace Verif.Props
open Verif Verif.Bada4 Verif.Tables Verif.Registry Verif.Arrays NR

/-- **C101, drag and fuel flow.** Whatever the model file contains, no drag or fuel flow object can be
made; when the file can be read the error is AttributeError. -/
theorem C101_cannot_construct (num : Str → Option ℝ) (loaded : Except PyError Elem) :
    (∃ e, Bada4.mkDrag false num loaded = .error e) ∧ (∃ e, Bada4.mkFuelFlow false num loaded = .error e) ∧
    ∀ x v, loaded = .ok x → number num x (.any :: tags ["DPM_clean", "scalar"]) = .ok v →
      Bada4.mkDrag false num loaded = .error .attributeError ∧
      ∀ o, Bada4.mkThrust num loaded = .ok o →
        Bada4.mkFuelFlow false num loaded = .error .attributeError := by
  have hd : ∃ e, Bada4.mkDrag false num loaded = .error e := by
    unfold Bada4.mkDrag
    simp only [bind, Except.bind, need]
    cases loaded with
    | error e => exact ⟨e, rfl⟩
    | ok x =>
      simp only
      cases number num x (.any :: tags ["DPM_clean", "scalar"]) with
      | error e => exact ⟨e, rfl⟩
      | ok v => exact ⟨_, rfl⟩
  refine ⟨hd, ?_, ?_⟩
  · obtain ⟨e, he⟩ := hd
    unfold Bada4.mkFuelFlow
    simp only [bind, Except.bind]
    cases Bada4.mkThrust num loaded with
    | error e => exact ⟨e, rfl⟩
    | ok t => simp only; rw [he]; exact ⟨e, rfl⟩
  · rintro x v rfl hv
    have hd : Bada4.mkDrag false num (.ok x) = .error .attributeError := by
      unfold Bada4.mkDrag
      simp only [bind, Except.bind, need, hv]
      rfl
    refine ⟨hd, fun o ho => ?_⟩
    unfold Bada4.mkFuelFlow
    simp only [bind, Except.bind, ho, hd]

theorem cT_raises (o : Bada4.Thrust) (mach h dT : Nd) (rating : Str) :
    (∃ e, o.cT false mach h rating dT = .error e) ∧
    (dT.rows * dT.cols = 1 → o.cT false mach h rating dT = .error
      (if upper rating ∈ [[77, 67, 82, 90], [77, 67, 77, 66], [76, 73, 68, 76]] then .attributeError
       else .assertionError)) := by
  have key : ∃ e, o.cT false mach h rating dT = .error e ∧ (dT.rows * dT.cols = 1 → e =
      (if upper rating ∈ [[77, 67, 82, 90], [77, 67, 77, 66], [76, 73, 68, 76]] then .attributeError
       else .assertionError)) := by
    unfold Bada4.Thrust.cT
    simp only [need, bind, Except.bind, throw, throwThe, MonadExceptOf.throw, List.mem_cons,
      List.not_mem_nil, or_false, Bool.false_eq_true, if_false]
    by_cases h1 : upper rating = mcrz ∨ upper rating = mcmb ∨ upper rating = lidl
    · rw [if_neg (not_not.2 h1)]
      have h3 : upper rating = [77, 67, 82, 90] ∨ upper rating = [77, 67, 77, 66] ∨
        upper rating = [76, 73, 68, 76] := h1
      rw [if_pos h3]
      by_cases h2 : upper rating = lidl
      · rw [if_pos h2]
        exact ⟨_, rfl, fun _ => rfl⟩
      · rw [if_neg h2]
        unfold truthLe
        by_cases hs : dT.col.rows * dT.col.cols = 1
        · rw [if_pos hs]
          exact ⟨_, rfl, fun _ => rfl⟩
        · rw [if_neg hs]
          exact ⟨_, rfl, fun h => absurd (by simpa [Nd.col] using h) hs⟩
    · rw [if_pos h1, if_neg (by exact h1)]
      exact ⟨_, rfl, fun _ => rfl⟩
  obtain ⟨e, h1, h2⟩ := key
  exact ⟨⟨e, h1⟩, fun h => by rw [h1, h2 h]⟩

/-- **C101, thrust.** A thrust object can be made, but no thrust method returns for any input. For
numbers it raises AttributeError; the thrust coefficient raises AssertionError for an unknown rating (in
any letter case) and AttributeError for a known one. -/
theorem C101_thrust_raises (o : Bada4.Thrust) (tas alt dT mach h : Nd) (rating : Str) :
    ((∃ e, o.climb false tas alt dT = .error e) ∧ (∃ e, o.cruise false tas alt dT = .error e) ∧
      (∃ e, o.takeoff false tas alt dT = .error e) ∧ (∃ e, o.idle false tas alt dT = .error e) ∧
      ∃ e, o.cT false mach h rating dT = .error e) ∧
    (∀ t a d : NR,
      o.climb false (.num t) (.num a) (.num d) = .error .attributeError ∧
      o.cruise false (.num t) (.num a) (.num d) = .error .attributeError ∧
      o.takeoff false (.num t) (.num a) (.num d) = .error .attributeError ∧
      o.idle false (.num t) (.num a) (.num d) = .error .attributeError) ∧
    (dT.rows * dT.cols = 1 → o.cT false mach h rating dT = .error
      (if upper rating ∈ [[77, 67, 82, 90], [77, 67, 77, 66], [76, 73, 68, 76]] then .attributeError
       else .assertionError)) := by
  have hr : ∀ r t a d, ∃ e, o.rated false r t a d = .error e := by
    intro r t a d
    unfold Bada4.Thrust.rated
    simp only [bind, Except.bind]
    split
    · exact ⟨_, rfl⟩
    · obtain ⟨e, he⟩ := (cT_raises o (by assumption) ((a.col).map (· * Aero.ft)) d r).1
      rw [he]
      exact ⟨_, rfl⟩
  have hn : ∀ r (t a d : NR), upper r ∈ [[77, 67, 82, 90], [77, 67, 77, 66], [76, 73, 68, 76]] →
      ∀ x y z : Nd, x.rows * x.cols = 1 → y.rows * y.cols = 1 → z.rows * z.cols = 1 →
      o.rated false r x y z = .error .attributeError := by
    intro r t a d hr x y z hx hy hz
    unfold Bada4.Thrust.rated
    have h1 : bdim (x.rows * x.cols) (y.rows * y.cols) = .ok 1 := by rw [hx, hy]; rfl
    simp only [bind, Except.bind, op2, Nd.map, Nd.col, h1, bdim_same, pure, Except.pure]
    rw [(cT_raises o _ _ _ r).2 hz, if_pos hr]
  refine ⟨⟨hr _ _ _ _, hr _ _ _ _, ?_, hr _ _ _ _, (cT_raises o mach h dT rating).1⟩, ?_,
    (cT_raises o mach h dT rating).2⟩
  · obtain ⟨e, he⟩ := hr mcmb tas.col alt.col dT.col
    exact ⟨e, by unfold Bada4.Thrust.takeoff Bada4.Thrust.climb; rw [he]; rfl⟩
  · intro t a d
    refine ⟨hn _ t a d (by decide) _ _ _ rfl rfl rfl, hn _ t a d (by decide) _ _ _ rfl rfl rfl, ?_,
      hn _ t a d (by decide) _ _ _ rfl rfl rfl⟩
    unfold Bada4.Thrust.takeoff Bada4.Thrust.climb
    rw [hn _ t a d (by decide) (Nd.num t).col (Nd.num a).col (Nd.num d).col rfl rfl rfl]
    rfl

/-- A file with the first coefficient that is read. -/
example : Bada4.mkDrag false (fun _ => some 1) (.ok (.mk [] none [.mk [65] none
    [.mk (chars "DPM_clean") none [.mk (chars "scalar") (some [49]) []]]])) = .error .attributeError :=
  ((C101_cannot_construct (fun _ => some 1) _).2.2 _ 1 rfl rfl).1

end Verif.Props
