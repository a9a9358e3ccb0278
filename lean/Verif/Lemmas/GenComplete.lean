import Verif.Lemmas.GenShipped

/-!
# `complete` in terms of its three calls
-/

namespace Verif.Gen
open Verif Verif.Aero Verif.Tables

section
variable {G : Type} {R : Rng G}

theorem climb_large {f f' : FlightGen G} {kw : Kw} {fr : ClimbFrame}
    (h : ClimbReturns R f kw fr f') : ∃ N, ∀ n, N ≤ n → climb R n f kw = some (.ok (fr, f')) := by
  obtain ⟨P, g, ss, h1, h2, rfl, rfl⟩ := climbReturns_iff.1 h
  refine ⟨ss.length, fun n hn => ?_⟩
  unfold climb
  rw [h1]
  simp only [loop_of_trace h2 n hn, Option.map_some]

theorem descent_large {f f' : FlightGen G} {kw : Kw} {fr : DescentFrame}
    (h : DescentReturns R f kw fr f') :
    ∃ N, ∀ n, N ≤ n → descent R n f kw = some (.ok (fr, f')) := by
  obtain ⟨P, g, ss, h1, h2, rfl, rfl⟩ := descentReturns_iff.1 h
  refine ⟨ss.length, fun n hn => ?_⟩
  unfold descent
  rw [h1]
  simp only [loop_of_trace h2 n hn, Option.map_some, List.map_id_fun, id]

theorem cruise_large {f f' : FlightGen G} {kw : Kw} {fr : CruiseFrame}
    (h : CruiseReturns R f kw fr f') :
    ∃ N, ∀ n, N ≤ n → cruise R n f kw = some (.ok (fr, f')) := by
  obtain ⟨P, g, ss, h1, h2, rfl, rfl⟩ := cruiseReturns_iff.1 h
  refine ⟨ss.length, fun n hn => ?_⟩
  unfold cruise
  rw [h1]
  simp only [loop_of_trace h2 n hn, Option.map_some, List.map_id_fun, id]

theorem climb_mono {n m : ℕ} {f : FlightGen G} {kw : Kw} {r} (h : climb R n f kw = some r)
    (hm : n ≤ m) : climb R m f kw = some r := by
  unfold climb at h ⊢
  split at h
  · exact h
  · obtain ⟨rows, h1, h2⟩ := Option.map_eq_some_iff.1 h
    simp only [loop_mono h1 hm, Option.map_some, h2]

theorem descent_mono {n m : ℕ} {f : FlightGen G} {kw : Kw} {r} (h : descent R n f kw = some r)
    (hm : n ≤ m) : descent R m f kw = some r := by
  unfold descent at h ⊢
  split at h
  · exact h
  · obtain ⟨rows, h1, h2⟩ := Option.map_eq_some_iff.1 h
    simp only [loop_mono h1 hm, Option.map_some, h2]

theorem cruise_mono {n m : ℕ} {f : FlightGen G} {kw : Kw} {r} (h : cruise R n f kw = some r)
    (hm : n ≤ m) : cruise R m f kw = some r := by
  unfold cruise at h ⊢
  split at h
  · exact h
  · obtain ⟨rows, h1, h2⟩ := Option.map_eq_some_iff.1 h
    simp only [loop_mono h1 hm, Option.map_some, h2]

/-- Keyword arguments passed on by `complete`. -/
def passAlt (kw : Kw) (alt : ℝ) : Kw :=
  if kw.altCr.isSome then kw else { kw with altCr := some alt }

theorem passAlt_machCl (kw : Kw) (a : ℝ) : (passAlt kw a).machCl = kw.machCl := by
  unfold passAlt; split_ifs <;> rfl

theorem passAlt_machDe (kw : Kw) (a : ℝ) : (passAlt kw a).machDe = kw.machDe := by
  unfold passAlt; split_ifs <;> rfl

theorem complete_eq (n : ℕ) (f : FlightGen G) (kw : Kw) : complete R n f kw =
    match cruise R n f kw with
    | none => none
    | some (.error e) => some (.error e)
    | some (.ok (cr, f)) =>
      if kw.machCl.isSome then some (.error .typeError)
      else match climb R n f { passAlt kw cr.params.alt with machCl := some cr.params.mach } with
      | none => none
      | some (.error e) => some (.error e)
      | some (.ok (cl, f)) =>
        if kw.machDe.isSome then some (.error .typeError)
        else match descent R n f
            { passAlt kw cr.params.alt with machDe := some cr.params.mach } with
        | none => none
        | some (.error e) => some (.error e)
        | some (.ok (de, f)) => some (.ok (joinParts cl.rows cr.rows de.rows, f)) := by
  unfold complete
  rcases cruise R n f kw with _ | _ | ⟨cr, f⟩
  · rfl
  · rfl
  · simp only
    rw [← passAlt]
    simp only [passAlt_machCl, passAlt_machDe]
    rfl

theorem complete_mono {n m : ℕ} {f : FlightGen G} {kw : Kw} {r} (h : complete R n f kw = some r)
    (hm : n ≤ m) : complete R m f kw = some r := by
  rw [complete_eq] at h ⊢
  rcases h1 : cruise R n f kw with _ | _ | ⟨cr, f1⟩
  · simp [h1] at h
  · rw [cruise_mono h1 hm]; rw [h1] at h; exact h
  · rw [cruise_mono h1 hm]; rw [h1] at h
    simp only at h ⊢
    by_cases hcl : kw.machCl.isSome = true
    · rw [if_pos hcl] at h ⊢; exact h
    · rw [if_neg hcl] at h ⊢
      rcases h2 : climb R n f1 { passAlt kw cr.params.alt with machCl := some cr.params.mach }
        with _ | _ | ⟨cl, f2⟩
      · simp [h2] at h
      · rw [climb_mono h2 hm]; rw [h2] at h; exact h
      · rw [climb_mono h2 hm]; rw [h2] at h
        simp only at h ⊢
        by_cases hde : kw.machDe.isSome = true
        · rw [if_pos hde] at h ⊢; exact h
        · rw [if_neg hde] at h ⊢
          rcases h3 : descent R n f2
            { passAlt kw cr.params.alt with machDe := some cr.params.mach }
            with _ | _ | ⟨de, f3⟩
          · simp [h3] at h
          · rw [descent_mono h3 hm]; rw [h3] at h; exact h
          · rw [descent_mono h3 hm]; rw [h3] at h; exact h

theorem complete_unique {n m : ℕ} {f : FlightGen G} {kw : Kw} {r r'}
    (h : complete R n f kw = some r) (h' : complete R m f kw = some r') : r = r' := by
  have a := complete_mono h (le_max_left n m)
  rw [complete_mono h' (le_max_right n m)] at a
  simpa using a.symm

theorem completeReturns_iff {f f' : FlightGen G} {kw : Kw} {rows : List OutRow} :
    CompleteReturns R f kw rows f' ↔ kw.machCl = none ∧ kw.machDe = none ∧
      ∃ cr f1 cl f2 de, CruiseReturns R f kw cr f1 ∧
        ClimbReturns R f1 { passAlt kw cr.params.alt with machCl := some cr.params.mach } cl f2 ∧
        DescentReturns R f2 { passAlt kw cr.params.alt with machDe := some cr.params.mach }
          de f' ∧ rows = joinParts cl.rows cr.rows de.rows := by
  constructor
  · rintro ⟨n, h⟩
    rw [complete_eq] at h
    rcases h1 : cruise R n f kw with _ | _ | ⟨cr, f1⟩
    · simp [h1] at h
    · simp [h1] at h
    · simp only [h1] at h
      by_cases hcl : kw.machCl.isSome = true
      · simp [hcl] at h
      · rw [if_neg hcl] at h
        rcases h2 : climb R n f1 { passAlt kw cr.params.alt with machCl := some cr.params.mach }
          with _ | _ | ⟨cl, f2⟩
        · simp [h2] at h
        · simp [h2] at h
        · simp only [h2] at h
          by_cases hde : kw.machDe.isSome = true
          · simp [hde] at h
          · rw [if_neg hde] at h
            rcases h3 : descent R n f2
              { passAlt kw cr.params.alt with machDe := some cr.params.mach }
              with _ | _ | ⟨de, f3⟩
            · simp [h3] at h
            · simp [h3] at h
            · simp only [h3, Option.some.injEq, Except.ok.injEq, Prod.mk.injEq] at h
              obtain ⟨rfl, rfl⟩ := h
              exact ⟨by simpa using hcl, by simpa using hde, cr, f1, cl, f2, de, ⟨n, h1⟩,
                ⟨n, h2⟩, ⟨n, h3⟩, rfl⟩
  · rintro ⟨hcl, hde, cr, f1, cl, f2, de, h1, h2, h3, rfl⟩
    obtain ⟨N1, g1⟩ := cruise_large h1
    obtain ⟨N2, g2⟩ := climb_large h2
    obtain ⟨N3, g3⟩ := descent_large h3
    refine ⟨N1 + N2 + N3, ?_⟩
    rw [complete_eq, g1 _ (by omega)]
    simp only [hcl, hde, Option.isSome_none, Bool.false_eq_true, if_false]
    rw [g2 _ (by omega)]
    simp only
    rw [g3 _ (by omega)]

end
end Verif.Gen
