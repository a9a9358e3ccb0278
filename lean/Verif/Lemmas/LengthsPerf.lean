import Verif.Lemmas.Lengths

/-! Lengths of fuel flow and emissions, and what they mean. -/

namespace Verif.Lengths
open Verif.Nd Verif.Decorated Verif.Aero Verif.Spec

variable {S T U : Set ℕ} {x y z : Nd} {j : Bool}
variable (ac : Drag.Airframe ℝ) (pol : Drag.Polar ℝ) (en : Thrust.Params ℝ) (f : Fuel.Params ℝ)
  (em : Emission.Params ℝ)
variable {SA SB SC SD SE SF SG : Set ℕ} {A B C D E F G : Arg}

theorem len_cruise (hA : Len SA A.val) (hB : Len SB B.val) (hC : Len SC C.val) :
    Len (SA ∪ SB ∪ SC) (Decorated.cruise (ndBackend j) (Rec.thrust scalar en) A B C) := by
  refine len_call fun c hc => ?_
  have h0 : Len ∅ (pass 0.0).val := len_lit _ _ _
  exact (len_climb en (A := pass (c A)) (B := pass (c B)) (D := pass (c C)) (hc A _ hA) (hc B _ hB) h0
    (hc C _ hC)).congr (by unions)

theorem len_descentIdle (hA : Len SA A.val) (hB : Len SB B.val) (hC : Len SC C.val) :
    Len (SA ∪ SB ∪ SC) (Decorated.descentIdle (ndBackend j) (Rec.thrust scalar en) A B C) :=
  (len_mul (len_lit _ _ _) (len_thrustTakeoff en (A := pass A.val) (B := pass B.val) (C := pass C.val)
    hA hB hC)).congr (by unions)

theorem len_atThrust (hA : Len SA A.val) :
    Len SA (Decorated.atThrust (ndBackend j) (Rec.fuel scalar f) A) := by
  refine len_call fun c hc => ?_
  have hA := hc A _ hA
  unfold Fuel.atThrust Fuel.funcFuel Fuel.limiter Rec.fuel
  dsimp only
  refine Len.congr (by repeat len1) ?_
  unions

theorem len_fuelTakeoff (hA : Len SA A.val) (hB : Len SB B.val) (hC : Len SC C.val) :
    Len (SA ∪ SB ∪ SC) (fuelTakeoff (ndBackend j) (Rec.thrust scalar en) (Rec.fuel scalar f) A B C) := by
  refine len_call fun c hc => ?_
  have h0 : Len ∅ (⟨0.0, false⟩ : Arg).val := len_lit _ _ _
  exact (len_mul (hc C _ hC) (len_atThrust f (A := pass _) (len_thrustTakeoff en (A := pass (c A))
    (B := pass (c B)) (hc A _ hA) (hc B _ hB) h0))).congr (by unions)

theorem len_enroute (wave : Bool) (hA : Len SA A.val) (hB : Len SB B.val) (hC : Len SC C.val)
    (hD : Len SD D.val) (hE : Len SE E.val) (hF : Len SF F.val) :
    Len (SA ∪ SB ∪ SC ∪ SD ∪ SE ∪ SF) (Decorated.enroute (ndBackend j) (Rec.airframe scalar ac)
      (Rec.polar scalar pol) (Rec.fuel scalar f) wave A B C D E F G) := by
  refine len_call fun c hc => ?_
  have hA := hc A _ hA
  have hB := hc B _ hB
  have hC := hc C _ hC
  have hD := hc D _ hD
  have hE := hc E _ hE
  have hF := hc F _ hF
  have h1 := len_clean (j := j) ac pol wave (A := pass (c A)) (B := pass (c B)) (C := pass (c C))
    (D := pass (c D)) (E := pass (c F)) hA hB hC hD hF
  refine len_atThrust f (A := pass _) ?_
  unfold pass fpm kts
  dsimp only
  unfold pass at h1
  refine Len.congr (by repeat len1) ?_
  unions

theorem len_lto (ei : Fin 4 → ℝ) (hx : Len S x) :
    Len S (Emission.lto (ndBackend j) (Rec.emission scalar em) (fun i => scalar (ei i)) x) :=
  len_map (fun x => np.interp x [em.ff 0, em.ff 1, em.ff 2, em.ff 3] [ei 0, ei 1, ei 2, ei 3]) hx

theorem len_fl2sl {V : Set ℕ} {a : Nd} (hx : Len S x) (hy : Len T y) (hz : Len U z) (ha : Len V a) :
    Len (S ∪ T ∪ U ∪ V) (Emission.fl2sl (ndBackend j) (Rec.emission scalar em) x y z a).1 ∧
    Len (T ∪ U ∪ V) (Emission.fl2sl (ndBackend j) (Rec.emission scalar em) x y z a).2 := by
  unfold Emission.fl2sl Rec.emission kts ft
  dsimp only
  constructor
  · refine Len.congr (by repeat len1) ?_
    unions
  · refine Len.congr (by repeat len1) ?_
    unions

theorem len_nox (hA : Len SA A.val) (hB : Len SB B.val) (hC : Len SC C.val) (hD : Len SD D.val) :
    Len (SA ∪ SB ∪ SC ∪ SD) (Decorated.nox (ndBackend j) (Rec.emission scalar em) A B C D) := by
  refine len_call fun c hc => ?_
  have hA := hc A _ hA
  have hC := hc C _ hC
  obtain ⟨h1, h2⟩ := len_fl2sl (j := j) em hA (hc B _ hB) hC (hc D _ hD)
  have h3 := len_lto (j := j) em em.nox h1
  unfold Emission.nox
  change Len _ ((Emission.lto (ndBackend j) (Rec.emission scalar em) (fun i => scalar (em.nox i))
    (Emission.fl2sl (ndBackend j) (Rec.emission scalar em) (c A) (c B) (c C) (c D)).1) * _ * _ * _)
  refine Len.congr (by repeat len1) ?_
  unions

theorem len_co (hA : Len SA A.val) (hB : Len SB B.val) (hC : Len SC C.val) (hD : Len SD D.val) :
    Len (SA ∪ SB ∪ SC ∪ SD) (Decorated.co (ndBackend j) (Rec.emission scalar em) A B C D) := by
  refine len_call fun c hc => ?_
  have hA := hc A _ hA
  obtain ⟨h1, h2⟩ := len_fl2sl (j := j) em hA (hc B _ hB) (hc C _ hC) (hc D _ hD)
  exact (len_mul (len_mul (len_lto (j := j) em em.co h1) h2) hA).congr (by unions)

theorem len_hc (hA : Len SA A.val) (hB : Len SB B.val) (hC : Len SC C.val) (hD : Len SD D.val) :
    Len (SA ∪ SB ∪ SC ∪ SD) (Decorated.hc (ndBackend j) (Rec.emission scalar em) A B C D) := by
  refine len_call fun c hc => ?_
  have hA := hc A _ hA
  obtain ⟨h1, h2⟩ := len_fl2sl (j := j) em hA (hc B _ hB) (hc C _ hC) (hc D _ hD)
  exact (len_mul (len_mul (len_lto (j := j) em em.hc h1) h2) hA).congr (by unions)

theorem len_simple (k : Nd) (hk : Len ∅ k) (hA : Len SA A.val) :
    Len SA (call [A] fun c => c A * k) :=
  len_call fun c hc => (len_mul (hc A _ hA) hk).congr (by unions)

/-! ## Reading off the result -/

/-- The lengths of an argument. -/
def lens (v : Nd) : Set ℕ := {n | n ≠ 1 ∧ HasLength n v}

theorem len_lens {v : Nd} (h : Flat v) : Len (lens v) v := by
  obtain ⟨⟨k, s, g⟩, rfl, h⟩ := h
  simp only [] at h
  rcases h with rfl | ⟨n, rfl⟩
  · refine Or.inl ⟨?_, .inl rfl⟩
    ext m
    simp [lens, HasLength]
  · by_cases hn : n = 1
    · subst hn
      refine Or.inl ⟨?_, .inr rfl⟩
      ext m
      simp only [lens, HasLength, Set.mem_ofPred_eq, Set.mem_empty_iff_false, iff_false, not_and]
      rintro hm ⟨a, ha, hs⟩
      cases ha
      simp only [List.cons.injEq, and_true] at hs
      exact hm hs.symm
    · refine Or.inr ⟨n, hn, ?_, rfl⟩
      ext m
      simp only [lens, HasLength, Set.mem_ofPred_eq, Set.mem_singleton_iff]
      constructor
      · rintro ⟨-, a, ha, hs⟩
        cases ha
        simp only [List.cons.injEq, and_true] at hs
        exact hs.symm
      · rintro rfl
        exact ⟨hn, _, rfl, rfl⟩

theorem mem_lens {l : List Nd} {y : Nd} {n : ℕ} : (n ∈ {n | ∃ x ∈ y :: l, n ∈ lens x}) ↔
    n ∈ lens y ∨ n ∈ {n | ∃ x ∈ l, n ∈ lens x} := by
  simp

theorem mem_lens_nil {n : ℕ} : n ∉ {n | ∃ x ∈ ([] : List Nd), n ∈ lens x} := by
  simp

/-- The set of all lengths of a list of arguments. -/
macro "all_lengths" : tactic =>
  `(tactic| (clear * -; ext q; simp only [Set.mem_union, mem_lens, mem_lens_nil]; tauto))

theorem aligned {l : List Nd} {v : Nd} (h : Len {n | ∃ x ∈ l, n ∈ lens x} v) : Aligned l v := by
  have hcl : Clash l ↔ ¬ Set.Subsingleton {n | ∃ x ∈ l, n ∈ lens x} := by
    simp only [Set.Subsingleton, Set.mem_ofPred_eq, lens]
    push Not
    constructor
    · rintro ⟨x, hx, y, hy, n, m, hn, hm, hnm, h1, h2⟩
      exact ⟨n, ⟨x, hx, hn, h1⟩, m, ⟨y, hy, hm, h2⟩, hnm⟩
    · rintro ⟨n, ⟨x, hx, hn, h1⟩, m, ⟨y, hy, hm, h2⟩, hnm⟩
      exact ⟨x, hx, y, hy, n, m, hn, hm, hnm, h1, h2⟩
  have hs : ∀ {a : Arr}, v = some a → Set.Subsingleton {n | ∃ x ∈ l, n ∈ lens x} := by
    rintro a rfl
    rcases h with ⟨e, -⟩ | ⟨n, -, e, -⟩ <;> rw [e]
    · exact Set.subsingleton_empty
    · exact Set.subsingleton_singleton
  refine ⟨?_, ?_, ?_⟩
  · rw [hcl]
    cases v with
    | none => exact ⟨fun _ => h, fun _ => rfl⟩
    | some a => exact ⟨fun e => absurd e (by simp), fun e => absurd (hs rfl) e⟩
  · intro hc n hn
    rw [hcl, not_not] at hc
    cases v with
    | none => exact absurd hc h
    | some a =>
      have hmem : (∃ x ∈ l, HasLength n x) ↔ n ∈ {n | ∃ x ∈ l, n ∈ lens x} := by
        simp only [Set.mem_ofPred_eq, lens]
        exact ⟨fun ⟨x, hx, h⟩ => ⟨x, hx, hn, h⟩, fun ⟨x, hx, _, h⟩ => ⟨x, hx, h⟩⟩
      rw [hmem]
      have hl : HasLength n (some a) ↔ a.shape = [n] := by
        constructor
        · rintro ⟨b, hb, hs⟩
          cases hb; exact hs
        · exact fun h => ⟨a, rfl, h⟩
      rw [hl]
      rcases h with ⟨e, h⟩ | ⟨m, hm, e, h⟩ <;> rw [e]
      · rcases h with h | h <;> simp [h, Ne.symm hn]
      · simp [h, eq_comm]
  · intro hx
    have e : {n | ∃ x ∈ l, n ∈ lens x} = ∅ := by
      ext n
      simp only [Set.mem_ofPred_eq, lens, Set.mem_empty_iff_false, iff_false]
      rintro ⟨x, hl, hn, h⟩
      exact hx x hl n hn h
    rw [e] at h
    cases v with
    | none => exact absurd Set.subsingleton_empty h
    | some a =>
      rcases h with ⟨-, h⟩ | ⟨n, -, h, -⟩
      · exact ⟨a, rfl, h⟩
      · exact absurd h.symm (Set.singleton_ne_empty n)

end Verif.Lengths
