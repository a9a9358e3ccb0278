import Verif.Model.GenKeywords
import Verif.Lemmas.Binding
import Verif.Props.GenComplete

/-!
# C125: keywords of the trajectory generator
-/

namespace Verif.Props
open Verif Verif.Gen Verif.Binding Verif.Data

variable {G : Type} (R : Rng G)

/-- `complete` on dictionaries is `complete` on the record of documented keywords. -/
theorem completeD_eq (n : ℕ) (f : FlightGen G) (d : Dict GVal) :
    completeD R n f d = complete R n f (Kw.ofDict d) := by
  unfold completeD complete cruiseD
  rcases cruise R n f (Kw.ofDict d) with _ | ⟨e | ⟨cr, f'⟩⟩
  · rfl
  · rfl
  · simp only
    have h1 : Kw.ofDict (if (d.get "alt_cr").isSome then d
          else ("alt_cr", GVal.num cr.params.alt) :: d) =
        if (Kw.ofDict d).altCr.isSome then Kw.ofDict d
        else { Kw.ofDict d with altCr := some cr.params.alt } := by
      have : (Kw.ofDict d).altCr.isSome = (d.get "alt_cr").isSome := by
        simp [Kw.ofDict]
      rw [this]
      by_cases h : (d.get "alt_cr").isSome = true
      · rw [if_pos h, if_pos h]
      · rw [if_neg h, if_neg h]
        simp [Kw.ofDict, get_cons, GVal.toNum]
    rw [← h1]
    generalize (if (d.get "alt_cr").isSome then d
      else ("alt_cr", GVal.num cr.params.alt) :: d) = d'
    have e1 : (Kw.ofDict d').machCl.isSome = (d'.get "mach_const_cl").isSome := by
      simp [Kw.ofDict]
    have e2 : (Kw.ofDict d').machDe.isSome = (d'.get "mach_const_de").isSome := by
      simp [Kw.ofDict]
    rw [e1, e2]
    unfold withKw
    by_cases h : (d'.get "mach_const_cl").isSome = true
    · rw [if_pos h, if_pos h]
    · rw [if_neg h, if_neg h]
      have k1 : Kw.ofDict (("mach_const_cl", GVal.num cr.params.mach) :: d') =
          { Kw.ofDict d' with machCl := some cr.params.mach } := by
        simp [Kw.ofDict, get_cons, GVal.toNum]
      have k2 : Kw.ofDict (("mach_const_de", GVal.num cr.params.mach) :: d') =
          { Kw.ofDict d' with machDe := some cr.params.mach } := by
        simp [Kw.ofDict, get_cons, GVal.toNum]
      simp only [climbD, k1]
      rcases climb R n f' { Kw.ofDict d' with machCl := some cr.params.mach } with
        _ | ⟨e | ⟨cl, f''⟩⟩
      · rfl
      · rfl
      · simp only
        by_cases h : (d'.get "mach_const_de").isSome = true
        · rw [if_pos h, if_pos h]
        · rw [if_neg h, if_neg h]
          simp only [descentD, k2]
          rfl

/-- **C125.** Each method's result, exceptions and draws included, depends only on the
keywords listed: anything else in the dictionary, such as a misspelt keyword or one meant
for another method, is ignored without an error. -/
theorem C125_unread_keywords (n : ℕ) (f : FlightGen G) (d d' : Dict GVal) :
    ((∀ k ∈ ["dt", "random", "cas_const_cl", "mach_const_cl", "alt_cr"], d.get k = d'.get k) →
      climbD R n f d = climbD R n f d') ∧
    ((∀ k ∈ ["dt", "random", "withcr", "cas_const_de", "mach_const_de", "alt_cr"],
      d.get k = d'.get k) → descentD R n f d = descentD R n f d') ∧
    ((∀ k ∈ ["dt", "random", "range_cr", "alt_cr", "mach_cr"], d.get k = d'.get k) →
      cruiseD R n f d = cruiseD R n f d') ∧
    ((∀ k ∈ ["dt", "random", "withcr", "cas_const_cl", "mach_const_cl", "cas_const_de",
        "mach_const_de", "range_cr", "alt_cr", "mach_cr"], d.get k = d'.get k) →
      completeD R n f d = completeD R n f d') := by
  refine ⟨fun h => ?_, fun h => ?_, fun h => ?_, fun h => ?_⟩
  · have key : ∀ kw : Kw, climbSetup R f kw = climbSetup R f
        { dt := kw.dt, random := kw.random, casCl := kw.casCl, machCl := kw.machCl, altCr := kw.altCr } := fun _ => rfl
    have : climbSetup R f (Kw.ofDict d) = climbSetup R f (Kw.ofDict d') := by
      rw [key (Kw.ofDict d), key (Kw.ofDict d')]
      simp only [Kw.ofDict, h "dt" (by simp), h "random" (by simp), h "cas_const_cl" (by simp),
        h "mach_const_cl" (by simp), h "alt_cr" (by simp)]
    simp only [climbD, climb, this]
  · have key : ∀ kw : Kw, descentSetup R f kw = descentSetup R f
        { dt := kw.dt, random := kw.random, withcr := kw.withcr, casDe := kw.casDe,
          machDe := kw.machDe, altCr := kw.altCr } := fun _ => rfl
    have : descentSetup R f (Kw.ofDict d) = descentSetup R f (Kw.ofDict d') := by
      rw [key (Kw.ofDict d), key (Kw.ofDict d')]
      simp only [Kw.ofDict, h "dt" (by simp), h "random" (by simp), h "withcr" (by simp),
        h "cas_const_de" (by simp), h "mach_const_de" (by simp), h "alt_cr" (by simp)]
    simp only [descentD, descent, this]
  · have key : ∀ kw : Kw, cruiseSetup R f kw = cruiseSetup R f
        { dt := kw.dt, random := kw.random, rangeCr := kw.rangeCr, altCr := kw.altCr, machCr := kw.machCr } := fun _ => rfl
    have : cruiseSetup R f (Kw.ofDict d) = cruiseSetup R f (Kw.ofDict d') := by
      rw [key (Kw.ofDict d), key (Kw.ofDict d')]
      simp only [Kw.ofDict, h "dt" (by simp), h "random" (by simp), h "range_cr" (by simp),
        h "alt_cr" (by simp), h "mach_cr" (by simp)]
    simp only [cruiseD, cruise, this]
  · rw [completeD_eq, completeD_eq]
    have : Kw.ofDict d = Kw.ofDict d' := by
      simp only [Kw.ofDict, h "dt" (by simp), h "random" (by simp), h "range_cr" (by simp),
        h "alt_cr" (by simp), h "mach_cr" (by simp), h "withcr" (by simp),
        h "cas_const_cl" (by simp), h "mach_const_cl" (by simp), h "cas_const_de" (by simp),
        h "mach_const_de" (by simp)]
    rw [this]

/-- **C125.** The keyword `m_cr` of the documented calls (`gen.py:18,21`) is not read. -/
theorem C125_m_cr (n : ℕ) (f : FlightGen G) (x : GVal) (d : Dict GVal) :
    cruiseD R n f (("m_cr", x) :: d) = cruiseD R n f d ∧
    completeD R n f (("m_cr", x) :: d) = completeD R n f d := by
  constructor
  · exact (C125_unread_keywords R n f _ _).2.2.1 (fun k hk => by
      rw [get_cons, if_neg]
      rintro rfl
      exact absurd hk (by decide))
  · exact (C125_unread_keywords R n f _ _).2.2.2 (fun k hk => by
      rw [get_cons, if_neg]
      rintro rfl
      exact absurd hk (by decide))

/-- **C125.** `True` and `False` count as 1 and 0 for every keyword, and for `random` and
`withcr` every number other than 0 counts as `True`. -/
theorem C125_values (n : ℕ) (f : FlightGen G) (k : String) (b : Bool) (x : ℝ) (d : Dict GVal) :
    (climbD R n f ((k, .bool b) :: d) = climbD R n f ((k, .num (if b then 1 else 0)) :: d) ∧
     descentD R n f ((k, .bool b) :: d) = descentD R n f ((k, .num (if b then 1 else 0)) :: d) ∧
     cruiseD R n f ((k, .bool b) :: d) = cruiseD R n f ((k, .num (if b then 1 else 0)) :: d) ∧
     completeD R n f ((k, .bool b) :: d) =
       completeD R n f ((k, .num (if b then 1 else 0)) :: d)) ∧
    (x ≠ 0 → k ∈ ["random", "withcr"] →
      climbD R n f ((k, .num x) :: d) = climbD R n f ((k, .bool true) :: d) ∧
      descentD R n f ((k, .num x) :: d) = descentD R n f ((k, .bool true) :: d) ∧
      cruiseD R n f ((k, .num x) :: d) = cruiseD R n f ((k, .bool true) :: d) ∧
      completeD R n f ((k, .num x) :: d) = completeD R n f ((k, .bool true) :: d)) := by
  have h1 : Kw.ofDict ((k, .bool b) :: d) = Kw.ofDict ((k, .num (if b then 1 else 0)) :: d) := by
    have e1 : ∀ s, (Dict.get s ((k, GVal.bool b) :: d)).map GVal.toNum =
        (Dict.get s ((k, GVal.num (if b then 1 else 0)) :: d)).map GVal.toNum := by
      intro s
      simp only [get_cons]
      split_ifs <;> simp [GVal.toNum, *]
    have e2 : ∀ s, (Dict.get s ((k, GVal.bool b) :: d)).map GVal.truthy =
        (Dict.get s ((k, GVal.num (if b then 1 else 0)) :: d)).map GVal.truthy := by
      intro s
      simp only [get_cons]
      split_ifs <;> simp [GVal.truthy, *]
    simp only [Kw.ofDict, e1, e2]
  have h2 : x ≠ 0 → k ∈ ["random", "withcr"] →
      Kw.ofDict ((k, .num x) :: d) = Kw.ofDict ((k, .bool true) :: d) := by
    intro hx hk
    simp only [List.mem_cons, List.not_mem_nil, or_false] at hk
    rcases hk with rfl | rfl <;> simp [Kw.ofDict, get_cons, GVal.truthy, hx]
  refine ⟨⟨?_, ?_, ?_, ?_⟩, fun hx hk => ⟨?_, ?_, ?_, ?_⟩⟩
  · unfold climbD; rw [h1]
  · unfold descentD; rw [h1]
  · unfold cruiseD; rw [h1]
  · rw [completeD_eq, completeD_eq, h1]
  · unfold climbD; rw [h2 hx hk]
  · unfold descentD; rw [h2 hx hk]
  · unfold cruiseD; rw [h2 hx hk]
  · rw [completeD_eq, completeD_eq, h2 hx hk]

/-- The documented call of `complete`, `gen.py:21-23`. -/
noncomputable def documented : Dict GVal :=
  [("dt", .num 10), ("alt_cr", .num 35000), ("m_cr", .num 0.78), ("cas_const_cl", .num 280),
    ("mach_const_cl", .num 0.78), ("cas_const_de", .num 280), ("mach_const_de", .num 0.78)]

variable {R} in
/-- **C125.** The call of `complete` shown in the module documentation raises `TypeError` for
every aircraft offered by `available_aircraft(use_synonym=True)`. -/
theorem C125_documented_call (ac : Tables.Str)
    (hac : ac ∈ Registry.availableAircraft shipped true) (seed : G) (hR : R.Unit) :
    ∃ f, Gen.init shipped ac seed true = .ok f ∧
      ∃ n, completeD R n f documented = some (.error .typeError) := by
  obtain ⟨f, h1, h2⟩ := C55_complete_arguments (R := R) ac hac seed hR
  have hk : Kw.Sensible (Kw.ofDict documented) := by
    constructor <;>
      · intro x hx
        simp [Kw.ofDict, documented, Dict.get, GVal.toNum] at hx
        try subst hx
        try norm_num
  obtain ⟨n, hn⟩ := (h2 f (.inl rfl) f.rng _ hk).2.1.2 (Or.inl (by
    simp [Kw.ofDict, documented, Dict.get]))
  exact ⟨f, h1, n, by rw [completeD_eq]; exact hn⟩

/-- A misspelt keyword: the flight is the one without it. -/
example (n : ℕ) (f : FlightGen G) :
    climbD R n f [("alt_cruise", .num 30000), ("dt", .num 5)] = climbD R n f [("dt", .num 5)] :=
  (C125_unread_keywords R n f _ _).1 (fun k hk => by
    rw [get_cons, if_neg]
    rintro rfl
    exact absurd hk (by decide))

/-- The documented call for an A320. -/
example : ∃ f, Gen.init shipped ("a320".toList.map Char.toNat) () true = .ok f ∧
    ∃ n, completeD ⟨fun _ => (0, ()), fun _ _ => ([], ())⟩ n f documented = some (.error .typeError) :=
  C125_documented_call _ (by decide +kernel) () (fun _ => by simp)

end Verif.Props
