import Verif.Props.GenSegments
import Verif.Props.PhaseRegions

/-!
# C144: the phase labels of generated flights
-/

namespace Verif.Props
open Verif Verif.Gen Verif.Aero Verif.Tables Verif.Kinematic Verif.Registry
open Verif.Data (shipped)

/-! ## Splitting a list by a rank -/

theorem split_rank {β : Type} {g : β → ℕ} (k : ℕ) :
    ∀ {l : List β}, l.IsChain (fun a b => g a ≤ g b) →
      ∃ A B, l = A ++ B ∧ (∀ x ∈ A, g x ≤ k) ∧ (∀ x ∈ B, k < g x) ∧
        B.IsChain (fun a b => g a ≤ g b)
  | [], _ => ⟨[], [], rfl, by simp, by simp, .nil⟩
  | x :: l, h => by
    by_cases hx : g x ≤ k
    · obtain ⟨A, B, rfl, hA, hB, hc⟩ := split_rank k h.tail
      exact ⟨x :: A, B, rfl, by simpa using ⟨hx, hA⟩, hB, hc⟩
    · refine ⟨[], x :: l, rfl, by simp, ?_, h⟩
      have hp : (x :: l).Pairwise (fun a b => g a ≤ g b) :=
        List.isChain_iff_pairwise.1 h
      intro y hy
      rcases List.mem_cons.1 hy with rfl | hy
      · omega
      · have := (List.pairwise_cons.1 hp).1 y hy
        omega

/-! ## Stages of the parts -/

/-- On the runway. -/
def OnGround (x : Row) : Prop := x.h = 0 ∧ x.vs = 0

/-- Level at altitude `a` or above. -/
def IsHigh (a : ℝ) (x : Row) : Prop := x.vs = 0 ∧ a ≤ x.h ∧ 218 ≤ x.v

theorem adjacent {β : Type} {r : β → β → Prop} {A C : List β} (h : (A ++ C).IsChain r)
    {a c : β} (ha : A.getLast? = some a) (hc : C.head? = some c) : r a c :=
  (List.isChain_append.1 h).2.2 a ha c hc

structure ClimbStage (P : ClimbParams) (x : ClimbState) : Prop extends ClimbSegInv P x where
  ground : climbRank x.seg ≤ 1 → OnGround x.toRow
  up : 2 ≤ climbRank x.seg → climbRank x.seg ≤ 5 → 1.6 ≤ x.vs
  high : 6 ≤ climbRank x.seg → IsHigh P.hCr x.toRow

theorem climbStage_step {P : ClimbParams} (hP : P.Valid) (h0 : 0 ≤ P.vTof)
    (hcas : (1 + 1e-8) * P.vTof ≤ P.vcas) (hmach : P.vTof ≤ 295 * P.mach) (hm : 0.74 ≤ P.mach)
    (r1 : 1.6 ≤ P.vsIc) (r2 : 1.6 ≤ P.vsPre) (r3 : 1.6 ≤ P.vsCas) (r4 : 1.6 ≤ P.vsMach)
    {x : ClimbState} (hx : ClimbStage P x) :
    ClimbStage P (climbBody P x).1 ∧ climbRank x.seg ≤ climbRank (climbBody P x).1.seg ∧
      (climbBody P x).1.h = x.h + x.vs * P.dt := by
  obtain ⟨s1, s2⟩ := climbSeg_step hP h0 hcas hmach hx.toClimbSegInv
  refine ⟨⟨s1, ?_, ?_, ?_⟩, s2, climb_h P x⟩
  · intro h
    obtain ⟨g1, g2⟩ := hx.ground (s2.trans h)
    refine ⟨?_, ?_⟩
    · show (climbBody P x).1.h = 0
      rw [climb_h]
      have g1 : x.h = 0 := g1
      have g2 : x.vs = 0 := g2
      rw [g1, g2]; ring
    · show (climbBody P x).1.vs = 0
      revert h
      unfold climbBody
      dsimp only
      split_ifs <;> simp [climbRank]
  · unfold climbBody
    dsimp only
    split_ifs <;> simp only [climbRank] <;> intro h1 h2 <;>
      first | assumption | omega
  · have v : 218 ≤ mach2tas np P.mach (x.h + x.vs * P.dt) 0 := by
      unfold mach2tas
      have := vsound_lower (x.h + x.vs * P.dt)
      nlinarith
    unfold climbBody
    dsimp only
    split_ifs <;> simp only [climbRank] <;> intro h1 <;>
      first | omega | exact ⟨rfl, not_lt.1 ‹_›, v⟩

theorem climb_stages {P : ClimbParams} (hP : P.Valid) (h0 : 0 ≤ P.vTof)
    (hcas : (1 + 1e-8) * P.vTof ≤ P.vcas) (hmach : P.vTof ≤ 295 * P.mach) (hm : 0.74 ≤ P.mach)
    (r1 : 1.6 ≤ P.vsIc) (r2 : 1.6 ≤ P.vsPre) (r3 : 1.6 ≤ P.vsCas) (r4 : 1.6 ≤ P.vsMach)
    (hh : 0 < P.hCr) {ss : List ClimbState} (h : Trace (climbBody P) climbInit ss) :
    ∃ A B C, ss.map ClimbState.toRow = A ++ B ++ C ∧ A ≠ [] ∧ B ≠ [] ∧
      (∀ x ∈ A, OnGround x) ∧ (∀ x ∈ B, 1.6 ≤ x.vs) ∧ ∀ x ∈ C, IsHigh P.hCr x := by
  have init : ClimbStage P climbInit :=
    ⟨⟨climbInv_init hP, by decide, fun h => by simp [climbInit, climbRank] at h,
      fun h => by simp [climbInit, climbRank] at h, fun h => by simp [climbInit, climbRank] at h,
      fun h => by simp [climbInit, climbRank] at h, fun h => by simp [climbInit, climbRank] at h⟩,
      fun _ => ⟨rfl, rfl⟩, fun h => by simp [climbInit, climbRank] at h,
      fun h => by simp [climbInit, climbRank] at h⟩
  have step := fun x (hx : ClimbStage P x) =>
    climbStage_step hP h0 hcas hmach hm r1 r2 r3 r4 hx
  have inv := trace_inv (Inv := ClimbStage P) (fun x hx _ => (step x hx).1) h init
  have ch := trace_chain (Inv := ClimbStage P)
    (R := fun a b => climbRank a.seg ≤ climbRank b.seg) (fun x hx _ => ⟨(step x hx).1, (step x hx).2.1⟩)
    h init
  have ch2 := trace_chain (Inv := ClimbStage P)
    (R := fun a b => b.h = a.h + a.vs * P.dt) (fun x hx _ => ⟨(step x hx).1, (step x hx).2.2⟩)
    h init
  have head := trace_head h
  obtain ⟨l, hl, hlev, -⟩ := climb_last hP h
  obtain ⟨A, D, rfl, hA, hD, chD⟩ := split_rank (g := fun x : ClimbState => climbRank x.seg) 1 ch
  obtain ⟨B, C, rfl, hB, hC, -⟩ := split_rank (g := fun x : ClimbState => climbRank x.seg) 5 chD
  have gA : ∀ x ∈ A, OnGround x.toRow := fun x hx =>
    (inv x (List.mem_append_left _ hx)).ground (hA x hx)
  have gC : ∀ x ∈ C, IsHigh P.hCr x.toRow := fun x hx =>
    (inv x (List.mem_append_right _ (List.mem_append_right _ hx))).high (hC x hx)
  have nA : A ≠ [] := by
    rintro rfl
    have : climbInit ∈ B ++ C := List.mem_of_mem_head? (by simpa using head)
    have := hD _ this
    simp [climbInit, climbRank] at this
  have nC : B = [] → C ≠ [] := by
    rintro rfl rfl
    simp only [List.append_nil] at hl
    have := (gA l (List.mem_of_getLast? hl)).1
    have h1 : P.hCr ≤ l.h := (level_le.1 hlev).1
    have h2 : l.h = 0 := this
    linarith
  refine ⟨A.map ClimbState.toRow, B.map ClimbState.toRow, C.map ClimbState.toRow,
    by simp, by simpa using nA, ?_, ?_, ?_, ?_⟩
  · intro h
    rw [List.map_eq_nil_iff] at h
    subst h
    have nC := nC rfl
    obtain ⟨a, ha⟩ := Option.ne_none_iff_exists'.1 (fun h => nA (List.getLast?_eq_none_iff.1 h))
    obtain ⟨c, hc⟩ := Option.ne_none_iff_exists'.1 (fun h => nC (List.head?_eq_none_iff.1 h))
    have h1 := adjacent (by simpa using ch2) ha hc
    have h2 : a.h = 0 := (gA a (List.mem_of_getLast? ha)).1
    have h3 : a.vs = 0 := (gA a (List.mem_of_getLast? ha)).2
    have h4 : P.hCr ≤ c.h := (gC c (List.mem_of_mem_head? hc)).2.1
    rw [h2, h3] at h1
    linarith
  · simpa using gA
  · intro x hx
    obtain ⟨y, hy, rfl⟩ := List.mem_map.1 hx
    exact (inv y (List.mem_append_right _ (List.mem_append_left _ hy))).up
      (hD y (List.mem_append_left _ hy)) (hB y hy)
  · simpa using gC

structure DescentStage (P : DescentParams) (x : Row) : Prop extends DescentSegInv P x where
  high : descentRank x.seg ≤ 1 → IsHigh P.hCr x
  down : 2 ≤ descentRank x.seg → descentRank x.seg ≤ 5 → x.vs ≤ -1.6
  landed : 6 ≤ descentRank x.seg → OnGround x

theorem descentStage_step {P : DescentParams} (hP : P.Valid) (hm : 0.74 ≤ P.mach)
    (r1 : P.vsMach ≤ -1.6) (r2 : P.vsCas ≤ -1.6) (r3 : P.vsPost ≤ -1.6) (r4 : P.vsFa ≤ -1.6)
    {x : Row} (hx : DescentStage P x) :
    DescentStage P (descentBody P x).1 ∧
      descentRank x.seg ≤ descentRank (descentBody P x).1.seg ∧
      ((descentBody P x).1.h = x.h + x.vs * P.dt ∨ x.h + x.vs * P.dt ≤ 0) := by
  obtain ⟨s1, s2⟩ := descentSeg_step hP hx.toDescentSegInv
  have v : 218 ≤ mach2tas np P.mach (x.h + x.vs * P.dt) 0 := by
    unfold mach2tas
    have := vsound_lower (x.h + x.vs * P.dt)
    nlinarith
  refine ⟨⟨s1, ?_, ?_, ?_⟩, s2, ?_⟩
  · intro h
    obtain ⟨g1, g2, -⟩ := hx.high (s2.trans h)
    have g2 : P.hCr ≤ x.h + x.vs * P.dt := by rw [g1]; linarith
    revert h
    unfold descentBody
    dsimp only
    split_ifs <;> simp only [descentRank] <;> intro h1 <;>
      first | omega | exact ⟨rfl, g2, v⟩
  · unfold descentBody
    dsimp only
    split_ifs <;> simp only [descentRank] <;> intro h1 h2 <;>
      first | assumption | omega
  · unfold descentBody
    dsimp only
    split_ifs <;> simp only [descentRank] <;> intro h1 <;>
      first | omega | exact ⟨rfl, rfl⟩
  · rcases descent_cases hP x with c | c | c
    · exact .inl c.2.2.1
    · exact .inl c.2.2.1
    · exact .inr c.2.1

theorem descent_stages {P : DescentParams} (hP : P.Valid) (hm : 0.74 ≤ P.mach)
    (r1 : P.vsMach ≤ -1.6) (r2 : P.vsCas ≤ -1.6) (r3 : P.vsPost ≤ -1.6) (r4 : P.vsFa ≤ -1.6)
    (hh : 0 < P.hCr) {ss : List Row} (h : Trace (descentBody P) (descentInit P) ss) :
    ∃ A B C, ss = A ++ B ++ C ∧ A ≠ [] ∧ B ≠ [] ∧
      (∀ x ∈ A, IsHigh P.hCr x) ∧ (∀ x ∈ B, x.vs ≤ -1.6) ∧ ∀ x ∈ C, OnGround x := by
  have init : DescentStage P (descentInit P) :=
    ⟨⟨descentInv_init hP, by simp [descentInit, descentRank],
        fun h => by simp [descentInit, descentRank] at h,
        fun h => by simp [descentInit, descentRank] at h,
        fun h => by simp [descentInit, descentRank] at h,
        fun h => by simp [descentInit, descentRank] at h,
        fun h => by simp [descentInit, descentRank] at h⟩,
      fun _ => ⟨rfl, le_rfl, by
        show 218 ≤ mach2tas np P.mach P.hCr 0
        unfold mach2tas
        have := vsound_lower P.hCr
        nlinarith⟩, fun h => by simp [descentInit, descentRank] at h,
      fun h => by simp [descentInit, descentRank] at h⟩
  have step := fun x (hx : DescentStage P x) => descentStage_step hP hm r1 r2 r3 r4 hx
  have inv := trace_inv (Inv := DescentStage P) (fun x hx _ => (step x hx).1) h init
  have ch := trace_chain (Inv := DescentStage P)
    (R := fun a b => descentRank a.seg ≤ descentRank b.seg)
    (fun x hx _ => ⟨(step x hx).1, (step x hx).2.1⟩) h init
  have ch2 := trace_chain (Inv := DescentStage P)
    (R := fun a b => b.h = a.h + a.vs * P.dt ∨ a.h + a.vs * P.dt ≤ 0)
    (fun x hx _ => ⟨(step x hx).1, (step x hx).2.2⟩) h init
  have head := trace_head h
  obtain ⟨l, hl, hl1, -⟩ := descent_last hP h
  obtain ⟨A, D, rfl, hA, hD, chD⟩ := split_rank (g := fun x : Row => descentRank x.seg) 1 ch
  obtain ⟨B, C, rfl, hB, hC, -⟩ := split_rank (g := fun x : Row => descentRank x.seg) 5 chD
  have gA : ∀ x ∈ A, IsHigh P.hCr x := fun x hx =>
    (inv x (List.mem_append_left _ hx)).high (hA x hx)
  have gC : ∀ x ∈ C, OnGround x := fun x hx =>
    (inv x (List.mem_append_right _ (List.mem_append_right _ hx))).landed (hC x hx)
  have nA : A ≠ [] := by
    rintro rfl
    have : descentInit P ∈ B ++ C := List.mem_of_mem_head? (by simpa using head)
    have := hD _ this
    simp [descentInit, descentRank] at this
  have stay : ∀ x ∈ A, ¬ x.h + x.vs * P.dt ≤ 0 := by
    intro x hx
    obtain ⟨g1, g2, -⟩ := gA x hx
    rw [g1]
    linarith
  have nC : B = [] → C ≠ [] := by
    rintro rfl rfl
    simp only [List.append_nil] at hl
    exact stay l (List.mem_of_getLast? hl) hl1
  refine ⟨A, B, C, by simp, nA, ?_, gA, ?_, gC⟩
  · rintro rfl
    have nC := nC rfl
    obtain ⟨a, ha⟩ := Option.ne_none_iff_exists'.1 (fun h => nA (List.getLast?_eq_none_iff.1 h))
    obtain ⟨c, hc⟩ := Option.ne_none_iff_exists'.1 (fun h => nC (List.head?_eq_none_iff.1 h))
    have ma := List.mem_of_getLast? ha
    rcases adjacent (by simpa using ch2) ha hc with h1 | h1
    · obtain ⟨g1, g2, -⟩ := gA a ma
      have h4 := (gC c (List.mem_of_mem_head? hc)).1
      rw [g1, h4] at h1
      linarith
    · exact stay a ma h1
  · intro x hx
    exact (inv x (List.mem_append_right _ (List.mem_append_left _ hx))).down
      (hD x (List.mem_append_left _ hx)) (hB x hx)

/-! ## Rates of the shipped tables -/

/-- Rates of climb and descent of at least 1.6 m/s. -/
def ratesOk (w : List WrapRow) : Bool :=
  [initclimbVs, climbVsPreConcas, climbVsConcas, climbVsConmach].all (entryIn w 16000 1000000) &&
  [descentVsConmach, descentVsConcas, descentVsPostConcas, finalappVs].all
    (entryIn w (-1000000) (-16000))

theorem shipped_rates : (availableAircraft shipped true).all (fun ac =>
    match Gen.init shipped ac () true with
    | .ok f => ratesOk f.wrap
    | .error _ => false) = true := by
  decide +kernel

theorem init_rates {G : Type} {ac : Str} (hac : ac ∈ availableAircraft shipped true) {seed : G}
    {f : FlightGen G} (hf : Gen.init shipped ac seed true = .ok f) : ratesOk f.wrap = true := by
  have := List.all_eq_true.1 shipped_rates ac hac
  unfold Gen.init at this hf
  simp only [bind, Except.bind, pure, Except.pure] at this hf
  rcases h1 : Registry.aircraft shipped ac true with e | a
  · rw [h1] at this; simp at this
  · rw [h1] at this hf
    rcases h2 : Construct.wrap shipped ac (some true) with e | w
    · rw [h2] at this; simp at this
    · rw [h2] at this hf
      injection hf with hf
      subst hf
      exact this

section
variable {G : Type} {R : Rng G}

theorem climb_rates {f : FlightGen G} (hw : ratesOk f.wrap = true) (hR : R.Unit) {kw : Kw}
    {P : ClimbParams} {g : G} (h : climbSetup R f kw = .ok (P, g)) :
    1.6 ≤ P.vsIc ∧ 1.6 ≤ P.vsPre ∧ 1.6 ≤ P.vsCas ∧ 1.6 ≤ P.vsMach ∧ P.hCr = P.alt * ft := by
  simp only [ratesOk, Bool.and_eq_true, List.all_cons, List.all_nil, Bool.and_true] at hw
  obtain ⟨⟨x1, x2, x3, x4⟩, -⟩ := hw
  obtain ⟨w1, e1, a1⟩ := entry_of x1
  obtain ⟨w2, e2, a2⟩ := entry_of x2
  obtain ⟨w3, e3, a3⟩ := entry_of x3
  obtain ⟨w4, e4, a4⟩ := entry_of x4
  have c : wreal 16000 = 1.6 := by unfold wreal; norm_num
  have p1 := wreal_le a1.2.1
  have p2 := wreal_le a2.2.1
  have p3 := wreal_le a3.2.1
  have p4 := wreal_le a4.2.1
  have u2 := fun g => (wreal_le a2.1).trans (uniform_mem hR a2.2.2.1 g).1
  have u3 := fun g => (wreal_le a3.1).trans (uniform_mem hR a3.2.2.1 g).1
  have u4 := fun g => (wreal_le a4.1).trans (uniform_mem hR a4.2.2.1 g).1
  rw [c] at p1 p2 p3 p4
  simp only [c] at u2 u3 u4
  unfold climbSetup at h
  simp only [bind, Except.bind, pure, Except.pure, e1, e2, e3, e4] at h
  repeat' split at h
  all_goals first
    | (cases h; done)
    | (cases h; exact ⟨p1, u2 _, u3 _, u4 _, rfl⟩)
    | (cases h; exact ⟨p1, p2, p3, p4, rfl⟩)

theorem descent_rates {f : FlightGen G} (hw : ratesOk f.wrap = true) (hR : R.Unit) {kw : Kw}
    {P : DescentParams} {g : G} (h : descentSetup R f kw = .ok (P, g)) :
    P.vsMach ≤ -1.6 ∧ P.vsCas ≤ -1.6 ∧ P.vsPost ≤ -1.6 ∧ P.vsFa ≤ -1.6 ∧ P.hCr = P.alt * ft ∧
      (∀ a, kw.altCr = some a → P.alt = roundHundreds a) ∧
      ∀ m, kw.machDe = some m → P.mach = m := by
  simp only [ratesOk, Bool.and_eq_true, List.all_cons, List.all_nil, Bool.and_true] at hw
  obtain ⟨-, x1, x2, x3, x4⟩ := hw
  obtain ⟨w1, e1, a1⟩ := entry_of x1
  obtain ⟨w2, e2, a2⟩ := entry_of x2
  obtain ⟨w3, e3, a3⟩ := entry_of x3
  obtain ⟨w4, e4, a4⟩ := entry_of x4
  have c : wreal (-16000) = -1.6 := by unfold wreal; norm_num
  have p1 := wreal_le a1.2.2.2.1
  have p2 := wreal_le a2.2.2.2.1
  have p3 := wreal_le a3.2.2.2.1
  have p4 := wreal_le a4.2.2.2.1
  have u1 := fun g => (uniform_mem hR a1.2.2.1 g).2.trans (wreal_le a1.2.2.2.2)
  have u2 := fun g => (uniform_mem hR a2.2.2.1 g).2.trans (wreal_le a2.2.2.2.2)
  have u3 := fun g => (uniform_mem hR a3.2.2.1 g).2.trans (wreal_le a3.2.2.2.2)
  rw [c] at p1 p2 p3 p4
  simp only [c] at u1 u2 u3
  unfold descentSetup at h
  simp only [bind, Except.bind, pure, Except.pure, e1, e2, e3, e4] at h
  repeat' split at h
  all_goals first
    | (cases h; done)
    | (cases h; exact ⟨u1 _, u2 _, u3 _, p4, rfl, fun a ha => by simp only [ha, Option.getD_some],
        fun a ha => by simp only [ha, Option.getD_some]⟩)
    | (cases h; exact ⟨p1, p2, p3, p4, rfl, fun a ha => by simp only [ha, Option.getD_some],
        fun a ha => by simp only [ha, Option.getD_some]⟩)

/-! ## The stages of a complete flight -/

/-- Columns of a row on the runway. -/
def RunwayRow (x : OutRow) : Prop := x.altitude = 0 ∧ x.verticalRate = 0

/-- Columns of a row at cruise. -/
def CruiseRow (x : OutRow) : Prop :=
  29500 ≤ x.altitude ∧ 410 ≤ x.groundspeed ∧ x.verticalRate = 0

theorem truncate_zero : truncate 0 = 0 := by simp [truncate]

theorem runway_row {x : OutRow} (h : OnGround x.toRow) (t s : ℝ) : RunwayRow (offset t s x) := by
  obtain ⟨h1, h2⟩ := h
  constructor
  · show truncate (x.h / ft) = 0
    rw [h1, zero_div, truncate_zero]
  · show truncate (x.vs / fpm) = 0
    rw [h2, zero_div, truncate_zero]

theorem cruise_row {x : OutRow} {a : ℝ} (ha : 29600 * ft ≤ a) (h : IsHigh a x.toRow) (t s : ℝ) :
    CruiseRow (offset t s x) := by
  obtain ⟨h1, h2, h3⟩ := h
  have hft : (0:ℝ) < ft := by unfold ft; norm_num
  have hk : (0:ℝ) < kts := by unfold kts; norm_num
  refine ⟨?_, ?_, ?_⟩
  · show 29500 ≤ truncate (x.h / ft)
    have h4 : 29600 ≤ x.h / ft := by
      rw [le_div_iff₀ hft]
      linarith
    have := truncate_nonneg (x := x.h / ft) (by linarith)
    have : (29500:ℝ) ≤ (truncate (x.h / ft) : ℤ) := by linarith
    exact_mod_cast this
  · show 410 ≤ truncate (x.v / kts)
    have h4 : 420 ≤ x.v / kts := by
      rw [le_div_iff₀ hk]
      unfold kts
      linarith
    have := truncate_nonneg (x := x.v / kts) (by linarith)
    have : (410:ℝ) ≤ (truncate (x.v / kts) : ℤ) := by linarith
    exact_mod_cast this
  · show truncate (x.vs / fpm) = 0
    rw [h1, zero_div, truncate_zero]

theorem up_row {x : OutRow} (h : 1.6 ≤ x.vs) (t s : ℝ) : 300 < (offset t s x).verticalRate := by
  show 300 < truncate (x.vs / fpm)
  have hf : (0:ℝ) < fpm := by unfold fpm; norm_num
  have h4 : 310 ≤ x.vs / fpm := by
    rw [le_div_iff₀ hf]
    unfold fpm
    linarith
  have := truncate_nonneg (x := x.vs / fpm) (by linarith)
  have : (300:ℝ) < (truncate (x.vs / fpm) : ℤ) := by linarith
  exact_mod_cast this

theorem down_row {x : OutRow} (h : x.vs ≤ -1.6) (t s : ℝ) :
    (offset t s x).verticalRate < -300 := by
  show truncate (x.vs / fpm) < -300
  have hf : (0:ℝ) < fpm := by unfold fpm; norm_num
  have h4 : x.vs / fpm ≤ -310 := by
    rw [div_le_iff₀ hf]
    unfold fpm
    linarith
  unfold truncate
  rw [if_neg (by linarith)]
  have := Int.ceil_lt_add_one (x.vs / fpm)
  have : ((⌈x.vs / fpm⌉ : ℤ) : ℝ) < (-300 : ℤ) := by push_cast; linarith
  exact_mod_cast this

/-- **C144, stages.** For every offered type code, without noise, with the table's cruise Mach
number and altitude, random or not: a complete flight is a part on the runway, a part climbing
faster than 300 ft/min, a part level at 29500 ft or more and 410 kt or more, a part descending
faster than 300 ft/min and a part on the runway, in this order; only the last may be empty. -/
theorem C144_stages {ac : Str} (hac : ac ∈ availableAircraft shipped true) (seed : G)
    (hR : R.Unit) :
    ∃ f, Gen.init shipped ac seed true = .ok f ∧
      ∀ (g : G) (kw : Kw), kw.Sensible → kw.machCr = none → kw.altCr = none →
        (∀ c, kw.casCl = some c → 190 ≤ c) →
        ∀ rows f', CompleteReturns R { f with rng := g } kw rows f' →
          ∃ A B C D E, rows = A ++ (B ++ (C ++ (D ++ E))) ∧
            A ≠ [] ∧ B ≠ [] ∧ C ≠ [] ∧ D ≠ [] ∧
            (∀ x ∈ A, RunwayRow x) ∧ (∀ x ∈ B, 300 < x.verticalRate) ∧ (∀ x ∈ C, CruiseRow x) ∧
            (∀ x ∈ D, x.verticalRate < -300) ∧ ∀ x ∈ E, RunwayRow x := by
  obtain ⟨f, h1, hw, hn, -⟩ := init_shipped hac seed
  obtain ⟨f0, h1', w1, w2, -⟩ := init_cruise hac seed
  rw [h1] at h1'
  cases h1'
  have hrt := init_rates hac h1
  refine ⟨f, h1, ?_⟩
  intro g kw hk km ka hc rows f' hret
  obtain ⟨hmc, hmd, cr, f1, cl, f2, de, hcr, hcl, hde, rfl⟩ := completeReturns_iff.1 hret
  obtain ⟨P, g0, hs, q1, q2, q3⟩ := cruiseSetup_ok (R := R) (f := { f with rng := g }) hw hR hk
  obtain ⟨p1, p2, p3⟩ := cruise_params (f := { f with rng := g }) w1 w2 hR km ka hs
  have hft : (0:ℝ) < ft := by unfold ft; norm_num
  obtain ⟨ss, d2, er, ep, ew, en⟩ : ∃ ss, Trace (cruiseBody P) (cruiseInit P) ss ∧
      cr.rows = ss.map derive ∧ cr.params = P ∧ f1.wrap = f.wrap ∧ f1.noise = false := by
    obtain ⟨P', g', ss, d1, d2, rfl, rfl⟩ := cruiseReturns_iff.1 hcr
    rw [hs] at d1
    obtain ⟨rfl, rfl⟩ : P = P' ∧ g0 = g' := by simpa using d1
    exact ⟨ss, d2, by rw [addNoise_off hn], rfl, rfl, hn⟩
  rw [ep] at hcl hde
  have pa : (passAlt kw P.alt).altCr = some P.alt := by
    unfold passAlt
    rw [ka]
    rfl
  have pc : (passAlt kw P.alt).casCl = kw.casCl := by
    unfold passAlt; split_ifs <;> rfl
  have near := (abs_le.1 (round_near P.alt)).1
  have hk1 := sensible_climb hk (a := P.alt) (m := P.mach) q3 q2
  have hk2 := sensible_descent hk (a := P.alt) (m := P.mach) q3 q2
  -- climb
  obtain ⟨P1, g1, hs1, hP1, -, -, a1, a2, a3, a4, -, a6, a7⟩ := climbSetup_ok (R := R)
    (f := f1) (by rw [ew]; exact hw) hR hk1.dt hk1.machCl
  obtain ⟨b1, b2, b3, b4, b5⟩ := climb_rates (by rw [ew]; exact hrt) hR hs1
  have a6 : P1.mach = P.mach := a6 _ rfl
  have a7 := a7 P.alt pa
  have hcas : (1 + 1e-8) * P1.vTof ≤ P1.vcas := by
    have : 97.7 ≤ P1.vcas := by
      rcases h : kw.casCl with _ | c
      · linarith [a3 (pc.trans h)]
      · linarith [a4 c (pc.trans h), hc c h]
    linarith
  have top1 : 29600 * ft ≤ P1.hCr := by
    rw [b5, a7]
    exact mul_le_mul_of_nonneg_right (by linarith) hft.le
  obtain ⟨ss1, d4, er1, ew2, en2⟩ : ∃ ss, Trace (climbBody P1) climbInit ss ∧
      cl.rows = (ss.map ClimbState.toRow).map derive ∧ f2.wrap = f.wrap ∧ f2.noise = false := by
    obtain ⟨P', g', ss, d1, d2, rfl, rfl⟩ := climbReturns_iff.1 hcl
    rw [hs1] at d1
    obtain ⟨rfl, rfl⟩ : P1 = P' ∧ g1 = g' := by simpa using d1
    exact ⟨ss, d2, by rw [addNoise_off en], ew, en⟩
  obtain ⟨A, B, C1, s1, nA, nB, sA, sB, sC1⟩ := climb_stages hP1 (by linarith) hcas
    (by rw [a6]; linarith) (by rw [a6]; exact p1) b1 b2 b3 b4 (by nlinarith) d4
  -- descent
  obtain ⟨P2, g2, hs2, hP2, -⟩ := descentSetup_ok (R := R) (f := f2) (by rw [ew2]; exact hw) hR hk2
  obtain ⟨c1, c2, c3, c4, c5, c6, c7⟩ := descent_rates (by rw [ew2]; exact hrt) hR hs2
  have c6 := c6 P.alt pa
  have c7 : P2.mach = P.mach := c7 _ rfl
  have top2 : 29600 * ft ≤ P2.hCr := by
    rw [c5, c6]
    exact mul_le_mul_of_nonneg_right (by linarith) hft.le
  obtain ⟨ss2, d6, er2⟩ : ∃ ss, Trace (descentBody P2) (descentInit P2) ss ∧
      de.rows = ss.map derive := by
    obtain ⟨P', g', ss, d1, d2, rfl, rfl⟩ := descentReturns_iff.1 hde
    rw [hs2] at d1
    obtain ⟨rfl, rfl⟩ : P2 = P' ∧ g2 = g' := by simpa using d1
    exact ⟨ss, d2, by rw [addNoise_off en2]⟩
  obtain ⟨C3, D, E, rfl, nC, nD, sC3, sD, sE⟩ := descent_stages hP2 (by rw [c7]; exact p1)
    c1 c2 c3 c4 (by nlinarith) d6
  -- cruise
  have sC2 : ∀ x ∈ ss, IsHigh P.hCr x := by
    intro x hm
    obtain ⟨q1, q2, q3⟩ := cruise_trace_const d2 x hm
    refine ⟨q3, (show x.h = P.hCr from q2).ge, ?_⟩
    have q1 : x.v = mach2tas np P.mach P.hCr 0 := q1
    rw [q1]
    have := vsound_lower P.hCr
    show _ ≤ P.mach * vsound np P.hCr 0
    nlinarith
  have top : 29600 * ft ≤ P.hCr := by
    rw [p3]
    exact mul_le_mul_of_nonneg_right (by linarith) hft.le
  unfold joinParts
  rw [er, er1, er2, s1]
  generalize lastT _ = t1
  generalize lastT _ = t2
  generalize lastS _ = u1
  generalize lastS _ = u2
  refine ⟨A.map fun x => offset 0 0 (derive x), B.map fun x => offset 0 0 (derive x),
    (C1.map fun x => offset 0 0 (derive x)) ++ ((ss.map fun x => offset t1 u1 (derive x)) ++
      C3.map fun x => offset (t1 + t2) (u1 + u2) (derive x)),
    D.map fun x => offset (t1 + t2) (u1 + u2) (derive x),
    E.map fun x => offset (t1 + t2) (u1 + u2) (derive x), ?_, by simpa using nA,
    by simpa using nB, by simp [nC], by simpa using nD, ?_, ?_, ?_, ?_, ?_⟩
  · simp [List.map_append, Function.comp_def]
  · intro x hx
    obtain ⟨y, hy, rfl⟩ := List.mem_map.1 hx
    exact runway_row (x := derive y) (sA y hy) _ _
  · intro x hx
    obtain ⟨y, hy, rfl⟩ := List.mem_map.1 hx
    exact up_row (x := derive y) (sB y hy) _ _
  · intro x hx
    rcases List.mem_append.1 hx with hx | hx
    · obtain ⟨y, hy, rfl⟩ := List.mem_map.1 hx
      exact cruise_row (x := derive y) top1 (sC1 y hy) _ _
    · rcases List.mem_append.1 hx with hx | hx
      · obtain ⟨y, hy, rfl⟩ := List.mem_map.1 hx
        exact cruise_row (x := derive y) top (sC2 y hy) _ _
      · obtain ⟨y, hy, rfl⟩ := List.mem_map.1 hx
        exact cruise_row (x := derive y) top2 (sC3 y hy) _ _
  · intro x hx
    obtain ⟨y, hy, rfl⟩ := List.mem_map.1 hx
    exact down_row (x := derive y) (sD y hy) _ _
  · intro x hx
    obtain ⟨y, hy, rfl⟩ := List.mem_map.1 hx
    exact runway_row (x := derive y) (sE y hy) _ _

/-! ## The labels of a complete flight -/

open Verif.Phase Verif.PhaseSpec

/-- Every row in the time window of row `i` has an index from `lo` up to but not including
`hi`. -/
def WindowWithin (rows : List OutRow) (d : ℝ) (i lo hi : ℕ) : Prop :=
  ∀ (j : ℕ) (x y : OutRow), rows[i]? = some x → rows[j]? = some y → ⌊y.t / d⌋ = ⌊x.t / d⌋ →
    lo ≤ j ∧ j < hi

/-- Row `i` is not in the time window of the last row. -/
def BeforeLast (rows : List OutRow) (d : ℝ) (i : ℕ) : Prop :=
  ∃ x z, rows[i]? = some x ∧ rows.getLast? = some z ∧ ⌊x.t / d⌋ < ⌊z.t / d⌋

/-- Every row in the time window of row `i` satisfies `p`. -/
def WindowAll (rows : List OutRow) (d : ℝ) (i : ℕ) (p : OutRow → Prop) : Prop :=
  ∀ (j : ℕ) (x y : OutRow), rows[i]? = some x → rows[j]? = some y → ⌊y.t / d⌋ = ⌊x.t / d⌋ → p y

theorem block_mem {X Y Z : List OutRow} {j : ℕ} {y : OutRow} (h : (X ++ (Y ++ Z))[j]? = some y)
    (h1 : X.length ≤ j) (h2 : j < X.length + Y.length) : y ∈ Y := by
  rw [List.getElem?_append_right h1, List.getElem?_append_left (by omega)] at h
  exact List.mem_of_getElem? h

/-- **C144, labels.** In such a flight, with time steps of at most 300 s, and for windows of any
length: a time window other than the last is labelled CL if it lies in the climbing part, CR if it
lies in the cruising part and DE if it lies in the descending part; in the parts on the runway it is
labelled GND if all speeds in it are below 100 kt and LVL if all are from 100 to 300 kt. -/
theorem C144_labels {ac : Str} (hac : ac ∈ availableAircraft shipped true) (seed : G)
    (hR : R.Unit) :
    ∃ f, Gen.init shipped ac seed true = .ok f ∧
      ∀ (g : G) (kw : Kw), kw.Sensible → kw.machCr = none → kw.altCr = none →
        (∀ c, kw.casCl = some c → 190 ≤ c) → (∀ d, kw.dt = some d → d ≤ 300) →
        ∀ rows f', CompleteReturns R { f with rng := g } kw rows f' →
          ∃ A B C D E, rows = A ++ (B ++ (C ++ (D ++ E))) ∧
            A ≠ [] ∧ B ≠ [] ∧ C ≠ [] ∧ D ≠ [] ∧
            (∀ x ∈ A, RunwayRow x) ∧ (∀ x ∈ B, 300 < x.verticalRate) ∧ (∀ x ∈ C, CruiseRow x) ∧
            (∀ x ∈ D, x.verticalRate < -300) ∧ (∀ x ∈ E, RunwayRow x) ∧
            ∀ (o : Obj) (d : ℝ), 0 < d → ∃ o' labels,
              setTrajectory o (rows.map fun x => x.t) (rows.map fun x => .val x.altitude)
                (rows.map fun x => .val x.groundspeed)
                (rows.map fun x => .val x.verticalRate) = (.ok (), o') ∧
              phaselabel o' d = .ok labels ∧ labels.length = rows.length ∧
              ∀ (i : ℕ), BeforeLast rows d i →
                (WindowWithin rows d i A.length (A.length + B.length) →
                  labels[i]? = some .CL) ∧
                (WindowWithin rows d i (A.length + B.length)
                  (A.length + B.length + C.length) → labels[i]? = some .CR) ∧
                (WindowWithin rows d i (A.length + B.length + C.length)
                  (A.length + B.length + C.length + D.length) → labels[i]? = some .DE) ∧
                (WindowWithin rows d i 0 A.length ∨
                  WindowWithin rows d i (A.length + B.length + C.length + D.length)
                    (A.length + B.length + C.length + D.length + E.length) →
                  (WindowAll rows d i (fun x => x.groundspeed < 100) → labels[i]? = some .GND) ∧
                  (WindowAll rows d i (fun x => 100 ≤ x.groundspeed ∧ x.groundspeed ≤ 300) →
                    labels[i]? = some .LVL)) := by
  obtain ⟨f, h1, hst⟩ := C144_stages (R := R) hac seed hR
  obtain ⟨f0, h1', hco⟩ := C56_complete_continuous (R := R) ac hac seed hR
  rw [h1] at h1'
  cases h1'
  refine ⟨f, h1, ?_⟩
  intro g kw hk km ka hc hdt rows f' hret
  obtain ⟨A, B, C, D, E, er, nA, nB, nC, nD, sA, sB, sC, sD, sE⟩ :=
    hst g kw hk km ka hc rows f' hret
  obtain ⟨fw, ⟨x0, hx0, t0, -, -⟩, -⟩ := hco g kw hk hdt rows f' hret
  refine ⟨A, B, C, D, E, er, nA, nB, nC, nD, sA, sB, sC, sD, sE, ?_⟩
  intro o d hd
  have hne : rows ≠ [] := by rintro rfl; cases hx0
  have hlen : 0 < rows.length := List.length_pos_of_ne_nil hne
  obtain ⟨o', hset⟩ : ∃ o', setTrajectory o (rows.map fun x => x.t)
      (rows.map fun x => .val x.altitude) (rows.map fun x => .val x.groundspeed)
      (rows.map fun x => .val x.verticalRate) = (.ok (), o') := by
    clear er
    cases rows with
    | nil => exact absurd rfl hne
    | cons x l => exact ⟨_, by simp only [setTrajectory, List.map_cons]; rw [if_pos (by simp)]⟩
  have hs : (rows.map fun x => x.t).Pairwise (· ≤ ·) := by
    rw [← List.isChain_iff_pairwise, List.isChain_map]
    exact fw.imp fun _ _ h => h.1
  obtain ⟨labels, hl, hn⟩ := C58_one_label_per_sample hset hd hs
  rw [List.length_map] at hn
  refine ⟨o', labels, hset, hl, hn, ?_⟩
  have hw : ∀ (j : ℕ) (y : OutRow), rows[j]? = some y →
      window (rows.map fun x => x.t) d j = ⌊y.t / d⌋ := by
    intro j y hy
    unfold window
    rw [List.getD_eq_getElem?_getD, List.getElem?_map, hy, List.getD_eq_getElem?_getD,
      List.getElem?_map, ← List.head?_eq_getElem?, hx0]
    simp [t0]
  rintro i ⟨x, z, hx, hz, hlt⟩
  have hi : i < rows.length := (List.getElem?_eq_some_iff.1 hx).1
  have hi' : i < (rows.map fun x => x.t).length := by simpa using hi
  have hb : window (rows.map fun x => x.t) d i <
      window (rows.map fun x => x.t) d ((rows.map fun x => x.t).length - 1) := by
    rw [List.length_map, hw i x hx, hw (rows.length - 1) z (by
      rw [← List.getLast?_eq_getElem?]; exact hz)]
    exact hlt
  have col : ∀ j < (rows.map fun x => x.t).length,
      window (rows.map fun x => x.t) d j = window (rows.map fun x => x.t) d i →
      ∃ y, rows[j]? = some y ∧ ⌊y.t / d⌋ = ⌊x.t / d⌋ := by
    intro j hj hwj
    rw [List.length_map] at hj
    refine ⟨rows[j], List.getElem?_eq_getElem hj, ?_⟩
    rw [← hw j _ (List.getElem?_eq_getElem hj), hwj, hw i x hx]
  refine ⟨?_, ?_, ?_, ?_⟩
  · intro hin
    refine C137_climb hset hd hs hl hi' hb ?_ ?_
    · intro j hj hwj
      obtain ⟨y, hy, -⟩ := col j hj hwj
      exact ⟨_, by rw [List.getElem?_map, hy]; rfl⟩
    · intro j hj hwj
      obtain ⟨y, hy, e⟩ := col j hj hwj
      obtain ⟨l1, l2⟩ := hin j x y hx hy e
      refine ⟨_, by rw [List.getElem?_map, hy]; rfl, ?_⟩
      rw [er] at hy
      exact_mod_cast sB y (block_mem hy l1 l2)
  · intro hin
    have key : ∀ j < (rows.map fun x => x.t).length,
        window (rows.map fun x => x.t) d j = window (rows.map fun x => x.t) d i →
        ∃ y, rows[j]? = some y ∧ CruiseRow y := by
      intro j hj hwj
      obtain ⟨y, hy, e⟩ := col j hj hwj
      obtain ⟨l1, l2⟩ := hin j x y hx hy e
      refine ⟨y, hy, ?_⟩
      rw [er, ← List.append_assoc] at hy
      exact sC y (block_mem hy (by simpa using l1) (by simpa using l2))
    refine C137_cruise hset hd hs hl hi' hb ?_ ?_ ?_
    · intro j hj hwj
      obtain ⟨y, hy, h1, h2, h3⟩ := key j hj hwj
      exact ⟨_, by rw [List.getElem?_map, hy]; rfl, by exact_mod_cast h1⟩
    · intro j hj hwj
      obtain ⟨y, hy, h1, h2, h3⟩ := key j hj hwj
      exact ⟨_, by rw [List.getElem?_map, hy]; rfl, by exact_mod_cast h2⟩
    · intro j hj hwj
      obtain ⟨y, hy, h1, h2, h3⟩ := key j hj hwj
      refine ⟨_, by rw [List.getElem?_map, hy]; rfl, ?_⟩
      rw [h3]
      norm_num
  · intro hin
    refine C137_descent hset hd hs hl hi' hb ?_ ?_
    · intro j hj hwj
      obtain ⟨y, hy, -⟩ := col j hj hwj
      exact ⟨_, by rw [List.getElem?_map, hy]; rfl⟩
    · intro j hj hwj
      obtain ⟨y, hy, e⟩ := col j hj hwj
      obtain ⟨l1, l2⟩ := hin j x y hx hy e
      refine ⟨_, by rw [List.getElem?_map, hy]; rfl, ?_⟩
      rw [er, ← List.append_assoc, ← List.append_assoc] at hy
      have := sD y (block_mem hy (by simpa [← add_assoc] using l1)
        (by simpa [← add_assoc] using l2))
      exact_mod_cast this
  · intro hin
    have key : ∀ j < (rows.map fun x => x.t).length,
        window (rows.map fun x => x.t) d j = window (rows.map fun x => x.t) d i →
        ∃ y, rows[j]? = some y ∧ ⌊y.t / d⌋ = ⌊x.t / d⌋ ∧ RunwayRow y := by
      intro j hj hwj
      obtain ⟨y, hy, e⟩ := col j hj hwj
      refine ⟨y, hy, e, ?_⟩
      rcases hin with hin | hin
      · obtain ⟨-, l2⟩ := hin j x y hx hy e
        rw [er, List.getElem?_append_left l2] at hy
        exact sA y (List.mem_of_getElem? hy)
      · obtain ⟨l1, l2⟩ := hin j x y hx hy e
        rw [er, ← List.append_assoc, ← List.append_assoc, ← List.append_assoc,
          List.getElem?_append_right (by simpa [← add_assoc] using l1)] at hy
        exact sE y (List.mem_of_getElem? hy)
    obtain ⟨r1, r2⟩ := C137_runway hset hd hs hl hi' hb
      (fun j hj hwj => by
        obtain ⟨y, hy, -, h1, h2⟩ := key j hj hwj
        exact ⟨_, by rw [List.getElem?_map, hy]; rfl, by rw [h1]; norm_num⟩)
      (fun j hj hwj => by
        obtain ⟨y, hy, -, h1, h2⟩ := key j hj hwj
        exact ⟨_, by rw [List.getElem?_map, hy]; rfl, by rw [h2]; norm_num⟩)
    constructor
    · intro ha
      refine r1 fun j hj hwj => ?_
      obtain ⟨y, hy, e, -⟩ := key j hj hwj
      exact ⟨_, by rw [List.getElem?_map, hy]; rfl, by exact_mod_cast ha j x y hx hy e⟩
    · intro ha
      refine r2 fun j hj hwj => ?_
      obtain ⟨y, hy, e, -⟩ := key j hj hwj
      have := ha j x y hx hy e
      exact ⟨_, by rw [List.getElem?_map, hy]; rfl, by exact_mod_cast this.1,
        by exact_mod_cast this.2⟩

/-- Such flights exist: for every offered type code `complete()` returns. -/
example {ac : Str} (hac : ac ∈ availableAircraft shipped true) (seed : G) (hR : R.Unit) :
    ∃ f rows f', Gen.init shipped ac seed true = .ok f ∧ CompleteReturns R f { } rows f' := by
  obtain ⟨f, h1, h⟩ := C55_complete_arguments (R := R) ac hac seed hR
  obtain ⟨rows, f', hr⟩ := (h f (.inl rfl) f.rng { }
    ⟨by simp, by simp, by simp, by simp, by simp, by simp⟩).1.2 ⟨rfl, rfl⟩
  exact ⟨f, rows, f', h1, hr⟩

end

end Verif.Props
