import Verif.Prelude.Backend
import Mathlib.Algebra.Order.Floor.Ring
import Mathlib.Algebra.Order.BigOperators.Group.Finset

/-!
# Flight phases: what is asked of the labelling

Membership curves in closed form, linear interpolation on a regular grid, and "the strongest phase
wins".
-/

namespace Verif.PhaseSpec
open Verif

/-- The bell curve with centre `m` and width `s`. -/
noncomputable def bell (m s x : ℝ) : ℝ := Real.exp (-(((x - m) / s) ^ 2 / 2))

/-- The smooth step from 0 at `a` to 1 at `b`, made of two parabolas. -/
noncomputable def rise (a b x : ℝ) : ℝ :=
  if x ≤ a then 0
  else if b ≤ x then 1
  else if x ≤ (a + b) / 2 then 2 * ((x - a) / (b - a)) ^ 2
  else 1 - 2 * ((b - x) / (b - a)) ^ 2

/-- The mirrored step from 1 at `a` to 0 at `b`. -/
noncomputable def fall (a b x : ℝ) : ℝ := 1 - rise a b x

/-- Linear interpolation of `f` between the multiples of `d`. -/
noncomputable def between (d : ℝ) (f : ℝ → ℝ) (x : ℝ) : ℝ :=
  (1 - Int.fract (x / d)) * f (⌊x / d⌋ * d) + Int.fract (x / d) * f ((⌊x / d⌋ + 1) * d)

/-- The phases, in the order used to break ties. -/
inductive Phase where
  | ground | climb | descent | cruise | level
  deriving DecidableEq

/-- Position of a phase in the order. -/
def Phase.rank : Phase → ℕ
  | .ground => 0
  | .climb => 1
  | .descent => 2
  | .cruise => 3
  | .level => 4

/-- Membership of an altitude (ft), limited to 0..39999. -/
noncomputable def altDegree (p : Phase) (h : ℝ) : ℝ :=
  between 1 (match p with
    | .ground => fall 0 200
    | .cruise => bell 35000 20000
    | _ => bell 10000 10000) (max (min h 39999) 0)

/-- Membership of a speed (kt), limited to 0..599. -/
noncomputable def spdDegree (p : Phase) (v : ℝ) : ℝ :=
  between 1 (match p with
    | .ground => bell 0 50
    | .cruise => bell 600 100
    | _ => bell 300 100) (max (min v 599) 0)

/-- Membership of a rate of climb (ft/min), limited to -4000..3999.9. -/
noncomputable def rocDegree (p : Phase) (w : ℝ) : ℝ :=
  between 0.1 (match p with
    | .climb => rise 10 1000
    | .descent => fall (-1000) (-10)
    | _ => bell 0 100) (max (min w 3999.9) (-4000))

/-- Degree of a possibly missing quantity: a missing one counts as full membership. -/
def orFull (f : ℝ → ℝ) : NR → ℝ
  | .val x => f x
  | .nan => 1

/-- Strength of a phase. A missing altitude makes every phase fully applicable; a missing speed or
rate of climb is left out of the comparison. -/
noncomputable def strength (alt spd roc : NR) (p : Phase) : ℝ :=
  match alt with
  | .nan => 1
  | .val h => min (altDegree p h) (min (orFull (rocDegree p) roc) (orFull (spdDegree p) spd))

/-- `p` is the strongest phase; of equally strong ones, the last. -/
def Strongest (s : Phase → ℝ) (p : Phase) : Prop :=
  ∀ q, s q ≤ s p ∧ (p.rank < q.rank → s q < s p)

/-- Time window of sample `i`: whole windows of length `d` since the first sample. -/
noncomputable def window (ts : List ℝ) (d : ℝ) (i : ℕ) : ℤ := ⌊(ts.getD i 0 - ts.getD 0 0) / d⌋

/-- The samples of window `w`. -/
noncomputable def members (ts : List ℝ) (d : ℝ) (w : ℤ) : Finset ℕ :=
  (Finset.range ts.length).filter fun i => window ts d i = w

/-- The number in a possibly missing value. -/
def number : NR → ℝ
  | .val x => x
  | .nan => 0

open Classical in
/-- Mean of `data` over a set of samples; missing as soon as one value is missing. -/
noncomputable def mean (data : List NR) (s : Finset ℕ) : NR :=
  if ∃ i ∈ s, data.getD i .nan = .nan then .nan
  else .val ((∑ i ∈ s, number (data.getD i .nan)) / s.card)

/-- The strongest phase of window `w`. -/
def WindowPhase (ts : List ℝ) (alt spd roc : List NR) (d : ℝ) (w : ℤ) (p : Phase) : Prop :=
  Strongest (strength (mean alt (members ts d w)) (mean spd (members ts d w))
    (mean roc (members ts d w))) p

end Verif.PhaseSpec
