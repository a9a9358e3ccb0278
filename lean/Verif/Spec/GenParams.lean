import Verif.Model.Gen

/-!
# The constants of a generated flight

How the entries of a WRAP table, the keyword arguments and the random stream decide them.
-/

namespace Verif.Gen
open Verif Verif.Tables

/-- `r` is the first row of the table for the named variable. -/
def Entry (w : List WrapRow) (name : String) (r : WrapRow) : Prop :=
  ∃ before after, w = before ++ r :: after ∧ r.var = name.toList.map Char.toNat ∧
    ∀ q ∈ before, q.var ≠ name.toList.map Char.toNat

/-- `x` is the value of the variable for a draw `u` of the unit interval: its default without a
draw, the point of its range at that fraction with one. Table entries are in ten-thousandths. -/
def Value (w : List WrapRow) (name : String) (u : Option ℝ) (x : ℝ) : Prop :=
  ∃ r, Entry w name r ∧
    (u = none → x = r.opt / 10000) ∧
    ∀ a, u = some a → x = r.min / 10000 + (r.max / 10000 - r.min / 10000) * a

/-- `x` is the given argument, or `auto` when none is given. -/
def Chosen (given : Option ℝ) (auto x : ℝ) : Prop :=
  (∀ a, given = some a → x = a) ∧ (given = none → x = auto)

/-- `x` is the multiple of 100 nearest to `a`; of two equally near, the multiple of 200. -/
def NearestHundred (a x : ℝ) : Prop :=
  (∃ k : ℤ, x = 100 * k) ∧ |x - a| ≤ 50 ∧ (|x - a| = 50 → ∃ k : ℤ, x = 200 * k)

section
variable {G : Type} (R : Rng G)

/-- The stream after `k` draws from the unit interval. -/
def after (g : G) (k : ℕ) : G := (fun y => (R.unit y).2)^[k] g

/-- The `k`-th draw (counting from zero) of a call with `random` on, none with it off. -/
noncomputable def drawn (f : FlightGen G) (kw : Kw) (k : ℕ) : Option ℝ :=
  if kw.random = some true then some (R.unit (after R f.rng k)).1 else none

/-- The constants of a climb. -/
structure ClimbConstants (f : FlightGen G) (kw : Kw) (P : ClimbParams) : Prop where
  dt : Chosen kw.dt 1 P.dt
  aTof : Value f.wrap "to_acc_tof" none P.aTof
  vTof : Value f.wrap "to_v_lof" none P.vTof
  vsIc : Value f.wrap "ic_vs_avg" none P.vsIc
  hCas : ∃ x, Value f.wrap "cl_h_cas_const" none x ∧ P.hCas = x * 1000
  cas : ∃ x c, Value f.wrap "cl_v_cas_const" (drawn R f kw 0) x ∧ Chosen kw.casCl (x / 0.514444) c ∧
    (kw.random = some true → P.cas = c) ∧
    (kw.random ≠ some true → P.cas = max c (P.vTof / 0.514444))
  mach : ∃ x, Value f.wrap "cl_v_mach_const" (drawn R f kw 1) x ∧ Chosen kw.machCl x P.mach
  alt : ∃ x a, Value f.wrap "cr_h_mean" (drawn R f kw 2) x ∧
    Chosen kw.altCr (x * 1000 / 0.3048) a ∧ NearestHundred a P.alt
  vsPre : Value f.wrap "cl_vs_avg_pre_cas" (drawn R f kw 3) P.vsPre
  vsCas : Value f.wrap "cl_vs_avg_cas_const" (drawn R f kw 4) P.vsCas
  vsMach : Value f.wrap "cl_vs_avg_mach_const" (drawn R f kw 5) P.vsMach
  vcas : P.vcas = P.cas * 0.514444
  hCr : P.hCr = P.alt * 0.3048
  hMach : P.hMach = Aero.crossoverAlt np P.vcas P.mach 0

/-- The constants of a descent. -/
structure DescentConstants (f : FlightGen G) (kw : Kw) (P : DescentParams) : Prop where
  dt : Chosen kw.dt 1 P.dt
  withcr : P.withcr = false ↔ kw.withcr = some false
  aLnd : Value f.wrap "ld_acc_brk" none P.aLnd
  vApp : Value f.wrap "fa_va_avg" none P.vApp
  vsFa : Value f.wrap "fa_vs_avg" none P.vsFa
  hCas : ∃ x, Value f.wrap "de_h_cas_const" none x ∧ P.hCas = x * 1000
  alt : ∃ x a, Value f.wrap "cr_h_mean" (drawn R f kw 0) x ∧
    Chosen kw.altCr (x * 1000 / 0.3048) a ∧ NearestHundred a P.alt
  mach : ∃ x, Value f.wrap "de_v_mach_const" (drawn R f kw 1) x ∧ Chosen kw.machDe x P.mach
  cas : ∃ x, Value f.wrap "de_v_cas_const" (drawn R f kw 2) x ∧
    Chosen kw.casDe (x / 0.514444) P.cas
  vsMach : Value f.wrap "de_vs_avg_mach_const" (drawn R f kw 3) P.vsMach
  vsCas : Value f.wrap "de_vs_avg_cas_const" (drawn R f kw 4) P.vsCas
  vsPost : Value f.wrap "de_vs_avg_after_cas" (drawn R f kw 5) P.vsPost
  vcas : P.vcas = P.cas * 0.514444
  hCr : P.hCr = P.alt * 0.3048
  hMach : P.hMach = Aero.crossoverAlt np P.vcas P.mach 0

/-- The constants of a cruise. -/
structure CruiseConstants (f : FlightGen G) (kw : Kw) (P : CruiseParams) : Prop where
  dt : Chosen kw.dt 1 P.dt
  distance : ∃ x, Value f.wrap "cr_d_range" (drawn R f kw 0) x ∧
    Chosen kw.rangeCr (x * 1000) P.distance
  alt : ∃ x a, Value f.wrap "cr_h_mean" (drawn R f kw 1) x ∧
    Chosen kw.altCr (x * 1000 / 0.3048) a ∧ NearestHundred a P.alt
  mach : ∃ x, Value f.wrap "cr_v_mach_mean" (drawn R f kw 2) x ∧ Chosen kw.machCr x P.mach
  hCr : P.hCr = P.alt * 0.3048

end
end Verif.Gen
