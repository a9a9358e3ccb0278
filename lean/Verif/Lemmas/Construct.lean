import Verif.Data.Shipped
import Verif.Model.Construct
import Verif.Lemmas.DefinedPerf
import Verif.Lemmas.Fuel
import Verif.Lemmas.Emission

namespace Verif.Construct
open Verif.Tables Verif.Registry Verif.Data

/-- Table-level form of "usable numbers". -/
def usable (p : FuelParts) : Bool :=
  p.thrust.1 = p.ac && p.thrust.2 = p.eng && p.drag.1 = p.ac &&
  -- engine and aircraft numbers
  p.eng.bpr.isSome && 0 < p.eng.maxThrust.getD 0 && 0 < p.ac.number && 0 < p.ac.mach &&
  (p.eng.cruiseMach.getD 0 = 0 || 0 < p.eng.cruiseThrust.getD 0) &&
  100000000000000000000 ≤ p.ac.height && p.ac.height ≤ 150000000000000000000 &&
  -- airframe and polar
  0 < p.ac.area && 0 < p.ac.span && 0 < p.ac.mtow && p.ac.sweep < 900000000000000000 &&
  0 < p.ac.tc.getD 1 &&
  0 < p.drag.2.cd0 && 0 < p.drag.2.k && 0 < p.drag.2.lambdaF && 0 < p.drag.2.cfc &&
  0 < p.drag.2.sfs &&
  -- fuel model
  0 < p.model.1.c1 && 0 < p.model.1.c2 && 0 < p.model.1.c3 &&
  (match p.model.2 with
    | none => true
    | some (n, none) => 0 < n
    | some (n, some d) => 0 < n && 0 < d) &&
  -- emission table
  0 < p.eng.ff.idl && p.eng.ff.idl < p.eng.ff.app && p.eng.ff.app < p.eng.ff.cout &&
  p.eng.ff.cout < p.eng.ff.toff

/-- Every constructor succeeds on the same records, and the numbers are usable. -/
def check (db : DB) (ac : Str) : Bool :=
  match fuel db ac none (some true) false, thrust db ac none (some true) false, drag db ac (some true),
    wrap db ac (some true), emission db ac none (some true) with
  | .ok p, .ok t, .ok d, .ok w, .ok m =>
    decide (t = p.thrust) && decide (d = p.drag) && decide (w = p.wrap) &&
      decide (m = (p.ac, p.eng)) && usable p
  | _, _, _, _, _ => false

theorem check_shipped : (availableAircraft shipped true).all (check shipped) = true := by
  decide +kernel

theorem check_spec {db : DB} {ac : Str} (h : check db ac = true) :
    ∃ p, fuel db ac none (some true) false = .ok p ∧ thrust db ac none (some true) false = .ok p.thrust ∧
      drag db ac (some true) = .ok p.drag ∧ wrap db ac (some true) = .ok p.wrap ∧
      emission db ac none (some true) = .ok (p.ac, p.eng) ∧ usable p = true := by
  unfold check at h
  split at h
  · next p t d w m h1 h2 h3 h4 h5 =>
    simp only [Bool.and_eq_true, decide_eq_true_eq] at h
    obtain ⟨⟨⟨⟨a, b⟩, c⟩, e⟩, g⟩ := h
    exact ⟨p, h1, a ▸ h2, b ▸ h3, c ▸ h4, e ▸ h5, g⟩
  · simp at h

theorem real_pos {n : ℕ} (h : 0 < n) : 0 < real n := by
  have : (0:ℝ) < n := by exact_mod_cast h
  unfold real; positivity

theorem real_lt {m n : ℕ} (h : m < n) : real m < real n := by
  have : (m:ℝ) < n := by exact_mod_cast h
  unfold real; gcongr

theorem real_nonneg (n : ℕ) : 0 ≤ real n := by unfold real; positivity

theorem real_le {m n : ℕ} (h : m ≤ n) : real m ≤ real n := by
  have : (m:ℝ) ≤ n := by exact_mod_cast h
  unfold real; gcongr

end Verif.Construct
