import Verif.Props.GenRandom

/-!
# C104: what noise changes
-/

namespace Verif.Props
open Verif Verif.Gen Verif.Aero Verif.Tables Verif.Kinematic Verif.Registry
open Verif.Data (shipped)

variable {G : Type} {R : Rng G}

/-- The `k`-th of successive batches of `n` standard normals from the stream `g`. -/
def batch (R : Rng G) (n : ℕ) (g : G) (k : ℕ) : List ℝ :=
  (R.gauss n ((fun y => (R.gauss n y).2)^[k] g)).1

/-- `noisy` is `clean` with the same times and segments and with independent normal errors of
standard deviations 7.5 m in altitude, 5 m in distance, 0.5 m/s in speed and 0.75 m/s in vertical
rate, taken in this order from the stream `g`. -/
def Perturbed (R : Rng G) (g : G) (clean noisy : List OutRow) : Prop :=
  noisy.length = clean.length ∧
  ∀ (i : ℕ) (h : i < clean.length) (h' : i < noisy.length),
    noisy[i].t = clean[i].t ∧ noisy[i].seg = clean[i].seg ∧
    noisy[i].h = clean[i].h + 7.5 * (batch R clean.length g 0).getD i 0 ∧
    noisy[i].s = clean[i].s + 5 * (batch R clean.length g 1).getD i 0 ∧
    noisy[i].v = clean[i].v + 0.5 * (batch R clean.length g 2).getD i 0 ∧
    noisy[i].vs = clean[i].vs + 0.75 * (batch R clean.length g 3).getD i 0

theorem addNoise_perturbed (f : FlightGen G) (g : G) (rows : List Row) :
    Perturbed R g (rows.map derive) ((addNoise R { enableNoise f with rng := g } rows).1.map derive) ∧
    (addNoise R { enableNoise f with rng := g } rows).2 =
      (fun y => (R.gauss rows.length y).2)^[4] g := by
  constructor
  · refine ⟨by rw [List.length_map, List.length_map, addNoise_length], ?_⟩
    intro i h h'
    simp only [List.length_map] at h
    simp only [List.getElem_map, List.length_map]
    unfold addNoise enableNoise
    simp only [if_true, List.getElem_mapIdx, derive, zero_add]
    exact ⟨trivial, trivial, rfl, rfl, rfl, rfl⟩
  · unfold addNoise enableNoise
    simp only [if_true]
    rfl

theorem climbSetup_noise (f : FlightGen G) (kw : Kw) :
    climbSetup R (enableNoise f) kw = climbSetup R f kw := rfl
theorem descentSetup_noise (f : FlightGen G) (kw : Kw) :
    descentSetup R (enableNoise f) kw = descentSetup R f kw := rfl
theorem cruiseSetup_noise (f : FlightGen G) (kw : Kw) :
    cruiseSetup R (enableNoise f) kw = cruiseSetup R f kw := rfl

/-- **C104.** The same call on the same generator with and without noise: it returns in one case
if and only if it returns in the other, with the same constants, row count, times and segments;
the other columns differ by the normal errors of `Perturbed`, taken from the stream as the
noiseless call leaves it. -/
theorem C104_noise (f : FlightGen G) (kw : Kw) (hn : f.noise = false) :
    (((∃ fr f', ClimbReturns R f kw fr f') ↔ ∃ fr f', ClimbReturns R (enableNoise f) kw fr f') ∧
      ∀ fr f' fr' f'', ClimbReturns R f kw fr f' → ClimbReturns R (enableNoise f) kw fr' f'' →
        fr'.params = fr.params ∧ Perturbed R f'.rng fr.rows fr'.rows) ∧
    (((∃ fr f', DescentReturns R f kw fr f') ↔
        ∃ fr f', DescentReturns R (enableNoise f) kw fr f') ∧
      ∀ fr f' fr' f'', DescentReturns R f kw fr f' →
        DescentReturns R (enableNoise f) kw fr' f'' →
        fr'.params = fr.params ∧ Perturbed R f'.rng fr.rows fr'.rows) ∧
    (((∃ fr f', CruiseReturns R f kw fr f') ↔
        ∃ fr f', CruiseReturns R (enableNoise f) kw fr f') ∧
      ∀ fr f' fr' f'', CruiseReturns R f kw fr f' → CruiseReturns R (enableNoise f) kw fr' f'' →
        fr'.params = fr.params ∧ Perturbed R f'.rng fr.rows fr'.rows) := by
  refine ⟨⟨?_, ?_⟩, ⟨?_, ?_⟩, ⟨?_, ?_⟩⟩
  · simp only [climbReturns_iff, climbSetup_noise]
    constructor <;> (rintro ⟨_, _, P, g, ss, h1, h2, -, -⟩; exact ⟨_, _, P, g, ss, h1, h2, rfl, rfl⟩)
  · intro fr f' fr' f'' h h'
    obtain ⟨P, g, ss, h1, h2, rfl, rfl⟩ := climbReturns_iff.1 h
    obtain ⟨P', g', ss', h1', h2', rfl, -⟩ := climbReturns_iff.1 h'
    rw [climbSetup_noise, h1] at h1'
    obtain ⟨rfl, rfl⟩ := Prod.mk.inj (Except.ok.inj h1')
    obtain rfl := trace_unique h2 h2'
    refine ⟨rfl, ?_⟩
    rw [addNoise_off hn]
    exact (addNoise_perturbed f g _).1
  · simp only [descentReturns_iff, descentSetup_noise]
    constructor <;> (rintro ⟨_, _, P, g, ss, h1, h2, -, -⟩; exact ⟨_, _, P, g, ss, h1, h2, rfl, rfl⟩)
  · intro fr f' fr' f'' h h'
    obtain ⟨P, g, ss, h1, h2, rfl, rfl⟩ := descentReturns_iff.1 h
    obtain ⟨P', g', ss', h1', h2', rfl, -⟩ := descentReturns_iff.1 h'
    rw [descentSetup_noise, h1] at h1'
    obtain ⟨rfl, rfl⟩ := Prod.mk.inj (Except.ok.inj h1')
    obtain rfl := trace_unique h2 h2'
    refine ⟨rfl, ?_⟩
    rw [addNoise_off hn]
    exact (addNoise_perturbed f g _).1
  · simp only [cruiseReturns_iff, cruiseSetup_noise]
    constructor <;> (rintro ⟨_, _, P, g, ss, h1, h2, -, -⟩; exact ⟨_, _, P, g, ss, h1, h2, rfl, rfl⟩)
  · intro fr f' fr' f'' h h'
    obtain ⟨P, g, ss, h1, h2, rfl, rfl⟩ := cruiseReturns_iff.1 h
    obtain ⟨P', g', ss', h1', h2', rfl, -⟩ := cruiseReturns_iff.1 h'
    rw [cruiseSetup_noise, h1] at h1'
    obtain ⟨rfl, rfl⟩ := Prod.mk.inj (Except.ok.inj h1')
    obtain rfl := trace_unique h2 h2'
    refine ⟨rfl, ?_⟩
    rw [addNoise_off hn]
    exact (addNoise_perturbed f g _).1

/-- A noiseless A320 generator whose climb returns, with a stream of normals all equal to 1:
with noise every altitude is 7.5 m higher. -/
example : ∃ (f f' f'' : FlightGen Unit) (fr fr' : ClimbFrame), f.noise = false ∧
    ClimbReturns ⟨fun _ => (0, ()), fun n _ => (List.replicate n 1, ())⟩ f {} fr f' ∧
    ClimbReturns ⟨fun _ => (0, ()), fun n _ => (List.replicate n 1, ())⟩ (enableNoise f) {} fr' f'' ∧
    ∀ (i : ℕ) (h : i < fr.rows.length) (h' : i < fr'.rows.length),
      fr'.rows[i].h = fr.rows[i].h + 7.5 := by
  obtain ⟨f, -, h1, h2, -⟩ := init_shipped (ac := [97, 51, 50, 48]) (by decide +kernel) ()
  have hR : Rng.Unit (G := Unit) ⟨fun _ => (0, ()), fun n _ => (List.replicate n 1, ())⟩ :=
    fun _ => by simp
  obtain ⟨P, g, s1, v1, -⟩ := climbSetup_ok (kw := {}) h1 hR (by simp) (by simp)
  obtain ⟨fr, f', hc⟩ := climbReturns_of s1 v1
  have key := (C104_noise (R := ⟨fun _ => (0, ()), fun n _ => (List.replicate n 1, ())⟩) f {} h2).1
  obtain ⟨fr', f'', hc'⟩ := key.1.1 ⟨fr, f', hc⟩
  refine ⟨f, f', f'', fr, fr', h2, hc, hc', ?_⟩
  intro i h h'
  rw [((key.2 fr f' fr' f'' hc hc').2.2 i h h').2.2.1]
  simp [batch, h]

end Verif.Props
