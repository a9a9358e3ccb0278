import Verif.Prelude.Backend

/-!
# `openap/aero.py`

Every method of class `Aero` (`/repo/openap/aero.py:60-325`), term by term, over an
arbitrary carrier and backend. Python integer literals are written as decimals.
Exceptions: none of these functions raises on numbers. Module-level wrappers
(lines 332-414) call the same methods with the NumPy backend.
-/

namespace Verif.Aero

section consts
variable {α : Type} [OfScientific α] [Neg α]
/-- knot in m/s, `aero.py:29`. -/
def kts : α := 0.514444
/-- foot in m, `aero.py:30`. -/
def ft : α := 0.3048
/-- ft/min in m/s, `aero.py:31`. -/
def fpm : α := 0.00508
/-- nautical mile in m, `aero.py:34`. -/
def nm : α := 1852.0
/-- gravity, `aero.py:36`. -/
def g0 : α := 9.80665
/-- gas constant, `aero.py:37`. -/
def R : α := 287.05287
/-- sea-level pressure, `aero.py:38`. -/
def p0 : α := 101325.0
/-- sea-level density, `aero.py:39`. -/
def rho0 : α := 1.225
/-- sea-level temperature, `aero.py:40`. -/
def T0 : α := 288.15
/-- heat-capacity ratio, `aero.py:41`. -/
def gamma : α := 1.40
/-- ISA temperature gradient, `aero.py:44` (`-0.0065`). -/
def beta : α := -0.0065
/-- sea-level speed of sound, `aero.py:46`. -/
def a0 : α := 340.293988
end consts

variable {α : Type} [Add α] [Sub α] [Mul α] [Div α] [Neg α] [OfScientific α] [Pow α ℕ]
variable (b : Backend α)

/-- `Aero.atmos`, `aero.py:92-111`: `(p, rho, T)`. -/
def atmos (h dT : α) : α × α × α :=
  let dT := b.clip dT (-25.0) 15.0
  let T0_shift := T0 + dT
  let T := b.maximum (T0_shift + beta * h) (216.65 + dT)
  let rhotrop := rho0 * b.power (T / T0_shift) 4.256848030018761
  let dhstrat := b.maximum 0.0 (h - 11000.0)
  let rho := rhotrop * b.exp (-dhstrat / 6341.552161)
  let p := rho * R * T
  (p, rho, T)

/-- `Aero.temperature`, `aero.py:113-124`. -/
def temperature (h dT : α) : α := (atmos b h dT).2.2

/-- `Aero.pressure`, `aero.py:126-137`. -/
def pressure (h dT : α) : α := (atmos b h dT).1

/-- `Aero.density`, `aero.py:139-150`. -/
def density (h dT : α) : α := (atmos b h dT).2.1

/-- `Aero.vsound`, `aero.py:152-163`. -/
def vsound (h dT : α) : α := b.sqrt (gamma * R * temperature b h dT)

/-- `Aero.h_isa`, `aero.py:165-187`; both branches are evaluated, `where` selects. -/
def hIsa (p dT : α) : α :=
  let T0_shift := T0 + dT
  let T := T0_shift * b.power (p0 / p) ((beta * R) / g0)
  let h := (T - T0_shift) / beta
  let T1 := T0_shift + beta * 11000.0
  let p1 : α := 22630.0
  let h1 := -R * T1 / g0 * b.log (p / p1) + 11000.0
  b.whereGt p 22630.0 h h1

/-- `Aero.tas2mach`, `aero.py:189-201`. -/
def tas2mach (v h dT : α) : α := v / vsound b h dT

/-- `Aero.mach2tas`, `aero.py:203-215`. -/
def mach2tas (m h dT : α) : α := m * vsound b h dT

/-- `Aero.eas2tas`, `aero.py:217-229`. -/
def eas2tas (v h dT : α) : α := v * b.sqrt (rho0 / density b h dT)

/-- `Aero.tas2eas`, `aero.py:231-243`. -/
def tas2eas (v h dT : α) : α := v * b.sqrt (density b h dT / rho0)

/-- `Aero.cas2tas`, `aero.py:245-260`. -/
def cas2tas (v h dT : α) : α :=
  let p := (atmos b h dT).1
  let rho := (atmos b h dT).2.1
  let qdyn := p0 * (b.power (1.0 + rho0 * v * v / (7.0 * p0)) 3.5 - 1.0)
  b.sqrt (7.0 * p / rho * (b.power (1.0 + qdyn / p) (2.0 / 7.0) - 1.0))

/-- `Aero.tas2cas`, `aero.py:262-277`. -/
def tas2cas (v h dT : α) : α :=
  let p := (atmos b h dT).1
  let rho := (atmos b h dT).2.1
  let qdyn := p * (b.power (1.0 + rho * v * v / (7.0 * p)) 3.5 - 1.0)
  b.sqrt (7.0 * p0 / rho0 * (b.power (qdyn / p0 + 1.0) (2.0 / 7.0) - 1.0))

/-- `Aero.mach2cas`, `aero.py:279-291`. -/
def mach2cas (m h dT : α) : α := tas2cas b (mach2tas b m h dT) h dT

/-- `Aero.cas2mach`, `aero.py:293-305`. -/
def cas2mach (v h dT : α) : α := tas2mach b (cas2tas b v h dT) h dT

/-- `Aero.crossover_alt`, `aero.py:307-325`. -/
def crossoverAlt (v m dT : α) : α :=
  let T0_shift := T0 + dT
  let mach_safe := b.maximum m 1e-4
  let delta := (b.power (0.2 * (v / a0) ^ 2 + 1.0) 3.5 - 1.0) /
    (b.power (0.2 * mach_safe ^ 2 + 1.0) 3.5 - 1.0)
  T0_shift / beta * (b.power delta (-1.0 * R * beta / g0) - 1.0)

end Verif.Aero
