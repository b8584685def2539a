import Verif.Np
import Mathlib.Analysis.Complex.Norm
import Mathlib.Analysis.SpecialFunctions.Trigonometric.Basic
/-!
# Model of `csu_radartools/fundamentals.py`

The functions of this file are elementwise: where Python accepts "float or array" the model gives the value at one
element (equal shapes; broadcasting between different shapes is not modelled).  Division of NumPy values never raises
(`/` of `PyFloat`); division of plain Python floats by zero raises ZeroDivisionError and such functions return `Except`.
Simplification: Python's OverflowError for huge floats is not modelled.  Integer arguments are treated as the floats they
stand for, except where an integer dtype changes the result (`zdp`, `powerReturnTargetInt`).
-/
namespace Csu.Fund
open Csu PyFloat
variable {α : Type} [PyFloat α]

/-- `speed_of_light`, fundamentals.py:29 -/
def c : α := 3e8
/-- `k_boltz`, fundamentals.py:30 -/
def kBoltz : α := 1.381e-23
/-- `earth_radius`, fundamentals.py:31 -/
def earthRadius : α := 6371000
/-- `r43`, fundamentals.py:32 -/
def r43 : α := earthRadius * 4 / 3

/-- `np.deg2rad` -/
def deg2rad (x : α) : α := x * (pi / 180)
/-- decibels to linear, `10**(x / 10.)`, fundamentals.py:141-143, 172, 194, 308 -/
def lin (x : α) : α := (10 : α) ^ (x / 10)

/-! ## System -/

/-- fundamentals.py:41-59 -/
def antennaGain (p1 p2 : α) : α := 10 * PyFloat.log10 (p1 / p2)
/-- fundamentals.py:62-71 -/
def frequency (wavelength : α) : α := c / wavelength
/-- fundamentals.py:74-83 -/
def wavelength (freq : α) : α := c / freq
/-- fundamentals.py:86-100 -/
def pulseLength (pdur : α) : α := c * pdur / 2
/-- fundamentals.py:103-112 -/
def pulseDuration (tau : α) : α := 2 * tau / c

/-- fundamentals.py:115-155 -/
def radarConst (powerT gain tau wl bwH bwV aloss rloss : α) : α :=
  let numer := (pi : α) ^ (3 : α) * c * powerT * lin gain ^ (2 : α) * tau * deg2rad bwH * deg2rad bwV * lin aloss * lin rloss
  let denom := 1024 * PyFloat.ln (2 : α) * wl ^ (2 : α)
  numer / denom

/-- fundamentals.py:158-173 -/
def antEffArea (gain wl : α) : α := lin gain * wl ^ (2 : α) / (4 * pi)
/-- fundamentals.py:176-195 -/
def powerTarget (powerT gain areat range : α) : α := powerT * lin gain * areat / (4 * pi * range ^ (2 : α))
/-- fundamentals.py:198-225 -/
def xsecBscatterSphere (diam wl dielectric : α) : α :=
  (pi : α) ^ (5 : α) * dielectric ^ (2 : α) * diam ^ (6 : α) / wl ^ (4 : α)
/-- fundamentals.py:228-258 -/
def normXsecBscatterSphere (diam wl dielectric : α) : α :=
  xsecBscatterSphere diam wl dielectric / (pi * (diam / 2) ^ (2 : α))
/-- fundamentals.py:261-284 -/
def sizeParam (diam wl : α) : α := 2 * pi * diam / 2 / wl
/-- fundamentals.py:287-310 -/
def powerReturnTarget (powerT gain wl sig range : α) : α :=
  powerT * lin gain ^ (2 : α) * wl ^ (2 : α) * sig / (64 * (pi : α) ^ (3 : α) * range ^ (4 : α))

/-- NumPy `int64` arithmetic wraps modulo 2^64. -/
def wrap64 (n : Int) : Int := (n + 2 ^ 63) % 2 ^ 64 - 2 ^ 63
/-- fundamentals.py:287-310 with `range` an integer (or an integer array): `np.asarray(range)**4` is computed in `int64`
before the conversion to float. -/
def powerReturnTargetInt (powerT gain wl sig : α) (range : Int) : α :=
  powerT * lin gain ^ (2 : α) * wl ^ (2 : α) * sig / (64 * (pi : α) ^ (3 : α) * PyFloat.ofInt (wrap64 (range ^ 4)))

/-- `str.upper()` on ASCII strings -/
def upper (s : List Char) : List Char := s.map Char.toUpper
/-- fundamentals.py:313-342 -/
def thermalNoise (bandwidth : α) (units : List Char) (noiseTemp : α) : α :=
  let noise := kBoltz * noiseTemp * bandwidth
  if upper units = ['W'] then noise
  else if upper units = ['D', 'B', 'M'] then 10 * PyFloat.log10 (noise / 1e-3)
  else PyFloat.nan

/-! ## Doppler -/

/-- fundamentals.py:349-359 -/
def fmax (prf : α) : α := prf / 2
/-- fundamentals.py:362-374 -/
def vmax (prf wl : α) : α := prf * wl / 4
/-- fundamentals.py:377-379 -/
def nyquist (prf wl : α) : α := vmax prf wl
/-- fundamentals.py:382-392 -/
def rmax (prf : α) : α := c / (2 * prf)
/-- fundamentals.py:395-397 -/
def unambiguousRange (prf : α) : α := rmax prf
/-- fundamentals.py:400-420 -/
def dopplerDilemma (varin wl : α) : α := c * wl / 8 / varin

/-- `len(np.asarray(x))`: TypeError for a scalar or a 0-dimensional array -/
def pyLen : PyVal α → Except PyErr Nat
  | .scalar _ _ => .error .typeError
  | .arr a => match a.shape with
    | [] => .error .typeError
    | n :: _ => .ok n

/-- `vel_shift`, fundamentals.py:427-452 (broadcasting between unequal shapes is not modelled) -/
def velShift (groundSpeed psi : PyVal α) : Except PyErr (NdArray α) := do
  let _ ← pyLen groundSpeed
  let _ ← pyLen psi
  match groundSpeed, psi with
  | .arr g, .arr p =>
    if g.shape = p.shape then .ok ⟨.float, g.shape, List.zipWith (fun x y => x * PyFloat.cos (deg2rad y)) g.data p.data⟩
    else .error .notModelled
  | _, _ => .error .typeError

/-- Python float division: raises on zero -/
def pydiv (x y : α) : Except PyErr α := if y ==. 0 then .error .zeroDivisionError else .ok (x / y)

/-- fundamentals.py:455-477 (Python floats) -/
def vmaxDual (wl prf1 prf2 : α) : Except PyErr α := do
  let a ← pydiv 1 prf1
  let b ← pydiv 1 prf2
  pydiv wl (4 * (a - b))
/-- fundamentals.py:480-482 -/
def dualNyquist (wl prf1 prf2 : α) : Except PyErr α := vmaxDual wl prf1 prf2

/-! ## Geometry -/

/-- default `dndh`, fundamentals.py:490 -/
def dndh0 : α := -39e-6
/-- fundamentals.py:490-509 (Python floats; `earth_radius/1000.` is not zero) -/
def rEffective (dndh : α) : Except PyErr α := do
  let q ← pydiv (1 : α) (1 / (earthRadius / 1000) + dndh)
  .ok (q * 1000)
/-- fundamentals.py:512-527 -/
def halfPowerRadius (range bwhalf : α) : α := range * deg2rad bwhalf / 2
/-- fundamentals.py:530-560 -/
def rayHeight (range elev h0 reff : α) : α :=
  let term1 := PyFloat.sqrt (range ^ (2 : α) + reff ^ (2 : α) + 2 * range * reff * PyFloat.sin (deg2rad elev))
  term1 - reff + h0
/-- fundamentals.py:563-586 -/
def sampleVolIdeal (r bwH bwV plen : α) : α := pi * (r * deg2rad bwH / 2) * (r * deg2rad bwV / 2) * (plen / 2)
/-- fundamentals.py:589-616 -/
def sampleVolGauss (range bwH bwV plen : α) : α :=
  let numer := pi * range ^ (2 : α) * deg2rad bwH * deg2rad bwV * plen
  let denom := 16 * PyFloat.ln (2 : α)
  numer / denom
/-- fundamentals.py:657-691 (positive radius `a`) -/
def beamBlockFrac (terrain beamHeight a : α) : α :=
  let y := terrain - beamHeight
  let numer := y * PyFloat.sqrt (a ^ (2 : α) - y ^ (2 : α)) + a ^ (2 : α) * PyFloat.asin (y / a) + pi * a ^ (2 : α) / 2
  let denom := pi * a ^ (2 : α)
  numer / denom

/-! ## Names

`range_correct` and `reflectivity` refer to global names; a Python function body looks them up when it runs. -/

/-- The global names of the module fundamentals.py (its assignments, imports and functions) -/
def moduleNames : List String :=
  ["np", "speed_of_light", "k_boltz", "earth_radius", "r43", "antenna_gain", "frequency", "wavelength", "pulse_length",
   "pulse_duration", "radar_const", "ant_eff_area", "power_target", "xsec_bscatter_sphere", "norm_xsec_bscatter_sphere",
   "size_param", "power_return_target", "thermal_noise", "fmax", "vmax", "nyquist", "rmax", "unambiguous_range",
   "doppler_dilemma", "vel_shift", "vmax_dual", "dual_nyquist", "r_effective", "half_power_radius", "ray_height",
   "sample_vol_ideal", "sample_vol_gauss", "range_correct", "beam_block_frac", "reflectivity", "radial_velocity", "cdr",
   "ldr", "zdr", "zdp", "hdr", "abs_coeff", "scat_coeff", "ext_coeff", "k_complex"]

/-- looking up a global name (neither name looked up here is a Python builtin) -/
def global {β : Type} (name : String) (v : β) : Except PyErr β := if name ∈ moduleNames then .ok v else .error .nameError

/-- `np.diff` with the first element kept, fundamentals.py:644-646 -/
def diffs : List α → List α
  | [] => []
  | x :: xs => x :: List.zipWith (· - ·) xs (x :: xs)
/-- `np.cumsum` -/
def cumsum (x : α) : List α → List α
  | [] => []
  | d :: ds => (x + d) :: cumsum (x + d) ds

/-- `range_correct`, fundamentals.py:619-654.  The body uses `hheight`, which is not a parameter (that one is called
`height`) but a global name. -/
def rangeCorrect (range height : List α) (elev : α) : Except PyErr (List α) := do
  let hheight ← global "hheight" height
  let dr := (diffs hheight).map (· / PyFloat.tan (pi / 2 - deg2rad elev))
  .ok (List.zipWith (· - ·) range (cumsum 0 dr))

/-- `reflectivity`, fundamentals.py:698-739: calls the global name `radar_constant` (the function is called
`radar_const`). -/
def reflectivity (powerT gain pulseWidth wl bwH bwV aloss rloss powerReturn range dielectric : α) : Except PyErr α := do
  let radarConstant ← global "radar_constant" (radarConst (α := α))
  let c1 := radarConstant powerT gain pulseWidth wl bwH bwV aloss rloss
  .ok (powerReturn * range ^ (2 : α) / (c1 * dielectric ^ (2 : α)))

/-! ## Variables -/

/-- fundamentals.py:742-759 -/
def radialVelocity (freq wl : α) : α := freq * wl / 2
/-- fundamentals.py:762-792 -/
def cdr (par orth : α) : α := 10 * PyFloat.log10 (par / orth)
/-- fundamentals.py:795-822 -/
def ldr (zh zv : α) : α := 10 * PyFloat.log10 (zh / zv)
/-- fundamentals.py:825-848 -/
def zdr (zh zv : α) : α := 10 * PyFloat.log10 (zh / zv)

/-- Assigning `v` into an array of the given dtype: integers truncate. -/
def store (d : DType) (v : α) : α := match d with
  | .float => v
  | .int => PyFloat.trunc v
/-- `np.full_like(zh, np.nan)`: NaN, or for an integer dtype the smallest `int64`. -/
def nanLike (d : DType) : α := match d with
  | .float => PyFloat.nan
  | .int => PyFloat.ofInt (-9223372036854775808)

/-- `zdp`, fundamentals.py:851-879, on 1-D arrays; `d` is the dtype of `z_h`. -/
def zdp (d : DType) (zh zv : List α) : Except PyErr (List α) :=
  if zh.length ≠ zv.length then .error .valueError
  else
    let good := List.zipWith (· >. ·) zh zv
    let vals := List.zipWith (fun a b => store d (10 * PyFloat.log10 (a - b))) zh zv
    .ok (maskCopy good vals (List.replicate zh.length (nanLike d)))

/-- `hdr`, fundamentals.py:882-922, on float arrays of equal size -/
def hdr (dbzH zdr : List α) : List α :=
  let f : List α := List.replicate zdr.length PyFloat.nan
  let f := maskSet (zdr.map (· <=. 0)) 27 f
  let f := maskCopy (logicalAnd (zdr.map (· >. 0)) (zdr.map (· <=. 1.74))) (zdr.map (fun x => 19 * x + 27)) f
  let f := maskSet (zdr.map (· >. 1.74)) 60 f
  List.zipWith (· - ·) dbzH f

/-! ## Attenuation

Complex refractive index: real and complex numbers (no infinities, exact arithmetic); Python complex division by zero raises. -/
noncomputable section

/-- fundamentals.py:1008-1015 -/
def kComplex (m : ℂ) : Except PyErr ℂ := if m ^ 2 + 2 = 0 then .error .zeroDivisionError else .ok ((m ^ 2 - 1) / (m ^ 2 + 2))

/-- fundamentals.py:929-955, for wavelength nonzero -/
def absCoeff (diam wl : ℝ) (m : ℂ) : Except PyErr ℝ := do
  let k ← kComplex m
  .ok (Real.pi ^ 2 * diam ^ 3 / wl * (-1 * k).im)

/-- fundamentals.py:958-975, for wavelength nonzero -/
def scatCoeff (diam wl : ℝ) (m : ℂ) : Except PyErr ℝ := do
  let k ← kComplex m
  .ok (2 * Real.pi ^ 5 * diam ^ 6 / (3 * wl ^ 4) * ‖k‖ ^ 2)

/-- fundamentals.py:978-1005 -/
def extCoeff (diam wl : ℝ) (m : ℂ) : Except PyErr ℝ := do
  let qa ← absCoeff diam wl m
  let qs ← scatCoeff diam wl m
  .ok (qa + qs)
end
end Csu.Fund
