import Verif.Np
/-!
# Model of `csu_radartools/common.py`

Elementwise NumPy formulas are written for one element and mapped over the array by the callers.
-/
namespace Csu.Common
open Csu PyFloat
variable {α : Type} [PyFloat α]

/-- `dbz2z` / `linearize`, common.py:77-90; the same formula is `linearize` of csu_liquid_ice_mass.py:81-83. -/
def linearize (d : α) : α := 10 ^ (d / 10)

/-- `z2dbz`, common.py:93-102. -/
def z2dbz (z : α) : α := 10 * log10 z

/-- `calc_rain_zr`, common.py:27-32, one element. -/
def calcRainZr (a b d : α) : α := (linearize d / a) ^ (1 / b)

/-- `calc_rain_nexrad`, common.py:35-44, on an array: compute, then `rr[dz > thresh] = calc_rain_zr(thresh)`. -/
def calcRainNexrad (dz : List α) (thresh a b : α) : List α :=
  maskSet (dz.map (· >. thresh)) (calcRainZr a b thresh) (dz.map (calcRainZr a b))

/-- `calc_rain_nexrad` called on a Python scalar, common.py:35-44: `rr[cond] = ...` on a NumPy scalar raises. -/
def calcRainNexradVal (dz : PyVal α) (thresh a b : α) : Except PyErr (NdArray α) :=
  match dz with
  | .scalar _ _ => .error .typeError
  | .arr d => .ok ⟨.float, d.shape, calcRainNexrad d.data thresh a b⟩

/-- default cap of `calc_rain_nexrad`, common.py:35 -/
def defaultThreshNexrad : α := 53

/-- `calc_rain_kdp_zdr`, common.py:47-53. -/
def calcRainKdpZdr (a b c kdp zdr : α) : α := a * kdp ^ b * 10 ^ (c * zdr)

/-- `calc_rain_z_zdr`, common.py:56-62. -/
def calcRainZZdr (a b c dz zdr : α) : α := a * linearize dz ^ b * 10 ^ (c * zdr)

/-- `calc_rain_kdp`, common.py:65-70. -/
def calcRainKdp (a b kdp : α) : α := a * kdp ^ b

/-- `si2kmh`, common.py:105-114. -/
def si2kmh (x : α) : α := x * 3600 / 1000
/-- `si2mph`, common.py:117-126. -/
def si2mph (x : α) : α := x * 0.62137 / 1000 * 3600
/-- `si2kts`, common.py:129-138. -/
def si2kts (x : α) : α := x * 0.51
/-- `kmh2si`, common.py:141-150. -/
def kmh2si (x : α) : α := x * 1000 / 3600
/-- `mph2si`, common.py:153-162. -/
def mph2si (x : α) : α := x * 1000 / (0.62137 * 3600)
/-- `kts2si`, common.py:165-174. -/
def kts2si (x : α) : α := x / 0.51

/-- NumPy stores a float into an array of this dtype: integer arrays truncate.  Simplified: NaN and values out of the range of the integer
type, for which NumPy stores a platform-dependent integer with a warning, are left to `trunc`. -/
def store (t : DType) (x : α) : α := match t with
  | .int => trunc x
  | .float => x

end Csu.Common
