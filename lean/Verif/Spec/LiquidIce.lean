import Mathlib.Analysis.SpecialFunctions.Log.Base
import Mathlib.Analysis.SpecialFunctions.Pow.Real
/-!
# Specification of the water/ice partition, in plain real arithmetic
-/
namespace Csu.LiquidIceSpec
noncomputable section

/-- difference reflectivity Zdp in dB (floored at 1e-12 in linear units) -/
def zdp (dbz zdr : ℝ) : ℝ :=
  let diff := (10 : ℝ) ^ (dbz / 10) - (10 : ℝ) ^ (dbz / 10) / (10 : ℝ) ^ (zdr / 10)
  10 * Real.logb 10 (if diff ≤ 0 then 0.000000000001 else diff)

/-- departure of reflectivity above the rain line `a * Zdp + b` -/
def departure (a b dbz zdr : ℝ) : ℝ := max 0 (dbz - (a * zdp dbz zdr + b))

/-- height-dependent detection threshold -/
def threshold (hfrz z : ℝ) : ℝ := if z ≤ hfrz then 2 + (8 / 3) * (hfrz - z) else 1.1

/-- reflectivity in linear units, mm^6 m^-3 -/
def linear (dbz : ℝ) : ℝ := (10 : ℝ) ^ (dbz / 10)

/-- the part of the linear reflectivity attributed to rain: the whole, lowered by the departure (in dB) -/
def rainPart (a b dbz zdr : ℝ) : ℝ := linear (dbz - departure a b dbz zdr)

/-- rain-only water content from reflectivity and differential reflectivity (Cifelli et al. 2002) -/
def waterRain (dbz zdr : ℝ) : ℝ := 0.0007 * linear dbz ^ (0.886 : ℝ) * linear zdr ^ (-4.159 : ℝ)

/-- water content from the rain part of the reflectivity -/
def waterMixed (zr : ℝ) : ℝ := 0.00344 * zr ^ (4 / 7 : ℝ)

/-- ice content from the ice part of the reflectivity: ice density 917 kg/m3, intercept parameter 4e6 m^-4 -/
def iceMixed (zi : ℝ) : ℝ :=
  1000 * Real.pi * 917 * (4000000 : ℝ) ^ (3 / 7 : ℝ) * (5.28e-18 * zi / 720) ^ (4 / 7 : ℝ)

/-- liquid water mass, g/m3, for threshold `t` -/
def water (a b t dbz zdr : ℝ) : ℝ :=
  if zdr < 0 then 0
  else if t ≤ departure a b dbz zdr then waterMixed (rainPart a b dbz zdr)
  else waterRain dbz zdr

/-- ice mass, g/m3, for threshold `t` -/
def ice (a b t dbz zdr : ℝ) : ℝ :=
  if t ≤ departure a b dbz zdr then iceMixed (linear dbz - rainPart a b dbz zdr) else 0

end
end Csu.LiquidIceSpec
