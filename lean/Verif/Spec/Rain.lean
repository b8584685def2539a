import Verif.PyFloat
import Verif.Model.Rain
/-!
# Specification of the rain retrievals, gate by gate

Written from the docstrings / the English of C38-C48, in plain arithmetic; nothing of the model's array code is used
(only the parameter record `Params`).
-/
namespace Csu.RainSpec
open Csu PyFloat Csu.Rain
variable {α : Type} [PyFloat α]

/-- Z in linear units -/
def lin (d : α) : α := 10 ^ (d / 10)
/-- Z-R relation `Z = a R**b` solved for R -/
def rZR (a b d : α) : α := (lin d / a) ^ (1 / b)
/-- Z-R relation with reflectivity capped at `cap` -/
def rZRcap (cap a b d : α) : α := if cap <. d then rZR a b cap else rZR a b d
/-- difference reflectivity in dB, floored at 1e-12 -/
def zdpDb (d z : α) : α :=
  let diff := lin d - lin d / lin z
  10 * log10 (if diff <=. 0 then 0.000000000001 else diff)
/-- reflectivity factor due to rain only, from the rain line `fa * zdp + fb` -/
def zRain (fa fb d z : α) : α := 10 ^ ((fa * zdpDb d z + fb) / 10)
/-- ice fraction -/
def iceFraction (fa fb d z : α) : α := 1 - zRain fa fb d z / lin d

/-- the documented method of C38 at S band -/
def methodS (P : Params α) (fa fb d z k : α) : Int :=
  let heavy := (P.threshDz <=. d) && (P.threshKdp <=. k)
  let zdrBig := P.threshZdr <=. z
  if iceFraction fa fb d z <. P.threshFracIce then
    if heavy then (if zdrBig then 1 else 2) else (if zdrBig then 3 else 4)
  else if heavy then 2 else 5

/-- the documented method of C39 at other bands -/
def methodOther (P : Params α) (d k : α) : Int :=
  if (P.threshDz <=. d) && (P.threshKdp <=. k) then 2 else 4

/-- the rain rate of each method; method 0 means no rain -/
def rate (P : Params α) (cap fa fb d z k : α) (m : Int) : α :=
  if m = 1 then P.rKdpZdrA * k ^ P.rKdpZdrB * 10 ^ (P.rKdpZdrC * z)
  else if m = 2 then P.rKdpA * k ^ P.rKdpB
  else if m = 3 then P.rZZdrA * lin d ^ P.rZZdrB * 10 ^ (P.rZZdrC * z)
  else if m = 4 then rZRcap cap P.rZA P.rZB d
  else if m = 5 then rZRcap cap P.rZA P.rZB (10 * log10 (zRain fa fb d z))
  else 0

/-- C44, S band: class-guided method -/
def hidroMethodS (P : Params α) (d z k : α) (c : Int) : Int :=
  let dzBig := P.threshDz <=. d
  let kdpBig := P.threshKdp <=. k
  let zdrBig := P.threshZdr <=. z
  if c = 1 ∨ c = 2 ∨ c = 10 then
    if dzBig && kdpBig then (if zdrBig then 1 else 2)
    else if dzBig && zdrBig then 3 else 4
  else if (c = 5 ∨ c = 7 ∨ c = 8 ∨ c = 9) ∧ kdpBig = true then 2
  else 0

/-- C44, other bands: the method whose rate is used (0: no rain) -/
def hidroRuleOther (P : Params α) (d k : α) (c : Int) : Int :=
  if (P.threshDz <=. d) && (P.threshKdp <=. k) then 2
  else if c = 1 ∨ c = 2 ∨ c = 10 then 4
  else 0

/-- C46: tropical method without hydrometeor classes; `cs` is the rain type when given -/
def tropMethod (P : TropParams α) (d z k : α) (cs : Option Int) : Int :=
  let heavy := (P.threshDz <=. d) && (P.threshKdp <=. k)
  let zdrBig := P.threshZdr <=. z
  if d <. -10 then -1
  else if heavy then (if zdrBig then 1 else 2)
  else if zdrBig then 3
  else match cs with
    | none => 4
    | some c => if c = 2 then 5 else if c = 1 then 6 else if c = 3 then 4 else -1

/-- rate of each tropical method -/
def tropRate (P : TropParams α) (d z k : α) (m : Int) : α :=
  if m = 1 then P.rKdpZdrA * k ^ P.rKdpZdrB * 10 ^ (P.rKdpZdrC * z)
  else if m = 2 then P.rKdpA * k ^ P.rKdpB
  else if m = 3 then P.rZZdrA * lin d ^ P.rZZdrB * 10 ^ (P.rZZdrC * z)
  else if m = 4 then rZR P.rZA P.rZB d
  else if m = 5 then rZR P.rZAc P.rZBc d
  else if m = 6 then rZR P.rZAs P.rZBs d
  else 0

end Csu.RainSpec

namespace Csu.RainSpec
open Csu PyFloat Csu.Rain
variable {α : Type} [PyFloat α]

/-- The rain line of the call: the caller's coefficients, or the published line named by `method`. -/
def IsRainLine (P : Params α) (fa fb : α) : Prop :=
  (P.fitA = some fa ∧ P.fitB = some fb) ∨
  (P.fitA = none ∧ P.method = "cifelli" ∧ fa = 0.8178 ∧ fb = 12.5088) ∨
  (P.fitA = none ∧ P.method = "cr1995" ∧ fa = 0.9091 ∧ fb = 8.5091) ∨
  (P.fitA = none ∧ P.method ≠ "cifelli" ∧ P.method ≠ "cr1995" ∧ fa = 0.77 ∧ fb = 14)

/-- `a`, `b`, `c` are arrays of one shape with the right number of elements -/
def SameShape {β γ δ : Type} (a : NdArray β) (b : NdArray γ) (c : NdArray δ) : Prop :=
  a.WF ∧ b.WF ∧ c.WF ∧ a.shape = b.shape ∧ a.shape = c.shape

end Csu.RainSpec
