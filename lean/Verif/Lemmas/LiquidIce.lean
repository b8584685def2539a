import Verif.Model.LiquidIce
import Verif.Spec.LiquidIce
import Verif.Lemmas.Lists
import Verif.XReal
/-! # Gatewise form of the water/ice partition -/
namespace Csu.LiquidIce
open Csu PyFloat Csu.Common
variable {α : Type} [PyFloat α]

/-- one gate of `_liquid_ice_calcs` (csu_liquid_ice_mass.py:184-216); proof helper -/
def deltaZ1 (fa fb d r : α) : α :=
  let diff := linearize d - linearize d / linearize r
  let x := d - (fa * (10 * log10 (if diff <=. 0 then 0.000000000001 else diff)) + fb)
  if x <. 0 then 0 else x

/-- rain part of Zh at one gate; proof helper -/
def zhRain1 (fa fb d r : α) : α := linearize d * (1 - (1 - (10 : α) ^ (-0.1 * deltaZ1 fa fb d r)))

/-- water mass at one gate; proof helper -/
def water1 (fa fb d r t : α) : α :=
  let check := deltaZ1 fa fb d r - t
  if r <. 0 then 0
  else if check >=. 0 then 3.44 * (10 : α) ^ (-3 : α) * zhRain1 fa fb d r ^ (4 / 7 : α)
  else if check <. 0 then
    0.70 * (10 : α) ^ (-3 : α) * linearize d ^ (0.886 : α) * (linearize d / (linearize d / linearize r)) ^ (-4.159 : α)
  else d * 0

/-- ice mass at one gate; proof helper -/
def ice1 (fa fb d r t : α) : α :=
  if deltaZ1 fa fb d r - t >=. 0 then
    1000 * pi * 917 * (4 * (10 : α) ^ (6 : α)) ^ (3 / 7 : α) *
      ((5.28 * (10 : α) ^ (-18 : α) * (linearize d - zhRain1 fa fb d r)) / 720) ^ (4 / 7 : α)
  else d * 0

/-- threshold at one gate; proof helper -/
def thresh1 (h z : α) : α := if z <=. h then (-8 / 3) * (z - h) + 2 else 0 + 1.1

/-- the fit coefficients used; proof helper -/
def fits (fitA fitB : Option α) : Except PyErr (α × α) :=
  match fitA, fitB with
  | none, _ => .ok (getLinearFits "cifelli")
  | some a, some b => .ok (a, b)
  | some _, none => .error .typeError

theorem liquidIceCalcs_gates (fitA fitB : Option α) (fa fb : α) (hf : fits fitA fitB = .ok (fa, fb)) (h : α)
    (gs : List (α × α × α)) :
    liquidIceCalcs (gs.map (·.1)) (gs.map (·.2.1)) (getDeltaThresh (gs.map (·.2.2)) h) fitA fitB =
      .ok (gs.map (fun g => water1 fa fb g.1 g.2.1 (thresh1 h g.2.2)),
           gs.map (fun g => ice1 fa fb g.1 g.2.1 (thresh1 h g.2.2))) := by
  rcases fitA with _ | a
  · have e : getLinearFits "cifelli" = (fa, fb) := by simpa [fits] using hf
    simp only [liquidIceCalcs, e, getDeltaThresh, calcZdp, List.map_map, Function.comp_def,
      maskCopy_map, maskSet_map, zipWith_map_map]
    rfl
  · rcases fitB with _ | b
    · simp [fits] at hf
    · have e : (a, b) = (fa, fb) := by simpa [fits] using hf
      cases e
      simp only [liquidIceCalcs, getDeltaThresh, calcZdp, List.map_map, Function.comp_def,
        maskCopy_map, maskSet_map, zipWith_map_map]
      rfl

end Csu.LiquidIce
