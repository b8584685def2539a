import Verif.Model.KdpApi
import Verif.Ieee
/-!
# Model of `csu_kdp.get_fir` with the filter order computed in floating point
-/
namespace Csu.Kdp
open Csu PyFloat
noncomputable section

/-- `fir['order'] = np.int32(window * KM2M / gs)` with the rounding of the floats, csu_kdp.py:143; `np.int32` drops the fraction.  Simplified: quotients too
large for an `int32`, infinite or NaN are not modelled (0 here). -/
def firOrderF {α : Type} [IeeeFloat α] (gs window : α) : Int :=
  match IeeeFloat.val (window * 1000 / gs) with
  | .fin x => XR.truncR x
  | _ => 0

/-- `get_fir` from the order on, csu_kdp.py:144-154.  Simplified: the taps are those of exact arithmetic. -/
def getFirN (order : Int) : Except PyErr (Option (Fir XR)) :=
  if order % 2 ≠ 0 then .ok none
  else if order = 0 then .error .valueError
  else do
    let ratio : ℝ := order / 20
    let taps ← firwin (order + 1) (0.08 / ratio) (ratio * 28)
    .ok (some ⟨order.toNat, .fin 1, taps.map .fin⟩)

/-- `get_fir`, csu_kdp.py:136-154, with the order computed in floating point -/
def getFirF {α : Type} [IeeeFloat α] (gs window : α) : Except PyErr (Option (Fir XR)) :=
  if (gs ==. 0) = true then .error .zeroDivisionError else getFirN (firOrderF gs window)

/-- `calc_kdp_bringi`, csu_kdp.py:27-133, with the order computed in floating point -/
def calcKdpBringiF {α : Type} [IeeeFloat α] (D : Dialect XR) (J : Junk XR) (dp dz rng : Option (Data XR)) (o : KdpOpts XR) (gs window : α) :
    Except PyErr (Ret2 XR) := kdpWithFir D J (getFirF gs window) dp dz rng o

end
end Csu.Kdp
