import Verif.Np
/-!
# Model of `csu_radartools/csu_misc.py`

Arrays are lists of gates; the elementwise filters act identically on every shape, so an n-D array is its row-major
list.  All arrays of one call have equal length (NumPy broadcasting between unequal shapes is not modelled).
-/
namespace Csu.Misc
open Csu PyFloat
variable {α : Type} [PyFloat α]

/-- `DEFAULT_DZ_RANGE`, csu_misc.py:23-24. -/
def defaultDzRange : List (α × α) :=
  [(-100, 10), (10, 15), (15, 20), (20, 25), (25, 30), (30, 35)]

/-- `DEFAULT_DR_THRESH`, csu_misc.py:25. -/
def defaultDrThresh : List α := [1, 1.3, 1.7, 2.1, 2.5, 2.8]

/-- Generic mask, csu_misc.py:34-36: the given mask, else `np.logical_or(dz == bad, zdr == bad)`. -/
def genericMask (dz zdr : List α) (mask : Option (List Bool)) (bad : α) : List Bool :=
  match mask with
  | some m => m
  | none => logicalOr (dz.map (· ==. bad)) (zdr.map (· ==. bad))

/-- Loop body of csu_misc.py:38-42 for index `i` and threshold `thresh`; `dz_range[i]` may raise IndexError. -/
def insectCond (dz zdr : List α) (dzRange : List (α × α)) (i : Nat) (thresh : α) :
    Except PyErr (List Bool) :=
  match dzRange[i]? with
  | none => .error .indexError
  | some sub =>
    let condDz := logicalAnd (dz.map (· >. sub.1)) (dz.map (· <=. sub.2))
    .ok (logicalAnd condDz (zdr.map (· >=. thresh)))

/-- The loop csu_misc.py:37-42 over `enumerate(dr_thresh)` starting at index `i`, collecting `cond`. -/
def insectConds (dz zdr : List α) (dzRange : List (α × α)) : Nat → List α → Except PyErr (List (List Bool))
  | _, [] => .ok []
  | i, thresh :: rest => do
    let c ← insectCond dz zdr dzRange i thresh
    let cs ← insectConds dz zdr dzRange (i + 1) rest
    return c :: cs

/-- `insect_filter`, csu_misc.py:28-46.  The unused argument `height` is omitted. -/
def insectFilter (dz zdr : List α) (mask : Option (List Bool)) (dzRange : List (α × α)) (drThresh : List α)
    (bad : α) : Except PyErr (List Bool) := do
  let mask := genericMask dz zdr mask bad
  let cond ← insectConds dz zdr dzRange 0 drThresh
  return cond.foldl logicalOr mask

/-- `second_trip_filter_magnetron`, csu_misc.py:49-55. -/
def secondTripFilter (vr : List α) (bad : α) : List Bool := vr.map (· ==. bad)

/-- `differential_phase_filter`, csu_misc.py:58-63, with a scalar threshold. -/
def diffPhaseFilter (sdp : List α) (thresh : α) : List Bool := sdp.map (· >. thresh)

/-- `differential_phase_filter`, csu_misc.py:58-63, with an array threshold of the same size. -/
def diffPhaseFilterArr (sdp thresh : List α) : List Bool := List.zipWith (· >. ·) sdp thresh

/-- `scipy.ndimage.label` on a 1-D array (default structure: neighbours touch), used in csu_misc.py:99.
`k` labels have been used so far, `inRun` says whether the previous element was nonzero. -/
def labelGo (k : Nat) (inRun : Bool) : List Bool → List Nat
  | [] => []
  | true :: r =>
    let k' := if inRun then k else k + 1
    k' :: labelGo k' true r
  | false :: r => 0 :: labelGo k false r

/-- `lab, nf = label(ray)`: labels 1, 2, ... from left to right, 0 for background. -/
def label (ray : List Bool) : List Nat := labelGo 0 false ray

/-- One pass of the loop csu_misc.py:102-106: `labels` are the positive labels before the loop. -/
def zeroSmall (labels : List Nat) (ngates : Int) (lab : List Nat) (feat : Nat) : List Nat :=
  let featsz := (labels.filter (· == feat)).length
  if (featsz : Int) ≤ ngates then maskSet (lab.map (· == feat)) 0 lab else lab

/-- `_despeckle_ray`, csu_misc.py:95-107.  `ray` holds 0/1 as Booleans; `np.linspace(min, max, max-min+1)` is the
list of integers from `min` to `max`. -/
def despeckleRay (ray : List Bool) (ngates : Int) : List Bool :=
  let lab := label ray
  let nf := lab.foldl max 0
  let lab :=
    if nf > 0 then
      let labels := lab.filter (· > 0)
      let mn := labels.foldl min nf
      let mx := labels.foldl max 0
      (List.range' mn (mx - mn + 1)).foldl (zeroSmall labels ngates) lab
    else lab
  lab.map (· == 0)

/-- `array[mask] = 0; array[~mask] = 1`, csu_misc.py:80-83: 1 (true) marks a gate different from `bad`. -/
def goodGates (data : List α) (bad : α) : List Bool := data.map (fun x => !(x ==. bad))

/-- `despeckle` on a 1-D array, csu_misc.py:66-92 (branch of line 87). -/
def despeckle1 (data : List α) (bad : α) (ngates : Int) : List Bool :=
  despeckleRay (goodGates data bad) ngates

/-- `despeckle` on a 2-D array, csu_misc.py:84-86: row by row. -/
def despeckle2 (data : List (List α)) (bad : α) (ngates : Int) : List (List Bool) :=
  data.map (fun row => despeckle1 row bad ngates)

/-- split row-major data into rows of width `w` -/
def rows {β : Type} (w : Nat) : Nat → List β → List (List β)
  | 0, _ => []
  | n + 1, l => l.take w :: rows w n (l.drop w)

/-- `despeckle`, csu_misc.py:66-92: Python scalars and 3-D or larger input warn and return `None`; a 0-d array has `__len__`, but
`1.0 * data` is a NumPy scalar, so the assignment of line 82 raises TypeError. -/
def despeckle (data : PyVal α) (bad : α) (ngates : Int) : Except PyErr (Option (NdArray Bool)) :=
  match data with
  | .scalar _ _ => .ok none
  | .arr a =>
    match a.shape with
    | [] => .error .typeError
    | [_] => .ok (some ⟨.int, a.shape, despeckle1 a.data bad ngates⟩)
    | [n, w] => .ok (some ⟨.int, a.shape, (despeckle2 (rows w n a.data) bad ngates).flatten⟩)
    | _ => .ok none

end Csu.Misc
