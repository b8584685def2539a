import Verif.Model.Common
/-!
# Model of `csu_radartools/csu_liquid_ice_mass.py`

Arrays are raveled lists of equal length.  `np.argsort` and `np.polyfit` are parameters (external calls).
-/
namespace Csu.LiquidIce
open Csu PyFloat Csu.Common
variable {α : Type} [PyFloat α]

/-- `DEFAULT_HFRZ`, csu_liquid_ice_mass.py:18. -/
def defaultHfrz : α := 4.5

/-- `get_linear_fits`, csu_liquid_ice_mass.py:136-157. -/
def getLinearFits (method : String) : α × α :=
  if method = "cifelli" then (0.8178, 12.5088)
  else if method = "cr1995" then (0.9091, 8.5091)
  else (0.77, 14)

/-- `calc_zh_zv`, csu_liquid_ice_mass.py:160-162, one element. -/
def calcZhZv (dbz zdr : α) : α × α := (linearize dbz, linearize dbz / linearize zdr)

/-- `calc_zdp`, csu_liquid_ice_mass.py:165-168, on arrays. -/
def calcZdp (zh zv : List α) : List α :=
  let zdp := List.zipWith (· - ·) zh zv
  let zdp := maskSet (zdp.map (· <=. 0)) 0.000000000001 zdp
  zdp.map (fun x => 10 * log10 x)

/-- `get_delta_thresh`, csu_liquid_ice_mass.py:123-133. -/
def getDeltaThresh (z : List α) (hfrz : α) : List α :=
  maskCopy (z.map (· <=. hfrz)) (z.map (fun x => (-8 / 3) * (x - hfrz) + 2)) (z.map (fun _ => 0 + 1.1))

/-- `np.max` of a non-empty list `x :: xs`: NaN propagates (NumPy: `(x >= y || isnan x) ? x : y`). -/
def npMax (x : α) (xs : List α) : α := xs.foldl (fun m y => if (m >=. y) || isnan m then m else y) x

/-- `np.min` of a non-empty list; NaN propagates. -/
def npMin (x : α) (xs : List α) : α := xs.foldl (fun m y => if (m <=. y) || isnan m then m else y) x

/-- `np.interp(0.0, [x0, x1], [y0, y1])`, csu_liquid_ice_mass.py:113-116: clamped at the ends, linear in between
(slope form, as in NumPy). -/
def interp0 (x0 x1 y0 y1 : α) : α :=
  if (0 : α) >. x1 then y1
  else if (0 : α) <. x0 then y0
  else if (0 : α) >=. x1 then y1
  else if x0 ==. 0 then y0
  else
    let slope := (y1 - y0) / (x1 - x0)
    let r := slope * (0 - x0) + y0
    if isnan r then
      let r2 := slope * (0 - x1) + y1
      if isnan r2 && (y0 ==. y1) then y0 else r2
    else r

/-- `get_freezing_altitude`, csu_liquid_ice_mass.py:86-120.  `argsort` returns the indices that sort `z`,
`polyfit1 Tz zs` is the constant term of the degree-1 regression.  The bare `except` is taken exactly when no `T == 0`
(`np.max` of an empty array raises).  An empty sounding raises ValueError at line 109. -/
def getFreezingAltitude (argsort : List α → List Nat) (polyfit1 : List α → List α → α) (T z : List α) : Except PyErr (Option α) :=
  match (List.zip T z).filterMap (fun p => if p.1 ==. 0 then some p.2 else none) with
  | z0 :: zs0 => .ok (some (npMax z0 zs0))
  | [] =>
    let sin := argsort z
    let zs := sin.map (fun i => z.getD i nan)
    let Tz := sin.map (fun i => T.getD i nan)
    match T with
    | [] => .error .valueError
    | t0 :: ts =>
      if (npMax t0 ts >. 0) && (npMin t0 ts <. 0) then do
        let zarg ← argmax ((List.zip Tz zs).filterMap (fun p => if p.1 >. 0 then some p.2 else none))
        match (Tz.drop zarg).take 2, (zs.drop zarg).take 2 with
        | [a0, a1], [b0, b1] =>
          if a1 <. a0 then .ok (some (interp0 a1 a0 b1 b0)) else .ok (some (interp0 a0 a1 b0 b1))
        | _, _ => .error .indexError
      else if (npMax t0 ts <. 0) || (npMin t0 ts >. 0) then .ok (some (polyfit1 Tz zs))
      else .ok none

/-- `_get_hfrz`, csu_liquid_ice_mass.py:171-181, for `T` an array or `None` (its only caller ravels `T`). -/
def getHfrz (argsort : List α → List Nat) (polyfit1 : List α → List α → α) (T : Option (List α)) (z : List α)
    (hfrz : Option α) : Except PyErr (Option α) :=
  match T with
  | none => match hfrz with
    | none => .ok (some defaultHfrz)
    | some h => .ok (some h)
  | some T => match hfrz with
    | none => getFreezingAltitude argsort polyfit1 T z
    | some h => .ok (some h)

/-- `_liquid_ice_calcs`, csu_liquid_ice_mass.py:184-216. `fit_a` given without `fit_b` raises TypeError. -/
def liquidIceCalcs (dbz zdr deltaThresh : List α) (fitA fitB : Option α) : Except PyErr (List α × List α) := do
  let massW := dbz.map (· * 0)
  let massI := dbz.map (· * 0)
  let zh := dbz.map linearize
  let zv := List.zipWith (fun d z => (calcZhZv d z).2) dbz zdr
  let zdp := calcZdp zh zv
  let (fa, fb) ← match fitA, fitB with
    | none, _ => .ok (getLinearFits "cifelli")
    | some a, some b => .ok (a, b)
    | some _, none => .error .typeError
  let dbzEst := zdp.map (fun x => fa * x + fb)
  let deltaZ := List.zipWith (· - ·) dbz dbzEst
  let deltaZ := maskSet (deltaZ.map (· <. 0)) 0 deltaZ
  let iceFrac := deltaZ.map (fun x => 1 - (10 : α) ^ (-0.1 * x))
  let zhRain := List.zipWith (fun h f => h * (1 - f)) zh iceFrac
  let zhIce := List.zipWith (· - ·) zh zhRain
  let check := List.zipWith (· - ·) deltaZ deltaThresh
  let above := check.map (· >=. 0)
  let below := check.map (· <. 0)
  let massW := maskCopy below
    (List.zipWith (fun h v => 0.70 * (10 : α) ^ (-3 : α) * h ^ (0.886 : α) * (h / v) ^ (-4.159 : α)) zh zv) massW
  let massW := maskCopy above (zhRain.map (fun h => 3.44 * (10 : α) ^ (-3 : α) * h ^ (4 / 7 : α))) massW
  let massI := maskCopy above (zhIce.map (fun h => 1000 * pi * 917 * (4 * (10 : α) ^ (6 : α)) ^ (3 / 7 : α) *
    ((5.28 * (10 : α) ^ (-18 : α) * h) / 720) ^ (4 / 7 : α))) massI
  let massW := maskSet (zdr.map (· <. 0)) 0 massW
  return (massW, massI)

/-- `calc_liquid_ice_mass`, csu_liquid_ice_mass.py:21-78, on raveled arrays (the reshape of lines 75-76 and the
unpacking of the one-element array for scalars, line 78, are identities on the raveled data).  `method` is accepted and
not used, exactly as in the code. -/
def calcLiquidIceMass (argsort : List α → List Nat) (polyfit1 : List α → List α → α) (dbz zdr z : List α)
    (T : Option (List α)) (hfrz : Option α) (_method : String) (fitA fitB : Option α) : Except PyErr (Option (List α × List α)) := do
  match ← getHfrz argsort polyfit1 T z hfrz with
  | none => return none
  | some h =>
    let deltaThresh := getDeltaThresh z h
    let r ← liquidIceCalcs dbz zdr deltaThresh fitA fitB
    return some r

/-- `calc_liquid_ice_mass` as called, csu_liquid_ice_mass.py:55-78: ravel and reshape for arrays, wrap and unwrap for
scalars.  Unequal shapes and mixed calls: `Model/LiquidIceAny.lean`. -/
def calcLiquidIceMassVal (argsort : List α → List Nat) (polyfit1 : List α → List α → α) (dbz zdr z : PyVal α)
    (T : Option (PyVal α)) (hfrz : Option α) (method : String) (fitA fitB : Option α) :
    Except PyErr (Option (PyVal α × PyVal α)) :=
  match dbz, zdr, z, T with
  | .arr d, .arr r, .arr h, T =>
    let go (T : Option (List α)) : Except PyErr (Option (PyVal α × PyVal α)) := do
      match ← calcLiquidIceMass argsort polyfit1 d.data r.data h.data T hfrz method fitA fitB with
      | none => return none
      | some (w, i) => return some (.arr ⟨.float, d.shape, w⟩, .arr ⟨.float, d.shape, i⟩)
    if d.shape = r.shape ∧ d.shape = h.shape then
      match T with
      | none => go none
      | some (.arr t) => if t.shape = d.shape then go (some t.data) else .error .notModelled
      | some (.scalar _ _) => .error .notModelled
    else .error .notModelled
  | .scalar _ d, .scalar _ r, .scalar _ h, T =>
    let go (T : Option (List α)) : Except PyErr (Option (PyVal α × PyVal α)) := do
      match ← calcLiquidIceMass argsort polyfit1 [d] [r] [h] T hfrz method fitA fitB with
      | some ([w], [i]) => return some (.scalar .float w, .scalar .float i)
      | none => return none
      | _ => .error .indexError
    match T with
    | none => go none
    | some (.scalar _ t) => go (some [t])
    | some (.arr _) => .error .notModelled
  | _, _, _, _ => .error .notModelled

end Csu.LiquidIce
