import Verif.Model.RainMixed
/-!
# `calc_liquid_ice_mass` for arguments of any shapes, and for numbers mixed with arrays

`calc_liquid_ice_mass` (csu_liquid_ice_mass.py:55-78) looks at `dbz` only: when it has a length every argument is raveled,
whatever its own shape; when it has none every argument is wrapped in a one-element list.  Nothing compares the shapes.
This module models every such call, including the ones `Model/LiquidIce.lean` leaves as `notModelled`: NumPy's
broadcasting of the one-dimensional arrays, the length check of every boolean index, and the exceptions.

Not modelled: Python lists and masked arrays as arguments, and arrays of mixed precision.
-/
namespace Csu.LiquidIce
open Csu PyFloat Csu.Common Csu.Rain
variable {α : Type} [PyFloat α]

/-- NumPy broadcasting of a binary operation on two one-dimensional arrays -/
def bcast {β γ δ : Type} (f : β → γ → δ) (l : List β) (l' : List γ) : Except PyErr (List δ) :=
  if l.length = l'.length then .ok (List.zipWith f l l')
  else match l, l' with
    | [x], l' => .ok (l'.map (f x))
    | l, [y] => .ok (l.map (fun x => f x y))
    | _, _ => .error .valueError

/-- `target[mask] = src[mask]` on one-dimensional arrays: a boolean index must have the length of what it indexes -/
def maskCopyAny {β : Type} (mask : List Bool) (src target : List β) : Except PyErr (List β) :=
  if mask.length = src.length ∧ mask.length = target.length then .ok (maskCopy mask src target) else .error .indexError

/-- `target[mask] = v` -/
def maskSetAny {β : Type} (mask : List Bool) (v : β) (target : List β) : Except PyErr (List β) :=
  if mask.length = target.length then .ok (maskSet mask v target) else .error .indexError

/-- the `except` branch of `get_freezing_altitude`, csu_liquid_ice_mass.py:104-120, for `T` and `z` of any lengths.
`T[sin]` raises IndexError when `T` is too short; `np.polyfit` raises TypeError on empty vectors. -/
def sounding (argsort : List α → List Nat) (polyfit1 : List α → List α → α) (T z : List α) :
    Except PyErr (Option α) :=
  let sin := argsort z
  let zs := sin.map (fun i => z.getD i nan)
  if sin.any (fun i => T.length ≤ i) then .error .indexError
  else
    let Tz := sin.map (fun i => T.getD i nan)
    match T with
    | [] => .error .valueError
    | t0 :: ts =>
      if (npMax t0 ts >. 0) && (npMin t0 ts <. 0) then do
        let zarg ← argmax ((List.zip Tz zs).filterMap (fun p => if p.1 >. 0 then some p.2 else none))
        match (Tz.drop zarg).take 2, (zs.drop zarg).take 2 with
        | [a0, a1], [b0, b1] =>
          if a1 <. a0 then .ok (some (interp0 a1 a0 b1 b0)) else .ok (some (interp0 a0 a1 b0 b1))
        | _, _ => .error .indexError
      else if (npMax t0 ts <. 0) || (npMin t0 ts >. 0) then
        if Tz.isEmpty then .error .typeError else .ok (some (polyfit1 Tz zs))
      else .ok none

/-- `get_freezing_altitude`, csu_liquid_ice_mass.py:86-120, for `T` and `z` of any lengths: unequal lengths make
`z[T == 0]` raise IndexError, which the bare `except` of line 99 swallows. -/
def freezingAny (argsort : List α → List Nat) (polyfit1 : List α → List α → α) (T z : List α) :
    Except PyErr (Option α) :=
  if T.length = z.length then getFreezingAltitude argsort polyfit1 T z else sounding argsort polyfit1 T z

/-- `_get_hfrz`, csu_liquid_ice_mass.py:171-181, after the raveling -/
def hfrzAny (argsort : List α → List Nat) (polyfit1 : List α → List α → α) (T : Option (List α)) (z : List α)
    (hfrz : Option α) : Except PyErr (Option α) :=
  match hfrz, T with
  | some h, _ => .ok (some h)
  | none, none => .ok (some defaultHfrz)
  | none, some T => freezingAny argsort polyfit1 T z

/-- csu_liquid_ice_mass.py:194-196: `fit_a` given without `fit_b` raises TypeError -/
def fitLine (fitA fitB : Option α) : Except PyErr (α × α) :=
  match fitA, fitB with
  | none, _ => .ok (getLinearFits "cifelli")
  | some a, some b => .ok (a, b)
  | some _, none => .error .typeError

/-- `_liquid_ice_calcs`, csu_liquid_ice_mass.py:184-216, on one-dimensional arrays of any lengths. -/
def liquidIceCalcsAny (dbz zdr deltaThresh : List α) (fitA fitB : Option α) : Except PyErr (List α × List α) := do
  let massW := dbz.map (· * 0)
  let massI := dbz.map (· * 0)
  let zh := dbz.map linearize
  let zv ← bcast (fun h r => h / linearize r) zh zdr
  let diff ← bcast (· - ·) zh zv
  let diff := maskSet (diff.map (· <=. 0)) 0.000000000001 diff
  let zdp := diff.map (fun x => 10 * log10 x)
  let fab ← fitLine fitA fitB
  let dbzEst := zdp.map (fun x => fab.1 * x + fab.2)
  let deltaZ ← bcast (· - ·) dbz dbzEst
  let deltaZ := maskSet (deltaZ.map (· <. 0)) 0 deltaZ
  let iceFrac := deltaZ.map (fun x => 1 - (10 : α) ^ (-0.1 * x))
  let zhRain ← bcast (fun h f => h * (1 - f)) zh iceFrac
  let zhIce ← bcast (· - ·) zh zhRain
  let check ← bcast (· - ·) deltaZ deltaThresh
  let above := check.map (· >=. 0)
  let below := check.map (· <. 0)
  if below.length ≠ zh.length ∨ below.length ≠ zv.length then throw .indexError
  let massW ← maskCopyAny below
    (List.zipWith (fun h v => 0.70 * (10 : α) ^ (-3 : α) * h ^ (0.886 : α) * (h / v) ^ (-4.159 : α)) zh zv) massW
  let massW ← maskCopyAny above (zhRain.map (fun h => 3.44 * (10 : α) ^ (-3 : α) * h ^ (4 / 7 : α))) massW
  let massI ← maskCopyAny above (zhIce.map (fun h => 1000 * pi * 917 * (4 * (10 : α) ^ (6 : α)) ^ (3 / 7 : α) *
    ((5.28 * (10 : α) ^ (-18 : α) * h) / 720) ^ (4 / 7 : α))) massI
  let massW ← maskSetAny (zdr.map (· <. 0)) 0 massW
  return (massW, massI)

/-- `x.ravel()`, csu_liquid_ice_mass.py:58-62: a plain Python number has no such method; a NumPy number gives one element. -/
def ravel : Arg α → Except PyErr (List α)
  | .num .py _ => .error .attributeError
  | .num .np x => .ok [x]
  | .arr a => .ok a.data

/-- the same for `T`, which may be `None`, csu_liquid_ice_mass.py:61-62 -/
def optRavel : Option (Arg α) → Except PyErr (Option (List α))
  | none => .ok none
  | some t => (ravel t).map some

/-- `np.array([x])`, csu_liquid_ice_mass.py:64-68: the shape and the data -/
def wrapped : Arg α → List Nat × List α
  | .num _ x => ([1], [x])
  | .arr a => (1 :: a.shape, a.data)

/-- one axis of NumPy broadcasting -/
def bdim (a b : Nat) : Option Nat := if a = b then some a else if a = 1 then some b else if b = 1 then some a else none

/-- NumPy broadcasting of two shapes, last axis first -/
def bshapeRev : List Nat → List Nat → Option (List Nat)
  | [], s => some s
  | s, [] => some s
  | a :: s, b :: s' => match bdim a b, bshapeRev s s' with
    | some c, some t => some (c :: t)
    | _, _ => none

/-- NumPy broadcasting of two shapes -/
def bshape (s s' : List Nat) : Option (List Nat) := (bshapeRev s.reverse s'.reverse).map List.reverse

/-- the exception of `fit_a` given without `fit_b`, csu_liquid_ice_mass.py:196 -/
def fitError (fitA fitB : Option α) : Bool := fitA.isSome && fitB.isNone

/-- `calc_liquid_ice_mass`, csu_liquid_ice_mass.py:21-78, for `dbz` a number (`_liquid_ice_calcs` is reached with `dbz`
of shape (1,); `check` of line 201 has the broadcast shape of the wrapped `zdr` and `z`, and a mask of two or more axes
raises IndexError on the one-axis arrays of line 206) or an array, and anything for the others. -/
def calcLiquidIceMassAny (argsort : List α → List Nat) (polyfit1 : List α → List α → α) (dbz zdr z : Arg α)
    (T : Option (Arg α)) (hfrz : Option α) (_method : String) (fitA fitB : Option α) :
    Except PyErr (Option (PyVal α × PyVal α)) :=
  match dbz with
  | .arr d => do
    let r ← ravel zdr
    let h ← ravel z
    let t ← optRavel T
    match ← hfrzAny argsort polyfit1 t h hfrz with
    | none => return none
    | some lvl =>
      let (w, i) ← liquidIceCalcsAny d.data r (getDeltaThresh h lvl) fitA fitB
      return some (.arr ⟨.float, d.shape, w⟩, .arr ⟨.float, d.shape, i⟩)
  | .num _ d => do
    let (s, r) := wrapped zdr
    let (s', h) := wrapped z
    match ← hfrzAny argsort polyfit1 (T.map (fun t => (wrapped t).2)) h hfrz with
    | none => return none
    | some lvl =>
      if fitError fitA fitB then throw .typeError
      match bshape s s' with
      | none => throw .valueError
      | some sh =>
        if sh.length ≠ 1 then throw .indexError
        match ← liquidIceCalcsAny [d] r (getDeltaThresh h lvl) fitA fitB with
        | ([w], [i]) => return some (.scalar .float w, .scalar .float i)
        | _ => throw .indexError

end Csu.LiquidIce
