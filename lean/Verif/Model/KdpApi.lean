import Verif.Model.Kdp
import Verif.XReal
/-!
# Model of `csu_kdp.py`: `get_fir` and `calc_kdp_bringi`

Simplifications: the filter design (`get_fir`) is on real numbers; `int32` does not overflow; ranks above 2 are only
counted; arrays of thresholds are `float32` or not (`is32`), everything else is converted by the code itself; a scalar threshold
and `bad` are Python numbers (so that adding them to a `float32` array gives a `float32` array).
-/
namespace Csu.Kdp
open Csu PyFloat

/-- The dictionary of `get_fir`, csu_kdp.py:142-152. -/
structure Fir (α : Type) where
  order : Nat
  gain : α
  coef : List α

/-- A data argument: `np.ndim` 1, 2 or anything else. -/
inductive Data (α : Type)
  | one (ray : Buf α)
  | two (rays : List (Buf α))
  | other (ndim : Nat)

/-- `np.ndim` -/
def Data.ndim {α : Type} : Data α → Nat
  | one _ => 1
  | two _ => 2
  | other k => k

/-- The threshold argument: a number, a Python list, or an array (is it `float32`?). -/
inductive Thsd (α : Type)
  | scalar (x : α)
  | list (l : List α)
  | one (is32 : Bool) (b : Buf α)
  | two (is32 : Bool) (rays : List (Buf α))

/-- What the function returns: `None`, `(None, None, None)` or the three arrays. -/
inductive Ret2 (α : Type)
  | none
  | noneTriple
  | one (out : RayOut α)
  | two (out : List (RayOut α))

variable {α : Type} [PyFloat α]

/-- The contents of memory the code does not control: what follows the filter coefficients, and the initial `nadp` of the
call for each ray. -/
structure Junk (α : Type) where
  after : Int → α
  nadp : Nat → Int

/-- the coefficients as an array in memory -/
def coefBuf (J : Junk α) (l : List α) : Buf α :=
  ⟨l.length, fun i => if 0 ≤ i ∧ i < l.length then l.getD i.toNat PyFloat.nan else J.after i⟩

/-- Passing a threshold to the parameter `float[:] thsd` of the kernel (calc_kdp_ray_fir.pyx:47): a Python object without
buffer is a TypeError; a wrong dtype a ValueError. -/
def thsdBuf (is32 : Bool) (b : Buf α) : Except PyErr (Buf α) := if is32 then .ok b else .error .valueError

/-- `thsd` for 1-D data, csu_kdp.py:107-108, 125-127: a number becomes an array like `dp`; a list has no buffer; a 2-D
array has the wrong number of dimensions. -/
def thsd1 (t : Thsd α) (dp : Buf α) : Except PyErr (Buf α) :=
  match t with
  | .scalar x => .ok ⟨dp.len, fun _ => f32 x⟩
  | .list _ => .error .typeError
  | .one f b => thsdBuf f b
  | .two _ _ => .error .valueError

/-- `thsd[ray]` for 2-D data, csu_kdp.py:107-108, 117-119: the element of a list is a `float` (no buffer: TypeError), that
of a 1-D array a NumPy scalar (a 0-dimensional buffer: ValueError); indices out of range are an IndexError. -/
def thsd2 (t : Thsd α) (dp : Buf α) (ray : Nat) : Except PyErr (Buf α) :=
  match t with
  | .scalar x => .ok ⟨dp.len, fun _ => f32 x⟩
  | .list l => if ray < l.length then .error .typeError else .error .indexError
  | .one _ b => if ray < b.len then .error .valueError else .error .indexError
  | .two f rows => match rows[ray]? with
    | some b => thsdBuf f b
    | none => .error .indexError

/-- the other arguments -/
structure KdpOpts (α : Type) where
  thsd : Thsd α
  nfilter : Int
  bad : α
  stdGate : Int

/-- csu_kdp.py:92-95 -/
def fixStdGate (g : Int) : Int := if g % 2 ≠ 1 then 11 else g

/-- `np.array(a).astype('float32')`, csu_kdp.py:102-104: a new array -/
def toF32 (b : Buf α) : Buf α := ⟨b.len, fun i => f32 (b.mem i)⟩

/-- The kernel call for one ray, csu_kdp.py:102-105, 117-119, 125-127.  The parameters `float bad`, `float fir_gain` of the kernel convert their
arguments; the coefficients are `float64` in the Cython kernel (csu_kdp.py:105) and converted to `real*4` for the Fortran one. -/
def rayCall (D : Dialect α) (J : Junk α) (fir : Fir α) (o : KdpOpts α) (ray : Nat) (dp dz rng thsd : Buf α) : Ray α :=
  { n := dp.len, dp := toF32 dp, dz := toF32 dz, rng := toF32 rng, thsd := thsd, nf := o.nfilter.toNat, bad := f32 o.bad, order := fir.order,
    gain := f32 fir.gain, coef := coefBuf J (fir.coef.map D.w), stdGate := fixStdGate o.stdGate, nadp0 := J.nadp ray }

/-- one ray of the 2-D loop, csu_kdp.py:115-119 -/
def ray2 (D : Dialect α) (J : Junk α) (fir : Fir α) (o : KdpOpts α) (dps dzs rngs : List (Buf α)) (ray : Nat) :
    Except PyErr (RayOut α) :=
  match dps[ray]?, dzs[ray]?, rngs[ray]? with
  | some dp, some dz, some rng => do
    let t ← thsd2 o.thsd dp ray
    calcKdpRayFir D false (rayCall D J fir o ray dp dz rng t)
  | _, _, _ => .error .indexError

/-- `calc_kdp_bringi` given the result of `get_fir`, csu_kdp.py:86-133; `D` says which kernel the package was built from. -/
def kdpWithFir (D : Dialect α) (J : Junk α) (fir : Except PyErr (Option (Fir α))) (dp dz rng : Option (Data α))
    (o : KdpOpts α) : Except PyErr (Ret2 α) :=
  match dp, dz, rng with
  | some dp, some dz, some rng =>
    if dp.ndim ≠ dz.ndim ∨ dp.ndim ≠ rng.ndim then .ok .none
    else do
      match ← fir with
      | none => .ok .noneTriple
      | some fir =>
        match dp, dz, rng with
        | .two dps, .two dzs, .two rngs => do
          let out ← (List.range dps.length).mapM (ray2 D J fir o dps dzs rngs)
          .ok (.two out)
        | .one dp, .one dz, .one rng => do
          let t ← thsd1 o.thsd dp
          let out ← calcKdpRayFir D false (rayCall D J fir o 0 dp dz rng t)
          .ok (.one out)
        | _, _, _ => .ok .none
  | _, _, _ => .ok .none

/-! ## `get_fir` -/
noncomputable section

/-- `np.sinc` -/
def sinc (x : ℝ) : ℝ := if x = 0 then 1 else Real.sin (Real.pi * x) / (Real.pi * x)

/-- unscaled tap `k` of `scipy.signal.firwin(n, freq, window=('gaussian', std))`: the ideal low-pass response times the
window -/
def rawTap (n : Nat) (freq std : ℝ) (k : Nat) : ℝ :=
  let m : ℝ := k - ((n : ℝ) - 1) / 2
  freq * sinc (freq * m) * Real.exp (-(m ^ 2) / (2 * std ^ 2))

/-- `scipy.signal.firwin(n, freq, window=('gaussian', std))`: taps scaled to unit gain at frequency zero; ValueError unless
`0 < freq < 1` and there is a tap. -/
def firwin (n : Int) (freq std : ℝ) : Except PyErr (List ℝ) :=
  if 0 < freq ∧ freq < 1 ∧ 0 < n then
    .ok ((List.range n.toNat).map (fun k => rawTap n.toNat freq std k /
      ((List.range n.toNat).map (rawTap n.toNat freq std)).sum))
  else .error .valueError

/-- `fir['order']`, csu_kdp.py:143 -/
def firOrder (gs window : ℝ) : Int := XR.truncR (window * 1000 / gs)

/-- `get_fir`, csu_kdp.py:136-154.  `freq = FIR_FREQ / ratio` with `ratio = order / 20` (a NumPy float, so that order 0 gives
an infinite frequency rather than an exception; `firwin` then raises ValueError). -/
def getFir (gs window : ℝ) : Except PyErr (Option (Fir XR)) :=
  if gs = 0 then .error .zeroDivisionError
  else if firOrder gs window % 2 ≠ 0 then .ok none
  else if firOrder gs window = 0 then .error .valueError
  else do
    let ratio : ℝ := firOrder gs window / 20
    let taps ← firwin (firOrder gs window + 1) (0.08 / ratio) (ratio * 28)
    .ok (some ⟨(firOrder gs window).toNat, .fin 1, taps.map .fin⟩)

/-- `calc_kdp_bringi`, csu_kdp.py:27-133. -/
def calcKdpBringi (D : Dialect XR) (J : Junk XR) (dp dz rng : Option (Data XR)) (o : KdpOpts XR) (gs window : ℝ) :
    Except PyErr (Ret2 XR) := kdpWithFir D J (getFir gs window) dp dz rng o

end
end Csu.Kdp
