import Verif.Model.Fhc
import Verif.Model.KdpApi
/-!
# Masked-array arguments of the classifiers and of `calc_kdp_bringi`

A NumPy masked array is a data array with a mask; `np.array(x)` of a masked array is its *data*, without the mask
(`numpy.array` has `subok=False`).  That is what csu_fhc.py:337-341, csu_fhc_winter.py:172-179, csu_fhc_ml1.py:157-164 and
csu_kdp.py:102-104 apply to their arguments, so the functions below work on the data alone.
Not modelled: structured and hard masks.
-/
namespace Csu.Masked
open Csu PyFloat Tables

/-- A NumPy masked array: the data and, element by element, whether it is masked. -/
structure MArr (α : Type) where
  arr : NdArray α
  hidden : List Bool

/-- `np.array(var)`, csu_fhc.py:337-341: the data; the mask is dropped. -/
def npArray {α : Type} (m : MArr α) : NdArray α := m.arr

/-- The six measurands as masked arrays, csu_fhc.py:171-178. -/
structure MInputs (α : Type) where
  dz : Option (MArr α)
  zdr : Option (MArr α)
  kdp : Option (MArr α)
  rho : Option (MArr α)
  ldr : Option (MArr α)
  T : Option (MArr α)

/-- `varlist[i]` for `keylist[i]`, csu_fhc.py:326-327. -/
def MInputs.get {α : Type} (M : MInputs α) : Key → Option (MArr α)
  | .DZ => M.dz
  | .DR => M.zdr
  | .KD => M.kdp
  | .RH => M.rho
  | .LD => M.ldr
  | .T => M.T

/-- `_populate_vars`, csu_fhc.py:330-342 (= csu_fhc_winter.py:166-180, csu_fhc_ml1.py:151-165), on masked arrays. -/
def MInputs.populate {α : Type} (M : MInputs α) : Fhc.Inputs α :=
  ⟨M.dz.map npArray, M.zdr.map npArray, M.kdp.map npArray, M.rho.map npArray, M.ldr.map npArray, M.T.map npArray⟩

variable {α : Type} [PyFloat α]

/-- `csu_fhc_summer` (csu_fhc.py:171-290) called with masked arrays. -/
def csuFhcSummerM (A : Fhc.SummerArgs α) (M : MInputs α) : Except PyErr (Option (Fhc.Out α)) :=
  Fhc.csuFhcSummer A M.populate

/-- `csu_fhc_winter` (csu_fhc_winter.py:32-128) called with masked arrays. -/
def csuFhcWinterM (A : Fhc.WinterArgs α) (M : MInputs α) : Except PyErr (Option (List Nat × List (List α))) :=
  Fhc.csuFhcWinter A M.populate

/-- `csu_fhc_cold_newml1` (csu_fhc_ml1.py:30-114) called with masked arrays. -/
def csuFhcMlM (A : Fhc.MlArgs α) (M : MInputs α) : Except PyErr (Option (List Nat × List (List α))) :=
  Fhc.csuFhcMl A M.populate

/-- One ray as a masked array. -/
structure MRay (α : Type) where
  buf : Kdp.Buf α
  hidden : Nat → Bool

/-- `np.array(dp).astype('float32')`, csu_kdp.py:102-104, on a masked ray. -/
def MRay.plain (r : MRay α) : Kdp.Buf α := r.buf

/-- `calc_kdp_bringi` (csu_kdp.py:27-133) called with three masked rays. -/
noncomputable def calcKdpBringiM (D : Kdp.Dialect XR) (J : Kdp.Junk XR) (dp dz rng : MRay XR) (o : Kdp.KdpOpts XR) (gs window : ℝ) :
    Except PyErr (Kdp.Ret2 XR) :=
  Kdp.calcKdpBringi D J (some (.one dp.plain)) (some (.one dz.plain)) (some (.one rng.plain)) o gs window

end Csu.Masked
