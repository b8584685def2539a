import Verif.Model.Fhc
import Verif.Model.Plot
/-!
# Model of the melting-layer detection and of `run_winter`

`csu_fhc_melt.py` and `csu_fhc.py:103-166`.

Simplifications: all arrays of one call have the shape of `dz` (anything else is `notModelled`: NumPy broadcasting), and
are at least one-dimensional; only `rho` may be masked; printed text is not modelled, except that printing
`ML_mode[0]` can raise; the per-sector mode, variance, skewness, kurtosis and percentiles are computed by the code and
never used, so they are not modelled (they do not raise on a non-empty array); `meltlev` is an array of small integers
(in the PPI version it is a float array with the same values).
-/
namespace Csu
open PyFloat
variable {α : Type} [PyFloat α]

/-- the order in which NumPy sorts: NaN last -/
def npLe (a b : α) : Bool := isnan b || a <=. b

/-- `np.sort` -/
def npSort (l : List α) : List α := l.mergeSort npLe

/-- `np.median`: NaN if the array is empty or contains a NaN, else the middle element or the mean of the two middle
ones. -/
def npMedian (l : List α) : α :=
  if l.any isnan then PyFloat.nan
  else
    let s := npSort l
    let n := l.length
    if n = 0 then PyFloat.nan
    else if n % 2 = 1 then s.getD (n / 2) PyFloat.nan
    else (s.getD (n / 2 - 1) PyFloat.nan + s.getD (n / 2) PyFloat.nan) / 2

/-- `np.isfinite`: infinity minus infinity is NaN -/
def npIsFinite (x : α) : Bool := !isnan (x - x)

/-- `np.nanmean`: the mean of the values that are not NaN (NaN if there are none).  Simplification: the sum is taken from
left to right (NumPy sums pairwise). -/
def npNanmean (l : List α) : α :=
  let ok := l.filter (fun x => !isnan x)
  if ok.isEmpty then PyFloat.nan else ok.foldl (· + ·) 0 / PyFloat.ofNat ok.length

/-- the values of `a` where `mask` holds, `a[np.where(mask)]` -/
def maskGet {β : Type} (mask : List Bool) (a : List β) : List β :=
  (List.zip mask a).filterMap (fun p => if p.1 then some p.2 else none)

/-- element `i` of `np.linspace(0, 360, n)` -/
def linspace360 (n i : Nat) : α :=
  if i + 1 = n ∧ 1 < n then 360 else PyFloat.ofNat i * (360 / PyFloat.ofNat (n - 1)) + 0

namespace Fhc
open Tables

/-- What the functions below print or read from the environment: `verbose`, and whether `scipy.stats.mode` returns
arrays (SciPy before 1.11) or scalars. -/
structure Env where
  verbose : Bool
  modeIsArray : Bool

/-- The selection of wet-snow heights, csu_fhc_melt.py:97-111: `ML_z`. -/
def mlHeights (fh : List Int) (height : List α) (expected : Option α) : List α :=
  match expected with
  | some e =>
    let whHt := logicalAnd (height.map (fun h => h <=. e + 1.5)) (height.map (fun h => h >=. e - 1.5))
    maskGet (logicalAnd whHt (fh.map (· == 2))) height
  | none => maskGet (fh.map (· == 2)) height

/-- The melting height of `get_ml_rhi`, csu_fhc_melt.py:114-159.  `np.histogram` raises ValueError if a height is not
finite; printing `ML_mode[0]` raises IndexError if SciPy's mode is a scalar.  `none` is Python's `None`. -/
def mlHeightRhi (env : Env) (fh : List Int) (height : List α) (expected : Option α) : Except PyErr (Option α) :=
  let z := mlHeights fh height expected
  if z.length > 10 then
    if z.any (fun h => !npIsFinite h) then .error .valueError
    else if env.verbose && !env.modeIsArray then .error .indexError
    else .ok (some (npMedian z))
  else .ok expected

/-- The split of `get_ml_rhi`, csu_fhc_melt.py:161-167; comparing with `None` raises. -/
def splitRhi (height : List α) (ml : Option α) : Except PyErr (List Nat) :=
  match ml with
  | none => .error .typeError
  | some m =>
    let meltlev := height.map (fun _ => 1)
    let meltlev := maskSet (height.map (fun h => h <. m)) 0 meltlev
    .ok (maskSet (height.map (fun h => h >. m)) 2 meltlev)

/-- `get_ml_rhi`, csu_fhc_melt.py:89-171. -/
def getMlRhi (env : Env) (fh : List Int) (height : List α) (expected : Option α) : Except PyErr (List Nat × α) := do
  let ml ← mlHeightRhi env fh height expected
  let lev ← splitRhi height ml
  match ml with
  | none => .error .typeError
  | some m => .ok (lev, m)

/-- the sector mask `wh_az`, csu_fhc_melt.py:208: `az` is `az3d` flattened -/
def inSector (nsect i : Nat) (az : List α) : List Bool :=
  logicalAnd (az.map (fun a => a >=. linspace360 nsect i)) (az.map (fun a => a <. linspace360 nsect (i + 1)))

/-- `ML_medianZ[i]` (0 where it was not assigned), csu_fhc_melt.py:208-237.  `npts` is twice the number of gates of the
sector: the tuple of row and column indices is flattened. -/
def mlSector (nsect i : Nat) (az : List α) (fh : List Int) (dz height : List α) (expected : Option α) :
    Except PyErr α :=
  let whAz := inSector nsect i az
  let whSector1 := logicalAnd whAz (fh.map (· == 2))
  let mlSec := maskGet whSector1 height
  let npts := 2 * whAz.count true
  if npts = 0 then .error .zeroDivisionError
  else
    let perMl : α := PyFloat.ofNat mlSec.length / PyFloat.ofNat npts * 100
    if perMl >. 0.05 && npNanmean (maskGet whSector1 dz) >. 15 then
      match expected with
      | none => .error .typeError
      | some e => if PyFloat.abs (npMedian mlSec - e) >. 2.0 then .ok 0 else .ok (npMedian mlSec)
    else .ok 0

/-- `meltlev_az`: `meltlev_az[whsec] = ML_medianZ[i]` for each sector in turn, csu_fhc_melt.py:204, 207, 248. -/
def meltlevAz (nsect : Nat) (az meds : List α) : List α :=
  meds.zipIdx.foldl (fun acc p => maskSet (inSector nsect p.2 az) p.1 acc) (az.map (fun _ => 0))

/-- `get_ml_ppi` with azimuths, csu_fhc_melt.py:186-257: `height` has shape `[rows, cols]`. -/
def getMlPpiAz (nsect : Nat) (azimuths : List α) (cols : Nat) (fh : List Int) (dz height : List α)
    (expected : Option α) : Except PyErr (List Nat × List α) :=
  let az := azimuths.flatMap (fun a => List.replicate cols a)
  if nsect = 0 then .error .valueError
  else do
    let meds ← (List.range (nsect - 1)).mapM (fun i => mlSector nsect i az fh dz height expected)
    let mlAz := meltlevAz nsect az meds
    let meltlev := height.map (fun _ => 1)
    let meltlev := maskSet (List.zipWith (fun h m => h >=. m) height mlAz) 2 meltlev
    let meltlev := maskSet (List.zipWith (fun h m => h <=. m) height mlAz) 0 meltlev
    .ok (meltlev, meds)

/-- The melting height(s) that are returned: one, or one per sector. -/
inductive Melt (α : Type)
  | one (m : α)
  | sectors (ms : List α)

/-- `get_ml_ppi`, csu_fhc_melt.py:174-261. -/
def getMlPpi (env : Env) (nsect : Nat) (azimuths : Option (List α)) (shape : List Nat) (fh : List Int)
    (dz height : List α) (expected : Option α) : Except PyErr (List Nat × Melt α) :=
  match azimuths with
  | none => do
    let (lev, m) ← getMlRhi { env with verbose := false } fh height expected
    .ok (lev, .one m)
  | some azs => match shape with
    | [0, _] => .error .indexError
    | [rows, cols] =>
      if azs.length ≠ rows then .error .notModelled
      else do
        let (lev, ms) ← getMlPpiAz nsect azs cols fh dz height expected
        .ok (lev, .sectors ms)
    | [_] => .error .indexError
    | _ => .error .notModelled

/-- `rho` as a masked array; `mask` is true at invalid gates. -/
structure Masked (α : Type) where
  arr : NdArray α
  mask : List Bool

/-- `rho` may be missing, a plain array (which has no `filled`) or a masked array. -/
inductive RhoArg (α : Type)
  | none
  | plain (a : NdArray α)
  | masked (m : Masked α)

/-- the array passed to the classifier -/
def RhoArg.array : RhoArg α → Option (NdArray α)
  | .none => .none
  | .plain a => some a
  | .masked m => some m.arr

/-- Arguments of `melting_layer` and of `run_winter` other than the fields, csu_fhc_melt.py:31-34, csu_fhc.py:103-107;
the defaults are those of `run_winter` (`melting_layer` has no expected height by default). -/
structure MeltArgs (α : Type) [PyFloat α] where
  scanType : String := "ppi"
  band : String := "S"
  minRH : α := 0.5
  expected : Option α := some 4.0
  nsect : Nat := 36
  snThresh : α := 5

/-- The fields of a melting-layer or winter call. -/
structure Fields (α : Type) where
  dz : Option (NdArray α) := none
  zdr : Option (NdArray α) := none
  kdp : Option (NdArray α) := none
  rho : RhoArg α := .none
  ldr : Option (NdArray α) := none
  sn : Option (NdArray α) := none
  T : Option (NdArray α) := none
  heights : Option (NdArray α) := none
  azimuths : Option (List α) := none

/-- The quality control of `melting_layer`, csu_fhc_melt.py:42-60: low signal gives 0, then invalid `rho` gives -1, then
`rho <= minRH` gives -1. -/
def qualityControl (sn : Option (List α)) (snThresh : α) (rho : Masked α) (minRH : α) (fh : List Int) : List Int :=
  let fh := match sn with
    | none => fh
    | some s => maskSet (s.map (fun x => x <. snThresh)) 0 fh
  let fh := maskSet (List.zipWith (fun m x => m || isnan x) rho.mask rho.arr.data) (-1) fh
  maskSet (rho.arr.data.map (fun x => x <=. minRH)) (-1) fh

/-- Result of `melting_layer`. -/
structure MeltOut (α : Type) where
  shape : List Nat
  meltlev : List Nat
  melt : Melt α
  fh : List Int
  scores : List (List α)

/-- shapes agree and at least one axis -/
def sameShape (dz : NdArray α) (l : List (Option (NdArray α))) : Bool :=
  (dz.shape != []) && decide dz.WF && l.all (fun o => match o with
    | none => true
    | some a => a.shape == dz.shape && decide a.WF)

/-- `scan_type == 'rhi' or scan_type == 'grid'`, csu_fhc_melt.py:69 -/
def isRhi (s : String) : Bool := s == "rhi" || s == "grid"

/-- The melting level of either kind of scan, csu_fhc_melt.py:69-81. -/
def meltLevels (env : Env) (A : MeltArgs α) (azimuths : Option (List α)) (dz height : NdArray α) (fh : List Int) :
    Except PyErr (List Nat × Melt α) :=
  if isRhi A.scanType then do
    let (lev, m) ← getMlRhi env fh height.data A.expected
    .ok (lev, .one m)
  else getMlPpi env A.nsect azimuths height.shape fh dz.data height.data A.expected

/-- the classifier inputs of csu_fhc_melt.py:36-38: neither `ldr` nor `T` is passed -/
def mlInputs (F : Fields α) : Inputs α :=
  { dz := F.dz, zdr := F.zdr, kdp := F.kdp, rho := F.rho.array, ldr := none, T := none }

/-- the classifier arguments of csu_fhc_melt.py:36-38: `band='S'` is hard-coded -/
def mlCallArgs : MlArgs α := { useTemp := false, band := "S", method := "linear" }

/-- `melting_layer`, csu_fhc_melt.py:31-86.  `none` is Python's `None` (no heights).  `np.argmax(None, axis=0)` is a
ValueError (AxisError). -/
def meltingLayer (env : Env) (A : MeltArgs α) (F : Fields α) : Except PyErr (Option (MeltOut α)) := do
  match ← csuFhcMlV env.verbose false mlCallArgs (mlInputs F) with
  | none => .error .valueError
  | some (_, rows) => match F.dz with
    | none => .error .valueError
    | some dz =>
      if !sameShape dz [F.zdr, F.kdp, F.rho.array, F.sn, F.heights] then .error .notModelled
      else
        let fh : List Int := (classify dz.data.length rows).map Int.ofNat
        match F.rho with
        | .none => .error .attributeError
        | .plain _ => .error .attributeError
        | .masked rho =>
          if rho.mask.length ≠ dz.data.length then .error .notModelled
          else
            let fh := qualityControl (F.sn.map (·.data)) A.snThresh rho A.minRH fh
            match F.heights with
            | none => .ok none
            | some height => do
              let (lev, m) ← meltLevels env A F.azimuths dz height fh
              .ok (some ⟨dz.shape, lev, m, fh, rows⟩)

/-- the classifier inputs of csu_fhc.py:120-122, 130-132: neither `rho` nor `ldr` is passed -/
def winterInputs (F : Fields α) : Inputs α :=
  { dz := F.dz, zdr := F.zdr, kdp := F.kdp, rho := none, ldr := none, T := F.T }

/-- the classifier arguments of csu_fhc.py:120-122, 130-132: `band='C'` is hard-coded -/
def winterCallArgs (warm : Bool) : WinterArgs α := { useTemp := true, band := "C", warm := warm }

/-- `scores_warm` / `scores_cold`, csu_fhc.py:120-122, 130-132 (`np.argmax(None, axis=0)` is a ValueError) -/
def winterRows (env : Env) (warm : Bool) (F : Fields α) : Except PyErr (List (List α)) := do
  match ← csuFhcWinterV env.verbose false 7 (winterCallArgs warm) (winterInputs F) with
  | none => .error .valueError
  | some (_, rows) => .ok rows

/-- the warm species are renumbered 6 and 7, csu_fhc.py:127-128 -/
def renumberWarm (warm : List Int) : List Int :=
  let warm := maskSet (warm.map (· == 1)) 6 warm
  maskSet (warm.map (· == 2)) 7 warm

/-- wet snow is renumbered 5, csu_fhc.py:138-139 -/
def renumberMl (fh : List Int) : List Int := maskSet (fh.map (· == 2)) 5 fh

/-- The combination of csu_fhc.py:138-154.  `fh` is the melting-layer result, `warm` and `cold` the two classifier
results (1-based; the warm ones are renumbered to 6 and 7 at :127-128). -/
def combine (grid : Bool) (meltlev : List Nat) (fh : List Int) (warm cold : List Int) : List Int :=
  let warm := renumberWarm warm
  let fh := renumberMl fh
  let hca := fh.map (fun _ => -1)
  let hca := maskCopy (meltlev.map (· == 0)) warm hca
  let hca := maskCopy (meltlev.map (· == 2)) cold hca
  let hca := if grid then maskCopy (meltlev.map (· == 1)) cold hca else hca
  let hca := maskSet (fh.map (· == 5)) 5 hca
  let hca := maskSet (fh.map (· == -1)) (-1) hca
  maskSet (fh.map (· == 0)) (-1) hca

/-- Result of `run_winter` with `return_scores`: the category array, the three score arrays, and the three arrays of the
returned dictionary `hca` (csu_fhc.py:161-164). -/
structure WinterOut (α : Type) where
  shape : List Nat
  hca : List Int
  scoresMl : List (List α)
  scoresWarm : List (List α)
  scoresCold : List (List α)
  ml : List Int
  warm : List Int
  cold : List Int

/-- `run_winter`, csu_fhc.py:103-166.  Unpacking the `None` of `melting_layer` is a TypeError.  The `use_temp`, `method`,
`ldr` and (through the hard-coded bands) `band` arguments have no effect. -/
def runWinter (env : Env) (A : MeltArgs α) (F : Fields α) : Except PyErr (WinterOut α) := do
  match ← meltingLayer env A F with
  | none => .error .typeError
  | some M => match F.dz with
    | none => .error .valueError
    | some dz =>
      if !sameShape dz [F.T] then .error .notModelled
      else do
        let rowsW ← winterRows env true F
        let rowsC ← winterRows env false F
        let warm := (classify dz.data.length rowsW).map Int.ofNat
        let cold := (classify dz.data.length rowsC).map Int.ofNat
        .ok ⟨M.shape, combine (A.scanType == "grid") M.meltlev M.fh warm cold, M.scores, rowsW, rowsC,
          renumberMl M.fh, renumberWarm warm, cold⟩

end Fhc
end Csu
