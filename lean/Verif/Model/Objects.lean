import Verif.Heap
import Verif.Model.Misc
import Verif.Model.Rain
import Verif.Model.Dsd
import Verif.Model.Traps
import Verif.Model.Fundamentals
/-!
# The retrievals on array objects

The array functions of `csu_misc.py`, `csu_blended_rain.py`, `csu_blended_rain_tropical.py`, `csu_dsd.py`, `csu_liquid_ice_mass.py`,
`csu_t_traps.py` and `fundamentals.py` written with references instead of values, following the source statement by statement: which
names are new objects (`np.zeros_like`, `0.0 * dz`, arithmetic), which are other names of an argument (`_check_for_array`, `np.asarray`,
`np.atleast_1d`, `ravel`), and which object each `a[mask] = ...` writes to.

Simplifications: an intermediate array that is never written to and never returned is a value, computed from the contents of the objects at that
point; scalar calls (which have no object of the caller to change) are left to the value models; `1.0 * x` is `x`.
-/
namespace Csu.Heap
open Csu PyFloat Common
variable {α : Type} [PyFloat α]

/-! ## csu_misc.py -/

/-- the loop csu_misc.py:37-42 from index `i`: one new array per threshold -/
def insectCondsH (dz zdr : Ref) (dzRange : List (α × α)) : Nat → List α → HM α (List Ref)
  | _, [] => pure []
  | i, thresh :: rest => do
    let (_, d) ← getF dz
    let (_, z) ← getF zdr
    let c ← lift (Misc.insectCond d z dzRange i thresh)
    let r ← newB c
    let rs ← insectCondsH dz zdr dzRange (i + 1) rest
    pure (r :: rs)

/-- csu_misc.py:43-45: `store_cond` starts as another name of `mask` -/
def orAllH (storeCond : Ref) : List Ref → HM α Ref
  | [] => pure storeCond
  | c :: cs => do
    let a ← getB storeCond
    let b ← getB c
    let s ← newB (logicalOr a b)
    orAllH s cs

/-- csu_misc.py:34-36: the caller's `mask`, or a new one -/
def insectMaskH (dz zdr : Ref) (mask : Option Ref) (bad : α) : HM α Ref :=
  match mask with
  | some m => pure m
  | none => do
    let (_, d) ← getF dz
    let (_, z) ← getF zdr
    newB (logicalOr (d.map (· ==. bad)) (z.map (· ==. bad)))

/-- `insect_filter`, csu_misc.py:28-46. -/
def insectFilterH (dz zdr : Ref) (mask : Option Ref) (dzRange : List (α × α)) (drThresh : List α) (bad : α) : HM α Ref := do
  let mask ← insectMaskH dz zdr mask bad
  let cond ← insectCondsH dz zdr dzRange 0 drThresh
  orAllH mask cond

/-- `second_trip_filter_magnetron`, csu_misc.py:49-55. -/
def secondTripFilterH (vr : Ref) (bad : α) : HM α Ref := do
  let (_, v) ← getF vr
  newB (v.map (· ==. bad))

/-- `differential_phase_filter`, csu_misc.py:58-63, with a threshold array. -/
def diffPhaseFilterArrH (sdp thresh : Ref) : HM α Ref := do
  let (_, s) ← getF sdp
  let (_, t) ← getF thresh
  newB (List.zipWith (· >. ·) s t)

/-- the loop csu_misc.py:102-106: `lab[lab == feat] = 0` -/
def zeroSmallH (labels : List Nat) (ngates : Int) (lab : Ref) : List Nat → HM α Unit
  | [] => pure ()
  | feat :: feats => do
    if ((labels.filter (· == feat)).length : Int) ≤ ngates then
      updI lab (fun l => maskSet (l.map (· == (feat : Int))) 0 l)
    zeroSmallH labels ngates lab feats

/-- `_despeckle_ray`, csu_misc.py:95-107: `lab` is a new array, changed in place, and the result is a new mask.  `ray` is what `label` sees:
which elements are nonzero. -/
def despeckleRayH (ray : List Bool) (ngates : Int) : HM α Ref := do
  let labels0 := Misc.label ray
  let lab ← newI (labels0.map Int.ofNat)
  let nf := labels0.foldl max 0
  if nf > 0 then
    let labels := labels0.filter (· > 0)
    let mn := labels.foldl min nf
    let mx := labels.foldl max 0
    zeroSmallH labels ngates lab (List.range' mn (mx - mn + 1))
  let l ← getI lab
  newB (l.map (· == 0))

/-- the elements of row `az` of width `w` -/
def rowOf {β : Type} (w az : Nat) (l : List β) : List β := (l.drop (az * w)).take w

/-- `mask[az, :] = row` -/
def setRow {β : Type} (w az : Nat) (row l : List β) : List β := l.take (az * w) ++ row ++ l.drop (az * w + w)

/-- the loop csu_misc.py:85-86 -/
def despeckleRowsH (array mask : Ref) (w : Nat) (ngates : Int) : List Nat → HM α Unit
  | [] => pure ()
  | az :: azs => do
    let (_, a) ← getF array
    let r ← despeckleRayH (rowOf w az (a.map (fun x => !(x ==. 0)))) ngates
    let row ← getB r
    updB mask (setRow w az row)
    despeckleRowsH array mask w ngates azs

/-- csu_misc.py:80-92 for an array of the given shape, which is not 0-d: `array = 1.0 * data` is a copy, and only the copy and the new mask are
written. -/
def despeckleNH (data : Ref) (shape : List Nat) (bad : α) (ngates : Int) : HM α (Option Ref) := do
  let (_, d) ← getF data
  let array ← newF .float d
  let (_, a) ← getF array
  let mask ← newB (a.map (· ==. bad))
  let m ← getB mask
  updF array (maskSet m 0)
  updF array (maskSet (invert m) 1)
  match shape with
  | [n, w] => do
    despeckleRowsH array mask w ngates (List.range n)
    pure (some mask)
  | [_] => do
    let (_, a) ← getF array
    let r ← despeckleRayH (a.map (fun x => !(x ==. 0))) ngates
    pure (some r)
  | _ => pure none

/-- `despeckle`, csu_misc.py:66-92, on arrays: for a 0-d array `1.0 * data` is a NumPy scalar and line 82 raises. -/
def despeckleH (data : Ref) (shape : List Nat) (bad : α) (ngates : Int) : HM α (Option Ref) :=
  if shape = [] then raise .typeError else despeckleNH data shape bad ngates

/-! ## common.py, csu_liquid_ice_mass.py -/

/-- `calc_rain_nexrad`, common.py:35-44. -/
def calcRainNexradH (dz : Ref) (thresh a b : α) : HM α Ref := do
  let (_, d) ← getF dz
  let rr ← newF .float (d.map (calcRainZr a b))
  let (_, d) ← getF dz
  updF rr (maskSet (d.map (· >. thresh)) (calcRainZr a b thresh))
  pure rr

/-- `calc_zdp`, csu_liquid_ice_mass.py:165-168. -/
def calcZdpH (zh zv : List α) : HM α Ref := do
  let zdp ← newF .float (List.zipWith (· - ·) zh zv)
  updF zdp (fun l => maskSet (l.map (· <=. 0)) 0.000000000001 l)
  let (_, l) ← getF zdp
  newF .float (l.map (fun x => 10 * log10 x))

/-- `get_delta_thresh`, csu_liquid_ice_mass.py:123-133. -/
def getDeltaThreshH (z : Ref) (hfrz : α) : HM α Ref := do
  let (_, zs) ← getF z
  let dt ← newF .float (zs.map (fun _ => 0 + 1.1))
  let (_, zs) ← getF z
  updF dt (maskCopy (zs.map (· <=. hfrz)) (zs.map (fun x => (-8 / 3) * (x - hfrz) + 2)))
  pure dt

/-- `_liquid_ice_calcs`, csu_liquid_ice_mass.py:184-216. -/
def liquidIceCalcsH (dbz zdr deltaThresh : Ref) (fitA fitB : Option α) : HM α (Ref × Ref) := do
  let (_, d) ← getF dbz
  let massW ← newF .float (d.map (· * 0))
  let massI ← newF .float (d.map (· * 0))
  let (_, r) ← getF zdr
  let zh := d.map linearize
  let zv := List.zipWith (fun d z => (LiquidIce.calcZhZv d z).2) d r
  let zdpRef ← calcZdpH zh zv
  let (_, zdp) ← getF zdpRef
  let (fa, fb) ← lift (match fitA, fitB with
    | none, _ => .ok (LiquidIce.getLinearFits "cifelli")
    | some a, some b => .ok (a, b)
    | some _, none => .error .typeError)
  let (_, d) ← getF dbz
  let deltaZ ← newF .float (List.zipWith (· - ·) d (zdp.map (fun x => fa * x + fb)))
  updF deltaZ (fun l => maskSet (l.map (· <. 0)) 0 l)
  let (_, dz) ← getF deltaZ
  let iceFrac := dz.map (fun x => 1 - (10 : α) ^ (-0.1 * x))
  let zhRain := List.zipWith (fun h f => h * (1 - f)) zh iceFrac
  let zhIce := List.zipWith (· - ·) zh zhRain
  let (_, t) ← getF deltaThresh
  let check := List.zipWith (· - ·) dz t
  let above := check.map (· >=. 0)
  let below := check.map (· <. 0)
  updF massW (maskCopy below
    (List.zipWith (fun h v => 0.70 * (10 : α) ^ (-3 : α) * h ^ (0.886 : α) * (h / v) ^ (-4.159 : α)) zh zv))
  updF massW (maskCopy above (zhRain.map (fun h => 3.44 * (10 : α) ^ (-3 : α) * h ^ (4 / 7 : α))))
  updF massI (maskCopy above (zhIce.map (fun h => 1000 * pi * 917 * (4 * (10 : α) ^ (6 : α)) ^ (3 / 7 : α) *
    ((5.28 * (10 : α) ^ (-18 : α) * h) / 720) ^ (4 / 7 : α))))
  let (_, r) ← getF zdr
  updF massW (maskSet (r.map (· <. 0)) 0)
  pure (massW, massI)

/-- `T.ravel()`, if given, csu_liquid_ice_mass.py:60-63 -/
def tempsH (contiguous : Bool) : Option Ref → HM α (Option (List α))
  | none => pure none
  | some t => do
    let t ← ravel contiguous t
    let (_, l) ← getF t
    pure (some l)

/-- `calc_liquid_ice_mass`, csu_liquid_ice_mass.py:21-78, on arrays.  `ravel` gives other names for contiguous arguments (`contiguous`, one flag
for each argument) and copies otherwise; the reshape of the results (a view of a new array) is not shown. -/
def calcLiquidIceMassH (argsort : List α → List Nat) (polyfit1 : List α → List α → α) (contiguous : Fin 4 → Bool)
    (dbz zdr z : Ref) (T : Option Ref) (hfrz : Option α) (fitA fitB : Option α) : HM α (Option (Ref × Ref)) := do
  let dbz ← ravel (contiguous 0) dbz
  let zdr ← ravel (contiguous 1) zdr
  let z ← ravel (contiguous 2) z
  let T ← tempsH (contiguous 3) T
  let (_, zs) ← getF z
  match ← lift (LiquidIce.getHfrz argsort polyfit1 T zs hfrz) with
  | none => pure none
  | some h => do
    let deltaThresh ← getDeltaThreshH z h
    let r ← liquidIceCalcsH dbz zdr deltaThresh fitA fitB
    pure (some r)

/-! ## csu_blended_rain.py, csu_blended_rain_tropical.py -/

/-- `calc_blended_rain`, csu_blended_rain.py:67-145, on arrays (`_check_for_array`, common.py:13-19, hands back the caller's arrays).
Returned: rain, method and, at S band, Zdp and ice fraction. -/
def blendedH (P : Rain.Params α) (band : String) (dz zdr kdp : Ref) : HM α (Ref × Ref × Option (Ref × Ref)) := do
  let (dt, d) ← getF dz
  let r ← newF dt (d.map (fun _ => (0 : α)))
  let meth ← newI (d.map (fun _ => (0 : Int)))
  let nexRef ← calcRainNexradH dz P.threshNexrad P.rZA P.rZB
  let (_, rDzNexrad) ← getF nexRef
  let (_, k) ← getF kdp
  let rKdp := k.map (calcRainKdp P.rKdpA P.rKdpB)
  let condKdp := k.map (· >=. P.threshKdp)
  let (_, d) ← getF dz
  let condDz := d.map (· >=. P.threshDz)
  let condDzKdp := logicalAnd condDz condKdp
  if band = "S" then
    let (_, z) ← getF zdr
    let rKdpZdr := List.zipWith (calcRainKdpZdr P.rKdpZdrA P.rKdpZdrB P.rKdpZdrC) k z
    let rDzZdr := List.zipWith (calcRainZZdr P.rZZdrA P.rZZdrB P.rZZdrC) d z
    let zhor := d.map linearize
    let zvert := List.zipWith (fun d z => (LiquidIce.calcZhZv d z).2) d z
    let zdpRef ← calcZdpH zhor zvert
    let (_, zdp) ← getF zdpRef
    let (fitA, fitB) ← lift (Rain.rainLine P)
    let zrain := zdp.map (fun x => (10 : α) ^ ((fitA * x + fitB) / 10))
    let dzrain ← newF .float (zrain.map (fun x => 10 * log10 x))
    let fi ← newF .float (List.zipWith (fun x h => 1 - x / h) zrain zhor)
    let onlyRef ← calcRainNexradH dzrain P.threshNexrad P.rZA P.rZB
    let (_, rDzRainonly) ← getF onlyRef
    let (_, fi') ← getF fi
    let condIce := fi'.map (· <. P.threshFracIce)
    let condZdr := z.map (· >=. P.threshZdr)
    let cond1or2 := logicalAnd condIce condDzKdp
    let cond1 := logicalAnd cond1or2 condZdr
    let cond2a := logicalAnd cond1or2 (invert condZdr)
    let cond2b := logicalAnd (invert condIce) condDzKdp
    let cond2 := logicalOr cond2a cond2b
    let cond3or4 := logicalAnd condIce (invert condDzKdp)
    let cond3 := logicalAnd cond3or4 condZdr
    let cond4 := logicalAnd cond3or4 (invert condZdr)
    let cond5 := logicalAnd (invert condIce) (invert condDzKdp)
    updI meth (maskSet cond1 1)
    updF r (maskCopy cond1 (rKdpZdr.map (store dt)))
    updI meth (maskSet cond3 3)
    updF r (maskCopy cond3 (rDzZdr.map (store dt)))
    updI meth (maskSet cond5 5)
    updF r (maskCopy cond5 (rDzRainonly.map (store dt)))
    updI meth (maskSet cond2 2)
    updF r (maskCopy cond2 (rKdp.map (store dt)))
    updI meth (maskSet cond4 4)
    updF r (maskCopy cond4 (rDzNexrad.map (store dt)))
    pure (r, meth, some (zdpRef, fi))
  else
    let cond2 := condDzKdp
    let cond4 := invert condDzKdp
    updI meth (maskSet cond2 2)
    updF r (maskCopy cond2 (rKdp.map (store dt)))
    updI meth (maskSet cond4 4)
    updF r (maskCopy cond4 (rDzNexrad.map (store dt)))
    pure (r, meth, none)

/-- `csu_hidro_rain`, csu_blended_rain.py:185-253, on arrays. -/
def hidroH (P : Rain.Params α) (band : String) (dz zdr kdp fhc : Ref) : HM α (Ref × Ref) := do
  let (dt, d) ← getF dz
  let r ← newF dt (d.map (fun _ => (0 : α)))
  let meth ← newI (d.map (fun _ => (0 : Int)))
  let nexRef ← calcRainNexradH dz defaultThreshNexrad P.rZA P.rZB
  let (_, rZ88) ← getF nexRef
  let (_, k) ← getF kdp
  let rKd := k.map (calcRainKdp P.rKdpA P.rKdpB)
  let f ← getI fhc
  let condRainA := logicalOr (f.map (· == 1)) (f.map (· == 2))
  let condRain := logicalOr (f.map (· == 10)) condRainA
  let condKdp := k.map (· >=. P.threshKdp)
  let (_, d) ← getF dz
  let condDz := d.map (· >=. P.threshDz)
  let condDzKdp := logicalAnd condDz condKdp
  let condIceA := logicalOr (f.map (· == 5)) (f.map (· == 7))
  let condIceB := logicalOr (f.map (· == 8)) (f.map (· == 9))
  let condIce := logicalOr condIceA condIceB
  let condIceKdp := logicalAnd condIce condKdp
  if band = "S" then
    let (_, z) ← getF zdr
    let rZhdr := List.zipWith (calcRainZZdr P.rZZdrA P.rZZdrB P.rZZdrC) d z
    let rKddr := List.zipWith (calcRainKdpZdr P.rKdpZdrA P.rKdpZdrB P.rKdpZdrC) k z
    let condZdr := z.map (· >=. P.threshZdr)
    let condDzKdpZdr := logicalAnd condDzKdp condZdr
    let condDzKdpNotZdr := logicalAnd condDzKdp (invert condZdr)
    let condNotKdpZdr := logicalAnd (invert condKdp) condZdr
    let condNotKdpNotZdr := logicalAnd (invert condKdp) (invert condZdr)
    let cond1 := logicalAnd condRain condDzKdpZdr
    let cond2 := logicalAnd condRain condDzKdpNotZdr
    let cond3 := logicalAnd condRain condNotKdpZdr
    let cond4a := logicalAnd condRain condNotKdpNotZdr
    let cond4b := logicalAnd condRain (invert condDz)
    let cond4 := logicalOr cond4a cond4b
    updI meth (maskSet cond1 1)
    updF r (maskCopy cond1 (rKddr.map (store dt)))
    updI meth (maskSet cond3 3)
    updF r (maskCopy cond3 (rZhdr.map (store dt)))
    updI meth (maskSet condIceKdp 2)
    updF r (maskCopy condIceKdp (rKd.map (store dt)))
    updI meth (maskSet cond2 2)
    updF r (maskCopy cond2 (rKd.map (store dt)))
    updI meth (maskSet cond4 4)
    updF r (maskCopy cond4 (rZ88.map (store dt)))
    pure (r, meth)
  else
    let cond2 := condDzKdp
    let cond4 := logicalAnd (invert condDzKdp) condRain
    let condIceKdp := logicalAnd (invert condDzKdp) (invert condRain)
    updI meth (maskSet condIceKdp 2)
    updF r (maskSet condIceKdp 0)
    updI meth (maskSet cond2 2)
    updF r (maskCopy cond2 (rKd.map (store dt)))
    updI meth (maskSet cond4 4)
    updF r (maskCopy cond4 (rZ88.map (store dt)))
    pure (r, meth)

/-- csu_blended_rain_tropical.py:192-204: the reflectivity-only gates -/
def tropZH (dt : DType) (cond4 : List Bool) (rConv rStrat rAll : List α) (r meth : Ref) : Option Ref → HM α Unit
  | none => do
    updI meth (maskSet cond4 4)
    updF r (maskCopy cond4 (rAll.map (store dt)))
  | some cs => do
    let c ← getI cs
    let cond4c := logicalAnd cond4 (c.map (· == 2))
    let cond4s := logicalAnd cond4 (c.map (· == 1))
    let cond4a := logicalAnd cond4 (c.map (· == 3))
    updI meth (maskSet cond4c 5)
    updI meth (maskSet cond4s 6)
    updI meth (maskSet cond4a 4)
    updF r (maskCopy cond4c (rConv.map (store dt)))
    updF r (maskCopy cond4s (rStrat.map (store dt)))
    updF r (maskCopy cond4a (rAll.map (store dt)))

/-- csu_blended_rain_tropical.py:215-221: the ice gates of `fhc` -/
def tropFhcH (dt : DType) (condKdpz : List Bool) (rKdp : List α) (r meth : Ref) : Option Ref → HM α Unit
  | none => pure ()
  | some fhc => do
    let f ← getI fhc
    let condIce := logicalAnd (f.map (fun f => decide (f > 2))) (f.map (fun f => decide (f < 10)))
    updF r (maskSet condIce 0)
    updI meth (maskSet condIce (-1))
    let condHail := logicalAnd (f.map (· == 9)) condKdpz
    updF r (maskCopy condHail (rKdp.map (store dt)))
    updI meth (maskSet condIce 2)

/-- `calc_blended_rain_tropical`, csu_blended_rain_tropical.py:160-227, on arrays. -/
def tropicalH (P0 : Rain.TropParams α) (predef band : String) (dz zdr kdp : Ref) (cs fhc : Option Ref) : HM α (Ref × Ref) := do
  let P := Rain.tropPredef predef band P0
  let (dt, d) ← getF dz
  let r ← newF dt (d.map (fun _ => (0 : α)))
  let meth ← newI (d.map (fun _ => (-1 : Int)))
  let (_, d) ← getF dz
  let (_, z) ← getF zdr
  let (_, k) ← getF kdp
  let rConv := d.map (calcRainZr P.rZAc P.rZBc)
  let rStrat := d.map (calcRainZr P.rZAs P.rZBs)
  let rAll := d.map (calcRainZr P.rZA P.rZB)
  let rKdpZdr := List.zipWith (calcRainKdpZdr P.rKdpZdrA P.rKdpZdrB P.rKdpZdrC) k z
  let rDzZdr := List.zipWith (calcRainZZdr P.rZZdrA P.rZZdrB P.rZZdrC) d z
  let rKdp := k.map (calcRainKdp P.rKdpA P.rKdpB)
  let condKdp := k.map (· >=. P.threshKdp)
  let condDbz := d.map (· >=. P.threshDz)
  let condKdpz := logicalAnd condKdp condDbz
  let condZdr := z.map (· >=. P.threshZdr)
  let cond1 := logicalAnd condKdpz condZdr
  let cond2 := logicalAnd condKdpz (invert condZdr)
  let cond3 := logicalAnd condZdr (invert condKdpz)
  let cond4 := logicalAnd (invert condKdpz) (invert condZdr)
  tropZH dt cond4 rConv rStrat rAll r meth cs
  updI meth (maskSet cond1 1)
  updI meth (maskSet cond2 2)
  updI meth (maskSet cond3 3)
  updF r (maskCopy cond1 (rKdpZdr.map (store dt)))
  updF r (maskCopy cond2 (rKdp.map (store dt)))
  updF r (maskCopy cond3 (rDzZdr.map (store dt)))
  tropFhcH dt condKdpz rKdp r meth fhc
  let (_, d) ← getF dz
  updF r (maskSet (d.map (· <. -10)) 0)
  updI meth (maskSet (d.map (· <. -10)) (-1))
  pure (r, meth)

/-! ## csu_dsd.py -/

/-- `calc_dsd_cband_bringi_2009`, csu_dsd.py:62-77 (`Nw` is bound twice). -/
def cband2009H (dz zdr : Ref) : HM α (Ref × Ref × Ref) := do
  let (_, d) ← getF dz
  let d0 ← newF .float (d.map (0 * ·))
  let _ ← newF .float (d.map (0 * ·))
  let dzLin := d.map linearize
  let (_, z) ← getF zdr
  updF d0 (maskCopy (logicalAnd (z.map (· >=. -0.5)) (z.map (· <=. 1.25)))
    (z.map (Dsd.d0LowZdr 0.0203 (-0.1488) 0.2209 0.5571 0.801)))
  let (_, z) ← getF zdr
  updF d0 (maskCopy (z.map (· >. 1.25)) (z.map (Dsd.d0HighZdr 0.0355 (-0.3021) 1.0556 0.6844)))
  let (_, l) ← getF d0
  let nw ← newF .float (List.zipWith (fun l d => l / Dsd.powerLaw d 0.056 7.319) dzLin l)
  let (_, d) ← getF dz
  let mu ← newF .float (d.map (fun d => 0 * d + Dsd.defaultMu))
  pure (d0, nw, mu)

/-- `calc_dsd_sband_bringi_2013`, csu_dsd.py:94-112. -/
def sband2013H (dz zdr : Ref) : HM α (Ref × Ref × Ref) := do
  let (_, d) ← getF dz
  let d0 ← newF .float (d.map (0 * ·))
  let _ ← newF .float (d.map (0 * ·))
  let dzLin := d.map linearize
  let (_, z) ← getF zdr
  updF d0 (maskCopy (z.map (· <. 1)) (z.map (Dsd.d0LowZdr 0.0424 (-0.4571) 0.6125 0.457 0.8808)))
  let (_, z) ← getF zdr
  updF d0 (maskCopy (z.map (· >=. 1)) (z.map (Dsd.d0HighZdr 0.0536 (-0.1971) 0.6261 1.0815)))
  let (_, l) ← getF d0
  let nw ← newF .float (List.zipWith (fun l d => 19.76 * l / Dsd.powerLaw d 1 7.46) dzLin l)
  let (_, d) ← getF dz
  let mu ← newF .float (d.map (fun d => 0 * d + Dsd.defaultMu))
  pure (d0, nw, mu)

/-- `d0[m], Nw[m], mu[m] = triple[m]` -/
def assign3H (m : List Bool) (v : List (α × α × α)) (d0 nw mu : Ref) : HM α Unit := do
  updF d0 (maskCopy m (v.map (·.1)))
  updF nw (maskCopy m (v.map (·.2.1)))
  updF mu (maskCopy m (v.map (·.2.2)))

/-- `calc_dsd_sband_bringi_2004`, csu_dsd.py:120-148. -/
def sband2004H (dz zdr kdp : Ref) : HM α (Ref × Ref × Ref) := do
  let (_, d) ← getF dz
  let d0 ← newF .float (d.map (0 * ·))
  let nw ← newF .float (d.map (0 * ·))
  let mu ← newF .float (d.map (0 * ·))
  let (_, z) ← getF zdr
  let (_, k) ← getF kdp
  let zeta := z.map linearize
  let dzLin := d.map linearize
  let beta := List.zipWith (fun d (p : α × α) => Dsd.calcBeta d p.1 p.2) dzLin (List.zip k zeta)
  let meth1a := logicalAnd (d.map (· >=. 35)) (z.map (· >=. 0.2))
  let meth1 := logicalAnd meth1a (k.map (· >=. 0.3))
  assign3H meth1 (List.zipWith (fun d (p : α × α) => Dsd.method1 d p.1 p.2) dzLin (List.zip zeta beta)) d0 nw mu
  let (_, z) ← getF zdr
  let (_, k) ← getF kdp
  let meth2 := logicalAnd (k.map (· <. 0.3)) (z.map (· >=. 0.5))
  assign3H meth2 (List.zipWith Dsd.method2 dzLin z) d0 nw mu
  let (_, z) ← getF zdr
  let (_, k) ← getF kdp
  let meth3a := logicalAnd (z.map (· >=. 0.2)) (z.map (· <. 0.5))
  let meth3 := logicalAnd meth3a (k.map (· <. 0.3))
  assign3H meth3 (List.zipWith (fun d (p : α × α) => Dsd.method3 d p.1 p.2) dzLin (List.zip z zeta)) d0 nw mu
  let (_, z) ← getF zdr
  let (_, k) ← getF kdp
  let meth4a := logicalAnd (z.map (· >=. -0.5)) (z.map (· <. 0.2))
  let meth4 := logicalAnd meth4a (k.map (· <. 0.3))
  assign3H meth4 (List.zipWith Dsd.method4 dzLin zeta) d0 nw mu
  pure (d0, nw, mu)

/-- `calc_dsd`, csu_dsd.py:27-48, on arrays; `none` for an unknown band. -/
def calcDsdH (band method : String) (dz zdr kdp : Ref) : HM α (Option (Ref × Ref × Ref)) :=
  if band = "S" then
    if method = "2013" then do
      let r ← sband2013H dz zdr
      pure (some r)
    else do
      let r ← sband2004H dz zdr kdp
      pure (some r)
  else if band = "C" then do
    let r ← cband2009H dz zdr
    pure (some r)
  else pure none

/-! ## fundamentals.py -/

/-- `zdp`, fundamentals.py:851-879: `np.atleast_1d` hands back the caller's array. -/
def zdpH (zh zv : Ref) : HM α Ref := do
  let (dt, a) ← getF zh
  let (_, b) ← getF zv
  if a.length ≠ b.length then raise .valueError
  else
    let zdp ← newF dt (List.replicate a.length (Fund.nanLike dt))
    let (_, a) ← getF zh
    let (_, b) ← getF zv
    updF zdp (maskCopy (List.zipWith (· >. ·) a b) (List.zipWith (fun a b => Fund.store dt (10 * PyFloat.log10 (a - b))) a b))
    pure zdp

/-- `hdr`, fundamentals.py:882-922. -/
def hdrH (dbzH zdr : Ref) : HM α Ref := do
  let (_, z) ← getF zdr
  let f ← newF .float (List.replicate z.length PyFloat.nan)
  let (_, z) ← getF zdr
  updF f (maskSet (z.map (· <=. 0)) 27)
  let (_, z) ← getF zdr
  updF f (maskCopy (logicalAnd (z.map (· >. 0)) (z.map (· <=. 1.74))) (z.map (fun x => 19 * x + 27)))
  updF f (maskSet (z.map (· >. 1.74)) 60)
  let (_, d) ← getF dbzH
  let (_, l) ← getF f
  newF .float (List.zipWith (· - ·) d l)

/-! ## csu_t_traps.py -/

/-- `t_trap_agg`, csu_t_traps.py:83-100. -/
def tTrapAggH (x : Ref) (x1 x2 x3 x4 : α) : HM α Ref := do
  let (t, l) ← getF x
  let beta ← newF t (l.map (fun _ => store t 0))
  let (_, l) ← getF x
  updF beta (maskSet (l.map (· <=. x1)) (store t 0.5))
  updF beta (maskSet (Traps.between x2 x3 l) (store t 1))
  updF beta (maskSet (l.map (· >=. x4)) (store t (-1)))
  let (_, l) ← getF x
  let slope12 := 0.5 / abs (abs x1 - abs x2)
  let slope34 := 1 / abs (abs x4 - abs x3)
  updF beta (maskCopy (Traps.between x1 x2 l) ((l.map (fun v => slope12 * (abs x1 + v) + 0.5)).map (store t)))
  updF beta (maskCopy (Traps.between x3 x4 l) ((l.map (fun v => slope34 * (abs x4 - v))).map (store t)))
  pure beta

/-- `t_trap_bd`, csu_t_traps.py:102-114. -/
def tTrapBdH (x : Ref) (x1 x2 : α) : HM α Ref := do
  let (t, l) ← getF x
  let beta ← newF t (l.map (fun _ => store t 0))
  let (_, l) ← getF x
  updF beta (maskSet (l.map (· <=. x1)) (store t (-1)))
  updF beta (maskSet (l.map (· >=. x2)) (store t 1))
  let (_, l) ← getF x
  let slope12 := 2 / abs (abs x1 + abs x2)
  updF beta (maskCopy (Traps.between x1 x2 l) ((l.map (fun v => abs (slope12 * (v - x1) / (x2 - x1)))).map (store t)))
  pure beta

/-- `t_trap_dz`, csu_t_traps.py:116-128. -/
def tTrapDzH (x : Ref) (x1 x2 : α) : HM α Ref := do
  let (t, l) ← getF x
  let beta ← newF t (l.map (fun _ => store t 0))
  let (_, l) ← getF x
  updF beta (maskSet (l.map (· <=. x1)) (store t (-1)))
  updF beta (maskSet (l.map (· >=. x2)) (store t 1))
  let (_, l) ← getF x
  let slope12 := 2 / abs (abs x1 + abs x2)
  updF beta (maskCopy (Traps.between x1 x2 l) ((l.map (fun v => abs (slope12 * (v - x1) / (x2 - x1)))).map (store t)))
  pure beta

/-- `t_trap_ha`, csu_t_traps.py:130-147. -/
def tTrapHaH (x : Ref) (x1 x2 x3 x4 : α) : HM α Ref := do
  let (t, l) ← getF x
  let beta ← newF t (l.map (fun _ => store t 0))
  let (_, l) ← getF x
  updF beta (maskSet (l.map (· <=. x1)) (store t 0.2))
  updF beta (maskSet (Traps.between x2 x3 l) (store t 0.8))
  updF beta (maskSet (l.map (· >=. x4)) (store t 0.2))
  let (_, l) ← getF x
  let slope12 := 0.6 / abs (abs x1 - abs x2)
  let slope34 := 0.6 / abs (abs x4 - abs x3)
  updF beta (maskCopy (Traps.between x1 x2 l) ((l.map (fun v => slope12 * (abs x1 + v) + 0.2)).map (store t)))
  updF beta (maskCopy (Traps.between x3 x4 l) ((l.map (fun v => slope34 * (abs x4 - v) + 0.2)).map (store t)))
  pure beta

/-- `t_trap_hdg`, csu_t_traps.py:149-166. -/
def tTrapHdgH (x : Ref) (x1 x2 x3 x4 : α) : HM α Ref := do
  let (t, l) ← getF x
  let beta ← newF t (l.map (fun _ => store t 0))
  let (_, l) ← getF x
  updF beta (maskSet (l.map (· <=. x1)) (store t 0.3))
  updF beta (maskSet (Traps.between x2 x3 l) (store t 1))
  updF beta (maskSet (l.map (· >=. x4)) (store t (-1)))
  let (_, l) ← getF x
  let slope12 := 0.7 / abs (abs x1 - abs x2)
  let slope34 := 2 / abs (abs x4 - abs x3)
  updF beta (maskCopy (Traps.between x1 x2 l) ((l.map (fun v => slope12 * (abs x1 + v) + 0.3)).map (store t)))
  updF beta (maskCopy (Traps.between x3 x4 l) ((l.map (fun v => slope34 * (abs x4 - v) - 1)).map (store t)))
  pure beta

/-- `t_trap_ic`, csu_t_traps.py:169-181. -/
def tTrapIcH (x : Ref) (x1 x2 : α) : HM α Ref := do
  let (t, l) ← getF x
  let beta ← newF t (l.map (fun _ => store t 0))
  let (_, l) ← getF x
  updF beta (maskSet (l.map (· <=. x1)) (store t 1))
  updF beta (maskSet (l.map (· >=. x2)) (store t (-1)))
  let (_, l) ← getF x
  let slope12 := 1 / abs (x2 + x1)
  updF beta (maskCopy (Traps.between x1 x2 l) ((l.map (fun v => 1 - abs (slope12 * (v - x1)))).map (store t)))
  pure beta

/-- `t_trap_ldg`, csu_t_traps.py:183-200. -/
def tTrapLdgH (x : Ref) (x1 x2 x3 x4 : α) : HM α Ref := do
  let (t, l) ← getF x
  let beta ← newF t (l.map (fun _ => store t 0))
  let (_, l) ← getF x
  updF beta (maskSet (l.map (· <=. x1)) (store t 0.5))
  updF beta (maskSet (Traps.between x2 x3 l) (store t 1))
  updF beta (maskSet (l.map (· >=. x4)) (store t (-1)))
  let (_, l) ← getF x
  let slope12 := 0.5 / abs (abs x1 - abs x2)
  let slope34 := 1 / abs (abs x4 - abs x3)
  updF beta (maskCopy (Traps.between x1 x2 l) ((l.map (fun v => slope12 * (abs x1 + v) + 0.5)).map (store t)))
  updF beta (maskCopy (Traps.between x3 x4 l) ((l.map (fun v => slope34 * (abs x4 - v))).map (store t)))
  pure beta

/-- `t_trap_rain`, csu_t_traps.py:202-214. -/
def tTrapRainH (x : Ref) (x1 x2 : α) : HM α Ref := do
  let (t, l) ← getF x
  let beta ← newF t (l.map (fun _ => store t 0))
  let (_, l) ← getF x
  updF beta (maskSet (l.map (· <=. x1)) (store t (-1)))
  updF beta (maskSet (l.map (· >=. x2)) (store t 1))
  let (_, l) ← getF x
  let slope12 := 1 / abs (x2 + x1)
  updF beta (maskCopy (Traps.between x1 x2 l) ((l.map (fun v => abs (slope12 * (v - x1)))).map (store t)))
  pure beta

/-- `t_trap_ws`, csu_t_traps.py:216-224. -/
def tTrapWsH (x : Ref) (x1 x2 : α) : HM α Ref := do
  let (t, l) ← getF x
  let beta ← newF t (l.map (fun _ => store t 0))
  let (_, l) ← getF x
  updF beta (maskSet (l.map (· <=. x1)) (store t (-1)))
  updF beta (maskSet (l.map (· >=. x2)) (store t (-1)))
  let (_, l) ← getF x
  updF beta (maskSet (Traps.between x1 x2 l) (store t 1))
  pure beta

/-- `get_hid_traps`, csu_t_traps.py:19-81. -/
def getHidTrapsH (c : Int) (x : Ref) : HM α (Option Ref) :=
  let some' (p : HM α Ref) : HM α (Option Ref) := do
    let r ← p
    pure (some r)
  if c = 0 then some' (tTrapDzH x (-3) (-1))
  else if c = 1 then some' (tTrapRainH x (-10) (-2))
  else if c = 2 then some' (tTrapIcH x 0 5)
  else if c = 3 then some' (tTrapAggH x (-35) (-25) 0 5)
  else if c = 4 then some' (tTrapWsH x (-3) 3)
  else if c = 5 then some' (tTrapIcH x 0 5)
  else if c = 6 then some' (tTrapLdgH x (-40) (-30) 0 5)
  else if c = 7 then some' (tTrapHdgH x (-30) (-20) 5 30)
  else if c = 8 then some' (tTrapHaH x (-30) (-20) 5 15)
  else if c = 9 then some' (tTrapBdH x (-2) 1)
  else pure none

end Csu.Heap
