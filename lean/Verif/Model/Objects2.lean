import Verif.Heap
import Verif.Model.Objects
import Verif.Model.Winter
/-!
# The classifiers and the melting layer on array objects

`csu_fhc_summer`, `csu_fhc_winter`, `csu_fhc_cold_newml1`, `melting_layer` and `run_winter` written with references, statement by
statement: which names are new objects, which are shared, and which object every assignment writes to.

Simplifications: those of `Model/Fhc.lean`, `Model/Plot.lean` and `Model/Winter.lean`; intermediate arrays that are never written to and never
returned are values; a score array is one object per species (row); `reshape` (a view of the new array) only changes the shape.
-/
namespace Csu.Heap
open Csu PyFloat Tables Fhc
variable {α : Type} [PyFloat α]

/-- An array argument: the object and the shape. -/
structure FRef where
  ref : Ref
  shape : List Nat

/-- The measurands of a classifier call, csu_fhc.py:172, csu_fhc_winter.py:33, csu_fhc_ml1.py:31. -/
structure InRefs where
  dz : Option FRef
  zdr : Option FRef
  kdp : Option FRef
  rho : Option FRef
  ldr : Option FRef
  T : Option FRef

/-- `varlist[i]` for `keylist[i]`, csu_fhc.py:326-327. -/
def InRefs.get (R : InRefs) : Key → Option FRef
  | .DZ => R.dz
  | .DR => R.zdr
  | .KD => R.kdp
  | .RH => R.rho
  | .LD => R.ldr
  | .T => R.T

/-- `np.array(var).ravel().astype('float32')`, csu_fhc.py:336-341 (= csu_fhc_winter.py:172-177, csu_fhc_ml1.py:158-163): always a new array -/
def copyH : Option FRef → HM α (Option Ref)
  | none => pure none
  | some a => do
    let (_, l) ← getF a.ref
    let r ← newF .float l
    pure (some r)

/-- `radar_data` of `_populate_vars`, csu_fhc.py:319-347 (= csu_fhc_winter.py:156-185, csu_fhc_ml1.py:142-170). -/
def populateH (R : InRefs) : HM α (Key → Option Ref) := do
  let dz ← copyH R.dz
  let zdr ← copyH R.zdr
  let kdp ← copyH R.kdp
  let rho ← copyH R.rho
  let ldr ← copyH R.ldr
  let t ← copyH R.T
  pure (fun k => match k with
    | .DZ => dz
    | .DR => zdr
    | .KD => kdp
    | .RH => rho
    | .LD => ldr
    | .T => t)

/-- the contents of an array of `radar_data` -/
def readH : Option Ref → HM α (Option (List α))
  | none => pure none
  | some r => do
    let (_, l) ← getF r
    pure (some l)

/-- the contents of all arrays of `radar_data` -/
def readAllH (D : Key → Option Ref) : HM α (Key → Option (List α)) := do
  let dz ← readH (D .DZ)
  let zdr ← readH (D .DR)
  let kdp ← readH (D .KD)
  let rho ← readH (D .RH)
  let ldr ← readH (D .LD)
  let t ← readH (D .T)
  pure (fun k => match k with
    | .DZ => dz
    | .DR => zdr
    | .KD => kdp
    | .RH => rho
    | .LD => ldr
    | .T => t)

/-- `test *= hid_beta_f(...)` in place, or `test = hid_beta_f(...)` if there is none yet, csu_fhc.py:436-461
(= csu_fhc_winter.py:250-272, csu_fhc_ml1.py:229-250). -/
def mulH (C : Cfg α) (k : Key) (c : Nat) : Option Ref → HM α (Option Ref)
  | some t => do
    let b ← lift (member C k c)
    updF t (fun l => mulArr l b)
    pure (some t)
  | none => do
    let b ← lift (member C k c)
    let r ← newF .float b
    pure (some r)

/-- the weighted polarimetric term, csu_fhc.py:428-433 (= csu_fhc_winter.py:244-246, csu_fhc_ml1.py:223-225): a new array -/
def polH (C : Cfg α) (c : Nat) : HM α (Option Ref) :=
  if polFlag C then do
    let t ← lift (polTest C c)
    let r ← newF .float t
    pure (some r)
  else pure none

/-- `test_list.append(test)`: an unassigned `test` raises -/
def testOrRaiseH : Option Ref → HM α Ref
  | some t => pure t
  | none => raise .unboundLocalError

/-- One iteration of the loop of `_get_test_list`, csu_fhc.py:424-470 (= csu_fhc_winter.py:242-280, csu_fhc_ml1.py:221-256). -/
def testForH (mk : (Key → Option (List α)) → Cfg α) (D : Key → Option Ref) (c : Nat) : HM α Ref := do
  let data ← readAllH D
  let C := mk data
  if C.hybrid then
    let test ← polH C c
    let test ← (if C.useTemp then mulH C .T c test else pure test)
    let test ← (if C.vars .DZ ≠ 0 then mulH C .DZ c test else pure test)
    testOrRaiseH test
  else if polFlag C then
    let t ← lift (polTest C c)
    newF .float t
  else raise .unboundLocalError

/-- `_get_test_list`, csu_fhc.py:413-471 (= csu_fhc_winter.py:229-281, csu_fhc_ml1.py:210-257) -/
def testListH (mk : (Key → Option (List α)) → Cfg α) (D : Key → Option Ref) : List Nat → HM α (List Ref)
  | [] => pure []
  | c :: cs => do
    let r ← testForH mk D c
    let rs ← testListH mk D cs
    pure (r :: rs)

/-- `mu = np.array(test_list)`, csu_fhc.py:275 (= csu_fhc_winter.py:120, csu_fhc_ml1.py:107): the rows are copied -/
def copyRowsH : List Ref → HM α (List Ref)
  | [] => pure []
  | r :: rs => do
    let (_, l) ← getF r
    let q ← newF .float l
    let qs ← copyRowsH rs
    pure (q :: qs)

/-- the contents of a score array -/
def rowsH : List Ref → HM α (List (List α))
  | [] => pure []
  | r :: rs => do
    let (_, l) ← getF r
    let ls ← rowsH rs
    pure (l :: ls)

/-- `np.argmax(mu, axis=0) + 1`, csu_fhc.py:123, 134, 289, csu_fhc_melt.py:40: a new integer array -/
def classifyH (sz : Nat) (mu : List Ref) : HM α Ref := do
  let rows ← rowsH mu
  newI ((classify sz rows).map Int.ofNat)

/-- the configuration of the scoring loop, csu_fhc.py:227-268 -/
def mkCfgH (R : InRefs) (sz : Nat) (useTemp : Bool) (w : Key → Nat → α) (sets : Sets α) (hybrid trap : Bool)
    (data : Key → Option (List α)) : Cfg α :=
  { vars := fun k => if k = .T && !useTemp then 0 else if (R.get k).isSome then 1 else 0, data := data, sets := sets, w := w, sz := sz,
    hybrid := hybrid, useTemp := useTemp, trap := trap }

/-- `use_temp` after csu_fhc.py:230-231 -/
def useTempH (R : InRefs) (useTemp : Bool) : Bool := if R.T.isNone then false else useTemp

/-- The scoring part the three classifiers share, csu_fhc.py:262-275 (= csu_fhc_winter.py:101-120, csu_fhc_ml1.py:95-107): `none` for an unknown
method. -/
def muH (D : Key → Option Ref) (mk : Bool → (Key → Option (List α)) → Cfg α) (types : List Nat) : Option Bool → HM α (Option (List Ref))
  | none => pure none
  | some hybrid => do
    let rs ← testListH (mk hybrid) D types
    let mu ← copyRowsH rs
    pure (some mu)

/-- `print(.., mu.max())`, csu_fhc.py:279-280 (= csu_fhc_winter.py:123-125, csu_fhc_ml1.py:111-112) -/
def verboseH (verbose : Bool) (n sz : Nat) : HM α Unit := if verbose && n * sz == 0 then raise .valueError else pure ()

/-- What `csu_fhc_summer` returns: the score array or the category array. -/
inductive OutRef
  | scores (shape : List Nat) (mu : List Ref)
  | hid (shape : List Nat) (r : Ref)

/-- the end of `csu_fhc_summer`, csu_fhc.py:276-290 -/
def summerEndH (verbose : Bool) (A : SummerArgs α) (shape : List Nat) (sz : Nat) : Option (List Ref) → HM α (Option OutRef)
  | none => pure none
  | some mu => do
    verboseH verbose mu.length sz
    if mu.length * sz ≠ A.nTypes * sz then raise .valueError
    else if A.returnScores then pure (some (.scores (A.nTypes :: shape) mu))
    else if A.nTypes = 0 then raise .valueError
    else do
      let r ← classifyH sz mu
      pure (some (.hid shape r))

/-- `csu_fhc_summer`, csu_fhc.py:171-290. -/
def csuFhcSummerH (verbose plotFlag : Bool) (A : SummerArgs α) (R : InRefs) : HM α (Option OutRef) :=
  match R.dz with
  | none => pure none
  | some dz => do
    let D ← populateH R
    let (_, d) ← getF dz.ref
    let s ← lift (getMbfSetsPlot .summer (useTempH R A.useTemp) plotFlag A.nTypes A.tempFactor A.band "./")
    let mu ← muH D (fun hybrid => mkCfgH R d.length (useTempH R A.useTemp) (fun k _ => A.weights k) s.1 hybrid A.useTrap)
      (List.range (((s.1 .DZ).getD []).length)) (methodOf A.method)
    summerEndH verbose A dz.shape d.length mu

/-- the end of `csu_fhc_winter`, csu_fhc_winter.py:121-128 -/
def winterEndH (verbose : Bool) (shape : List Nat) (sz : Nat) : Option (List Ref) → HM α (Option (List Nat × List Ref))
  | none => pure none
  | some mu => do
    verboseH verbose mu.length sz
    pure (some (mu.length :: shape, mu))

/-- `csu_fhc_winter`, csu_fhc_winter.py:32-128. -/
def csuFhcWinterH (verbose plotFlag : Bool) (nTypes : Nat) (A : WinterArgs α) (R : InRefs) : HM α (Option (List Nat × List Ref)) :=
  match R.dz with
  | none => pure none
  | some dz => do
    let D ← populateH R
    let (_, d) ← getF dz.ref
    let s ← lift (getMbfSetsPlot .winter (useTempH R A.useTemp) plotFlag nTypes A.tempFactor A.band "./")
    let mu ← muH D (fun hybrid => mkCfgH R d.length (useTempH R A.useTemp) A.weights s.1 hybrid false) (winterTypes A.warm)
      (methodOf A.method)
    winterEndH verbose dz.shape d.length mu

/-- the end of `csu_fhc_cold_newml1`, csu_fhc_ml1.py:108-114 -/
def mlEndH (verbose : Bool) (nTypes : Nat) (shape : List Nat) (sz : Nat) : Option (List Ref) → HM α (Option (List Nat × List Ref))
  | none => pure none
  | some mu => do
    verboseH verbose mu.length sz
    if mu.length * sz ≠ nTypes * sz then raise .valueError
    else pure (some (nTypes :: shape, mu))

/-- `csu_fhc_cold_newml1`, csu_fhc_ml1.py:30-114. -/
def csuFhcMlH (verbose plotFlag : Bool) (A : MlArgs α) (R : InRefs) : HM α (Option (List Nat × List Ref)) :=
  match R.dz with
  | none => pure none
  | some dz => do
    let D ← populateH R
    let (_, d) ← getF dz.ref
    let s ← lift (getMbfSetsPlot .ml (useTempH R A.useTemp) plotFlag A.nTypes A.tempFactor A.band "./")
    let mu ← muH D (fun hybrid => mkCfgH R d.length (useTempH R A.useTemp) A.weights s.1 hybrid false)
      (List.range (((s.1 .DZ).getD []).length)) (methodOf A.method)
    mlEndH verbose A.nTypes dz.shape d.length mu

/-! ## csu_fhc_melt.py, run_winter -/

/-- `rho` as objects: missing, a plain array, or a masked array (its data, and its mask unless it is `nomask`). -/
inductive RhoRef
  | none
  | plain (a : FRef)
  | masked (a : FRef) (mask : Option Ref)

/-- the array the classifier receives -/
def RhoRef.array : RhoRef → Option FRef
  | .none => .none
  | .plain a => some a
  | .masked a _ => some a

/-- The fields of a melting-layer or winter call. -/
structure FieldRefs where
  dz : Option FRef
  zdr : Option FRef
  kdp : Option FRef
  rho : RhoRef
  sn : Option FRef
  T : Option FRef
  heights : Option FRef
  azimuths : Option Ref

/-- `rho.filled(fill_value=np.nan)`, csu_fhc_melt.py:57: the data itself if there is no mask, else a new array -/
def filledH (a : FRef) : Option Ref → HM α Ref
  | none => pure a.ref
  | some m => do
    let (dt, l) ← getF a.ref
    let b ← getB m
    let r ← newF dt l
    updF r (maskSet b PyFloat.nan)
    pure r

/-- `fh[sn < sn_thresh] = 0`, csu_fhc_melt.py:43-48 -/
def snQcH (snThresh : α) (fh : Ref) : Option FRef → HM α Unit
  | none => pure ()
  | some sn => do
    let (_, s) ← getF sn.ref
    updI fh (maskSet (s.map (fun x => x <. snThresh)) 0)

/-- `fh[whbad] = -1`, `fh[rho <= minRH] = -1`, csu_fhc_melt.py:55-62 -/
def rhoQcH (minRH : α) (fh : Ref) (a : FRef) (mask : Option Ref) : HM α Unit := do
  let rhfill ← filledH a mask
  let (_, rf) ← getF rhfill
  updI fh (maskSet (rf.map isnan) (-1))
  let (_, rh) ← getF a.ref
  updI fh (maskSet (rh.map (fun x => x <=. minRH)) (-1))

/-- a height that is `None` cannot be compared -/
def heightOrRaise : Option α → Except PyErr α
  | none => .error .typeError
  | some m => .ok m

/-- `get_ml_rhi`, csu_fhc_melt.py:89-171: `meltlev` is a new array. -/
def getMlRhiH (env : Env) (fh height : Ref) (expected : Option α) : HM α (Ref × α) := do
  let f ← getI fh
  let (_, hs) ← getF height
  let ml ← lift (mlHeightRhi env f hs expected)
  let meltlev ← newI (f.map (fun _ => 1))
  let m ← lift (heightOrRaise ml)
  updI meltlev (maskSet (hs.map (fun h => h <. m)) 0)
  updI meltlev (maskSet (hs.map (fun h => h >. m)) 2)
  pure (meltlev, m)

/-- `meltlev_az[whsec] = ML_medianZ[i]` for the sectors from `i` on, csu_fhc_melt.py:207, 248 -/
def sectorsH (nsect : Nat) (az : List α) (mlAz : Ref) : Nat → List α → HM α Unit
  | _, [] => pure ()
  | i, m :: ms => do
    updF mlAz (maskSet (inSector nsect i az) m)
    sectorsH nsect az mlAz (i + 1) ms

/-- The melting height(s) that are returned: a number, or a new array. -/
inductive MeltRef (α : Type)
  | one (m : α)
  | sectors (r : Ref)

/-- `get_ml_ppi` with azimuths, csu_fhc_melt.py:186-257.  Simplification: the medians of all sectors are computed before they are written
to `meltlev_az` (they do not depend on it). -/
def getMlPpiAzH (nsect : Nat) (azimuths : Ref) (cols : Nat) (fh dz height : Ref) (expected : Option α) : HM α (Ref × MeltRef α) := do
  let (_, azs) ← getF azimuths
  let az := azs.flatMap (fun a => List.replicate cols a)
  if nsect = 0 then raise .valueError
  else do
    let f ← getI fh
    let (_, d) ← getF dz
    let (_, hs) ← getF height
    let meds ← lift ((List.range (nsect - 1)).mapM (fun i => mlSector nsect i az f d hs expected))
    let medianZ ← newF .float meds
    let mlAz ← newF .float (f.map (fun _ => 0))
    let meltlev ← newI (f.map (fun _ => 1))
    sectorsH nsect az mlAz 0 meds
    let (_, ml) ← getF mlAz
    updI meltlev (maskSet (List.zipWith (fun h m => h >=. m) hs ml) 2)
    updI meltlev (maskSet (List.zipWith (fun h m => h <=. m) hs ml) 0)
    pure (meltlev, .sectors medianZ)

/-- `get_ml_rhi` called for a scan without sectors -/
def meltRhiH (env : Env) (fh height : Ref) (expected : Option α) : HM α (Ref × MeltRef α) := do
  let (lev, m) ← getMlRhiH env fh height expected
  pure (lev, .one m)

/-- `get_ml_ppi`, csu_fhc_melt.py:174-261; `rows` is `len(azimuths)`. -/
def getMlPpiH (env : Env) (nsect : Nat) (shape : List Nat) (fh dz height : Ref) (expected : Option α) : Option Ref → HM α (Ref × MeltRef α)
  | none => meltRhiH { env with verbose := false } fh height expected
  | some azs => match shape with
    | [0, _] => raise .indexError
    | [_, cols] => getMlPpiAzH nsect azs cols fh dz height expected
    | _ => raise .indexError

/-- The melting level of either kind of scan, csu_fhc_melt.py:69-81. -/
def meltLevelsH (env : Env) (A : MeltArgs α) (azimuths : Option Ref) (dz : Ref) (height : FRef) (fh : Ref) : HM α (Ref × MeltRef α) :=
  if isRhi A.scanType then meltRhiH env fh height.ref A.expected
  else getMlPpiH env A.nsect height.shape fh dz height.ref A.expected azimuths

/-- the classifier inputs of csu_fhc_melt.py:36-38 -/
def mlInputsH (F : FieldRefs) : InRefs :=
  { dz := F.dz, zdr := F.zdr, kdp := F.kdp, rho := F.rho.array, ldr := none, T := none }

/-- What `melting_layer` returns: four objects (the third of them, `fh`, is later changed by `run_winter`). -/
structure MeltRefs (α : Type) where
  shape : List Nat
  meltlev : Ref
  melt : MeltRef α
  fh : Ref
  scores : List Ref

/-- a classifier that returned `None`: `np.argmax(None, axis=0)` raises -/
def scoresOrRaise (o : Option (List Nat × List Ref)) : HM α (List Ref) :=
  match o with
  | none => raise .valueError
  | some (_, mu) => pure mu

/-- csu_fhc_melt.py:64-86 -/
def meltEndH (env : Env) (A : MeltArgs α) (F : FieldRefs) (dz : FRef) (fh : Ref) (mu : List Ref) : HM α (Option (MeltRefs α)) :=
  match F.heights with
  | none => pure none
  | some height => do
    let r ← meltLevelsH env A F.azimuths dz.ref height fh
    pure (some ⟨dz.shape, r.1, r.2, fh, mu⟩)

/-- `melting_layer`, csu_fhc_melt.py:31-86. -/
def meltingLayerH (env : Env) (A : MeltArgs α) (F : FieldRefs) : HM α (Option (MeltRefs α)) := do
  let o ← csuFhcMlH env.verbose false mlCallArgs (mlInputsH F)
  let mu ← scoresOrRaise o
  match F.dz with
  | none => raise .valueError
  | some dz => do
    let (_, d) ← getF dz.ref
    let fh ← classifyH d.length mu
    match F.rho with
    | .none => raise .attributeError
    | .plain _ => raise .attributeError
    | .masked a mask => do
      snQcH A.snThresh fh F.sn
      rhoQcH A.minRH fh a mask
      meltEndH env A F dz fh mu

/-- the classifier inputs of csu_fhc.py:120-122, 130-132 -/
def winterInputsH (F : FieldRefs) : InRefs :=
  { dz := F.dz, zdr := F.zdr, kdp := F.kdp, rho := none, ldr := none, T := F.T }

/-- `scores_warm` / `scores_cold`, csu_fhc.py:120-122, 130-132 -/
def winterRowsH (env : Env) (warm : Bool) (F : FieldRefs) : HM α (List Ref) := do
  let o ← csuFhcWinterH env.verbose false 7 (winterCallArgs warm) (winterInputsH F)
  scoresOrRaise o

/-- What `run_winter` returns with `return_scores`. -/
structure WinterRefs where
  shape : List Nat
  hca : Ref
  scoresMl : List Ref
  scoresWarm : List Ref
  scoresCold : List Ref
  ml : Ref
  warm : Ref
  cold : Ref

/-- unpacking the `None` of `melting_layer` is a TypeError -/
def meltOrRaise : Option (MeltRefs α) → HM α (MeltRefs α)
  | none => raise .typeError
  | some M => pure M

/-- `winter_hca[meltlev==1] = fhcold[meltlev==1]`, csu_fhc.py:146-149 -/
def gridH (grid : Bool) (hca : Ref) (lev cold : List Int) : HM α Unit :=
  if grid then updI hca (maskCopy (lev.map (· == 1)) cold) else pure ()

/-- `run_winter`, csu_fhc.py:103-166: `fh` is the object `melting_layer` returned, changed in place. -/
def runWinterH (env : Env) (A : MeltArgs α) (F : FieldRefs) : HM α WinterRefs := do
  let o ← meltingLayerH env A F
  let M ← meltOrRaise o
  match F.dz with
  | none => raise .valueError
  | some dz => do
    let muW ← winterRowsH env true F
    let (_, d) ← getF dz.ref
    let fhwarm ← classifyH d.length muW
    updI fhwarm (fun l => maskSet (l.map (· == 1)) 6 l)
    updI fhwarm (fun l => maskSet (l.map (· == 2)) 7 l)
    let muC ← winterRowsH env false F
    let fhcold ← classifyH d.length muC
    updI M.fh (fun l => maskSet (l.map (· == 2)) 5 l)
    let f ← getI M.fh
    let hca ← newI (f.map (fun _ => -1))
    let lev ← getI M.meltlev
    let w ← getI fhwarm
    updI hca (maskCopy (lev.map (· == 0)) w)
    let c ← getI fhcold
    updI hca (maskCopy (lev.map (· == 2)) c)
    gridH (A.scanType == "grid") hca lev c
    let f ← getI M.fh
    updI hca (maskSet (f.map (· == 5)) 5)
    updI hca (maskSet (f.map (· == -1)) (-1))
    updI hca (maskSet (f.map (· == 0)) (-1))
    pure ⟨M.shape, hca, M.scores, muW, muC, M.fh, fhwarm, fhcold⟩

end Csu.Heap
