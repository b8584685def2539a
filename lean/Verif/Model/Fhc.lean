import Verif.Model.Tables
import Verif.Model.Traps
/-!
# Model of the fuzzy-logic classifiers

`csu_fhc.py` (summer), `csu_fhc_winter.py` and `csu_fhc_ml1.py` contain three copies of the same scoring code; they
differ in the weights (one number per variable, or one per variable and species), in the species looped over, and in the
trapezoid option that only the summer copy has.  The shared part is modelled once, with the weights as a function
`w : Key → Nat → α` of variable and species; each definition cites all copies.

Simplifications: `float32` conversions are the identity; masked arrays are plain arrays (the code calls `np.array`);
a scalar argument is an array of shape `[]`; `print` and `plot_flag` are left to `Model/Plot.lean`; `weights` has all six keys (and
enough entries per key); `n_types` is a natural number; a custom `fdir` is left to `Model/Csv.lean`.
-/
namespace Csu.Fhc
open Csu PyFloat Tables
variable {α : Type} [PyFloat α]

/-- Python `p in s` for strings: substring test. -/
def subList (p : List Char) : List Char → Bool
  | [] => p.isEmpty
  | c :: s => p.isPrefixOf (c :: s) || subList p s
/-- Python `p in s` for strings. -/
def isIn (p s : String) : Bool := subList p.toList s.toList

/-- One row of a parameter set: centre, width, slope. -/
structure Row (α : Type) where
  m : α
  a : α
  b : α

/-- A CSV entry as a float. -/
def rawVal (x : Option Int) : α := match x with
  | none => PyFloat.nan
  | some n => PyFloat.lit ((n : Rat) / 1000)

/-- `get_beta_set`, beta_functions.py:120-131: all three columns are divided by `factor`. -/
def getBetaSet (rows : List RawRow) (factor : α) : List (Row α) :=
  rows.map (fun r => ⟨rawVal r.m / factor, rawVal r.a / factor, rawVal r.b / factor⟩)

/-- `sets`: the parameter set of each variable; `none` is Python's `None` (no temperature set). -/
abbrev Sets (α : Type) := Key → Option (List (Row α))

/-- `get_mbf_sets_summer` / `_winter` / `_winterML` followed by `_convert_mbf_sets`, beta_functions.py:134-204, 206-276,
357-435, csu_fhc.py:298-307 (= csu_fhc_winter.py:135-144, csu_fhc_ml1.py:121-130).  `get_mbf_sets_summerML`
(beta_functions.py:278-354) is the winter set under another name. -/
def getMbfSets (s : Season) (useTemp : Bool) (tempFactor : α) (band : String) : Except PyErr (Sets α) :=
  if (csv band s .DZ).isNone then .error .fileNotFoundError
  else .ok (fun k => match k with
    | .T => if useTemp then (csv band s .T).map (fun r => getBetaSet r tempFactor) else none
    | k => (csv band s k).map (fun r => getBetaSet r 1.0))

/-- The six measurands; a scalar is an array of shape `[]`. -/
structure Inputs (α : Type) where
  dz : Option (NdArray α)
  zdr : Option (NdArray α)
  kdp : Option (NdArray α)
  rho : Option (NdArray α)
  ldr : Option (NdArray α)
  T : Option (NdArray α)

/-- `varlist[i]` for `keylist[i]`, csu_fhc.py:326-327. -/
def Inputs.get (I : Inputs α) : Key → Option (NdArray α)
  | .DZ => I.dz
  | .DR => I.zdr
  | .KD => I.kdp
  | .RH => I.rho
  | .LD => I.ldr
  | .T => I.T

/-- `radar_data` of `_populate_vars`, csu_fhc.py:319-347 (= csu_fhc_winter.py:156-185, csu_fhc_ml1.py:142-170):
flattened data of the variables that were supplied. -/
def radarData (I : Inputs α) (k : Key) : Option (List α) := (I.get k).map (·.data)

/-- `fhc_vars` after csu_fhc.py:319-347 and :256-261: 1 for a supplied variable, with `T` zeroed when temperature is
not used. -/
def fhcVars (I : Inputs α) (useTemp : Bool) (k : Key) : Nat :=
  if k = .T && !useTemp then 0 else if (I.get k).isSome then 1 else 0

/-- `hid_beta_f`, calc_kdp_ray_fir.pyx:180-196, one element. -/
def beta (r : Row α) (x : α) : α := 1.0 / (1.0 + (((x - r.m) / r.a) ^ (2.0 : α)) ^ r.b)

/-- `hid_beta_f(sz, x, a, b, m)`, calc_kdp_ray_fir.pyx:180-196, compiled with `boundscheck=False` (reading past the end
of a short array is undefined: modelled as `outOfBounds`) and `cdivision=False` (a zero width raises).
`1.0 + (...)**b` is at least 1 or NaN in IEEE arithmetic, so the outer division never raises. -/
def hidBetaF (sz : Nat) (x : List α) (r : Row α) : Except PyErr (List α) :=
  if sz = 0 then .ok []
  else if r.a ==. 0 then .error .zeroDivisionError
  else if x.length < sz then .error (.outOfBounds "x_arr" x.length)
  else .ok ((x.take sz).map (beta r))

/-- `hid_beta`, the unused NumPy version, csu_fhc.py:32-34 (= csu_fhc_winter.py:27-29, csu_fhc_ml1.py:25-27), one
element. -/
def hidBeta (x a b m : α) : α := 1.0 / (1.0 + (((x - m) / a) ^ (2 : α)) ^ b)

/-- Everything the scoring loop reads. -/
structure Cfg (α : Type) where
  vars : Key → Nat
  data : Key → Option (List α)
  sets : Sets α
  w : Key → Nat → α
  sz : Nat
  hybrid : Bool
  useTemp : Bool
  trap : Bool

/-- `varlist` of `_get_weight_sum`, csu_fhc.py:350-368 (= csu_fhc_winter.py:188-209, csu_fhc_ml1.py:173-193). -/
def varlist (hybrid : Bool) : List Key :=
  if hybrid then [.DR, .KD, .RH, .LD] else [.DR, .KD, .RH, .LD, .T, .DZ]

/-- `np.sum` of a short list. -/
def npSum (l : List α) : α := l.foldl (· + ·) 0

/-- `weight_sum` (entry `c`), csu_fhc.py:364-365 (= csu_fhc_winter.py:202-206, csu_fhc_ml1.py:187-190). -/
def weightSum (C : Cfg α) (c : Nat) : α :=
  npSum ((varlist C.hybrid).map (fun k => PyFloat.ofNat (C.vars k) * C.w k c))

/-- `_get_pol_flag`, csu_fhc.py:310-316 (= csu_fhc_winter.py:147-153, csu_fhc_ml1.py:133-139). -/
def polFlag (C : Cfg α) : Bool :=
  (C.vars .DR != 0) || (C.vars .KD != 0) || (C.vars .LD != 0) || (C.vars .RH != 0)

/-- `hid_beta_f(sz, radar_data[key], sets[key]['a'][c], sets[key]['b'][c], sets[key]['m'][c])`, as called at
csu_fhc.py:377-379, 400-401, 440-466.  Missing data is a KeyError, a `None` set a TypeError. -/
def member (C : Cfg α) (k : Key) (c : Nat) : Except PyErr (List α) :=
  match C.data k with
  | none => .error .keyError
  | some x => match C.sets k with
    | none => .error .typeError
    | some rows => match rows[c]? with
      | none => .error .indexError
      | some r => hidBetaF C.sz x r

/-- `fhc_vars[key] * weights[key] * hid_beta_f(...)` -/
def weighted (C : Cfg α) (k : Key) (c : Nat) : Except PyErr (List α) := do
  let b ← member C k c
  .ok (b.map (fun v => PyFloat.ofNat (C.vars k) * C.w k c * v))

/-- `np.sum(np.array(rows), axis=0)`: rows of different lengths do not form an array (ValueError). -/
def sumAxis0 (sz : Nat) (rows : List (List α)) : Except PyErr (List α) :=
  if rows.all (fun r => r.length == sz) then
    .ok (rows.foldl (fun acc r => List.zipWith (· + ·) acc r) (List.replicate sz 0))
  else .error .valueError

/-- the keys of `varlist` that are in `radar_data` -/
def usedKeys (C : Cfg α) : List Key := (varlist C.hybrid).filter (fun k => (C.data k).isSome)

/-- `_calculate_test`, csu_fhc.py:371-382 (= csu_fhc_winter.py:212-226, csu_fhc_ml1.py:196-207). -/
def calculateTest (C : Cfg α) (c : Nat) : Except PyErr (List α) := do
  let rows ← (usedKeys C).mapM (fun k => weighted C k c)
  let s ← sumAxis0 C.sz rows
  .ok (s.map (fun v => v / weightSum C c))

/-- the list element that `_calculate_test_trap` appends for `key`, csu_fhc.py:391-401: the temperature term is the
bare trapezoid, without weight (and whatever `fhc_vars['T']` is). -/
def trapRow (C : Cfg α) (c : Nat) (k : Key) : Except PyErr (List α) :=
  if k = .T then
    match C.data .T with
    | none => .error .keyError
    | some x => match Traps.getHidTraps (c : Int) .float x with
      | none => .error .typeError
      | some t => .ok t
  else weighted C k c

/-- `_calculate_test_trap`, csu_fhc.py:385-410. -/
def calculateTestTrap (C : Cfg α) (c : Nat) : Except PyErr (List α) := do
  let rows ← (usedKeys C).mapM (trapRow C c)
  let s ← sumAxis0 C.sz rows
  .ok (s.map (fun v => v / weightSum C c))

/-- `test *= v` on arrays of length `sz` -/
def mulArr (a b : List α) : List α := List.zipWith (· * ·) a b

/-- the weighted polarimetric / linear term, csu_fhc.py:428-433, 463-468 -/
def polTest (C : Cfg α) (c : Nat) : Except PyErr (List α) :=
  if C.trap then calculateTestTrap C c else calculateTest C c

/-- One iteration of the loop of `_get_test_list`, csu_fhc.py:424-470 (= csu_fhc_winter.py:242-280,
csu_fhc_ml1.py:221-256), with `test` unassigned at entry.  (When the loop reaches the end of an iteration without
assigning `test`, the very first iteration already raises.)  A method that is neither is excluded by the caller. -/
def testFor (C : Cfg α) (c : Nat) : Except PyErr (List α) :=
  if C.hybrid then do
    let test ← (if polFlag C then (do let t ← polTest C c; .ok (some t)) else .ok none : Except PyErr (Option (List α)))
    let test ← (if C.useTemp then (match test with
      | some t => do let b ← member C .T c; .ok (some (mulArr t b))
      | none => do let b ← member C .T c; .ok (some b)) else .ok test : Except PyErr (Option (List α)))
    let test ← (if C.vars .DZ ≠ 0 then (match test with
      | some t => do let b ← member C .DZ c; .ok (some (mulArr t b))
      | none => do let b ← member C .DZ c; .ok (some b)) else .ok test : Except PyErr (Option (List α)))
    match test with
    | some t => .ok t
    | none => .error .unboundLocalError
  else
    if polFlag C then polTest C c else .error .unboundLocalError

/-- `_get_test_list` over the species `types`, csu_fhc.py:413-471 (= csu_fhc_winter.py:229-281, csu_fhc_ml1.py:210-257).
-/
def getTestList (C : Cfg α) (types : List Nat) : Except PyErr (List (List α)) := types.mapM (testFor C)

/-- `np.argmax(mu, axis=0) + 1` for a score array given as one row per species, `sz` gates, csu_fhc.py:123,134,289,
csu_fhc_melt.py:40. -/
def argmaxPlus1 (l : List α) : Nat := match l with
  | [] => 0
  | x :: xs => argmaxGo x 0 1 xs + 1

/-- column `i` of the score array -/
def column (rows : List (List α)) (i : Nat) : List α := rows.map (fun r => r.getD i PyFloat.nan)

/-- `np.argmax(mu, axis=0) + 1` -/
def classify (sz : Nat) (rows : List (List α)) : List Nat :=
  (List.range sz).map (fun i => argmaxPlus1 (column rows i))

/-- Result of a classifier call: the score array (one row per species over the shape of `dz`) or the category array. -/
inductive Out (α : Type)
  | scores (shape : List Nat) (rows : List (List α))
  | hid (shape : List Nat) (data : List Nat)

/-- The methods the code recognises, csu_fhc.py:352-363: 'hybrid' in method, else 'linear' in method, else neither. -/
def methodOf (method : String) : Option Bool :=
  if isIn "hybrid" method then some true else if isIn "linear" method then some false else none

/-- the configuration built by csu_fhc.py:227-268 once `dz` is known to be present -/
def mkCfg (I : Inputs α) (dz : NdArray α) (useTemp : Bool) (w : Key → Nat → α) (sets : Sets α) (hybrid trap : Bool) :
    Cfg α :=
  { vars := fhcVars I useTemp, data := radarData I, sets := sets, w := w, sz := dz.data.length, hybrid := hybrid,
    useTemp := useTemp, trap := trap }

/-- `DEFAULT_WEIGHTS`, csu_fhc.py:28-29. -/
def defaultWeights : Key → α
  | .DZ => 1.5
  | .DR => 0.8
  | .KD => 1.0
  | .RH => 0.8
  | .LD => 0.5
  | .T => 0.4

/-- Keyword arguments of `csu_fhc_summer` other than the measurands, csu_fhc.py:171-174, with their defaults. -/
structure SummerArgs (α : Type) [PyFloat α] where
  useTemp : Bool := true
  weights : Key → α := defaultWeights
  method : String := "hybrid"
  useTrap : Bool := false
  nTypes : Nat := 10
  tempFactor : α := 1
  band : String := "S"
  returnScores : Bool := false

/-- the score rows of `csu_fhc_summer`, csu_fhc.py:227-277; `none` is Python's `None` -/
def summerRows (A : SummerArgs α) (I : Inputs α) : Except PyErr (Option (NdArray α × List (List α))) :=
  match I.dz with
  | none => .ok none
  | some dz => do
    let useTemp := if I.T.isNone then false else A.useTemp
    let sets ← getMbfSets .summer useTemp A.tempFactor A.band
    match methodOf A.method with
    | none => .ok none
    | some hybrid => do
      let C := mkCfg I dz useTemp (fun k _ => A.weights k) sets hybrid A.useTrap
      let rows ← getTestList C (List.range (((sets .DZ).getD []).length))
      .ok (some (dz, rows))

/-- `csu_fhc_summer`, csu_fhc.py:171-290.  `reshape` needs `10*sz == n_types*sz`; `argmax` over no species is a ValueError. -/
def csuFhcSummer (A : SummerArgs α) (I : Inputs α) : Except PyErr (Option (Out α)) := do
  match ← summerRows A I with
  | none => .ok none
  | some (dz, rows) =>
    let sz := dz.data.length
    if rows.length * sz ≠ A.nTypes * sz then .error .valueError
    else if A.returnScores then .ok (some (.scores (A.nTypes :: dz.shape) rows))
    else if A.nTypes = 0 then .error .valueError
    else .ok (some (.hid dz.shape (classify sz rows)))

/-- `DEFAULT_WEIGHTS` of the winter classifier, csu_fhc_winter.py:19-24. -/
def winterWeights (k : Key) (c : Nat) : α :=
  match k with
  | .DZ => [5, 5, 5, 5, 10, 10].getD c 0
  | .DR => [9, 9, 9, 10, 0, 0].getD c 0
  | .KD => [11, 11, 11, 10, 0, 0].getD c 0
  | .RH => [0, 0, 0, 0, 0, 0].getD c 0
  | .LD => [0, 0, 0, 0, 0, 0].getD c 0
  | .T => [0, 0, 0, 0, 20, 20].getD c 0

/-- Keyword arguments of `csu_fhc_winter`, csu_fhc_winter.py:32-35 (`n_types` has no effect on the result). -/
structure WinterArgs (α : Type) [PyFloat α] where
  useTemp : Bool := true
  weights : Key → Nat → α := winterWeights
  method : String := "linear"
  tempFactor : α := 1
  warm : Bool := false
  band : String := "S"

/-- species scored by the winter classifier, csu_fhc_winter.py:106-109 -/
def winterTypes (warm : Bool) : List Nat := if warm then [4, 5] else [0, 1, 2, 3]

/-- `csu_fhc_winter`, csu_fhc_winter.py:32-128: shape of the result and its rows. -/
def csuFhcWinter (A : WinterArgs α) (I : Inputs α) : Except PyErr (Option (List Nat × List (List α))) :=
  match I.dz with
  | none => .ok none
  | some dz => do
    let useTemp := if I.T.isNone then false else A.useTemp
    let sets ← getMbfSets .winter useTemp A.tempFactor A.band
    match methodOf A.method with
    | none => .ok none
    | some hybrid => do
      let C := mkCfg I dz useTemp A.weights sets hybrid false
      let types := winterTypes A.warm
      let rows ← getTestList C types
      .ok (some (types.length :: dz.shape, rows))

/-- `DEFAULT_WEIGHTS` of the melting-layer classifier, csu_fhc_ml1.py:21-22. -/
def mlWeights (k : Key) (_c : Nat) : α :=
  match k with
  | .DZ => 4
  | .DR => 7
  | .KD => 0
  | .RH => 14
  | .LD => 0
  | .T => 0

/-- Keyword arguments of `csu_fhc_cold_newml1`, csu_fhc_ml1.py:30-33. -/
structure MlArgs (α : Type) [PyFloat α] where
  useTemp : Bool := true
  weights : Key → Nat → α := mlWeights
  method : String := "linear"
  nTypes : Nat := 2
  tempFactor : α := 1
  band : String := "S"

/-- `csu_fhc_cold_newml1`, csu_fhc_ml1.py:30-114. -/
def csuFhcMl (A : MlArgs α) (I : Inputs α) : Except PyErr (Option (List Nat × List (List α))) :=
  match I.dz with
  | none => .ok none
  | some dz => do
    let useTemp := if I.T.isNone then false else A.useTemp
    let sets ← getMbfSets .ml useTemp A.tempFactor A.band
    match methodOf A.method with
    | none => .ok none
    | some hybrid => do
      let C := mkCfg I dz useTemp A.weights sets hybrid false
      let rows ← getTestList C (List.range (((sets .DZ).getD []).length))
      if rows.length * dz.data.length ≠ A.nTypes * dz.data.length then .error .valueError
      else .ok (some (A.nTypes :: dz.shape, rows))

end Csu.Fhc
