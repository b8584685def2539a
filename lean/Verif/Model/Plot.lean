import Verif.Model.Fhc
/-!
# Model of the plotting option and of `verbose` of the classifiers

`plot_beta_functions` draws, for every species, the membership curves over fixed axes.  The Matplotlib calls are not
modelled; the plotted points, the panel order, the file names and the exceptions are.
`verbose` prints; the only expression printed that can raise is `mu.max()`, on an array without elements.
-/
namespace Csu.Fhc
open Csu PyFloat Tables
variable {α : Type} [PyFloat α]

/-- `_get_beta_example`, beta_functions.py:63-66, on the array `var`; `mbf_sets[field]` may be `None`, and the index may be
too large. -/
def getBetaExample (var : List α) (set : Option (List (Row α))) (i : Nat) : Except PyErr (List α) :=
  match set with
  | none => .error .typeError
  | some rows => match rows[i]? with
    | none => .error .indexError
    | some r => .ok (var.map (fun x => 1.0 / (1.0 + (((x - r.m) / r.a) ^ (2 : α)) ^ r.b)))

/-- `label`, beta_functions.py:79-81. -/
def plotLabels : List String :=
  ["Drizzle", "Rain", "Ice_Crystals", "Aggregates", "Wet_Snow", "Vertical_Ice", "Low-Density_Graupel", "High-Density_Graupel",
   "Hail", "Big_Drops"]

/-- the axes, beta_functions.py:84-89 -/
def plotAxis (k : Key) : List α :=
  match k with
  | .DZ => (List.range 701).map (fun n => ofNat n / 10)
  | .DR => (List.range 801).map (fun n => -2.0 + ofNat n / 100)
  | .KD => (List.range 901).map (fun n => -2.0 + ofNat n / 100)
  | .LD => (List.range 5900).map (fun n => -60.0 + ofNat n / 100)
  | .RH => (List.range 2501).map (fun n => 0.75 + ofNat n / 10000)
  | .T => (List.range 1001).map (fun n => -50 + ofNat n / 10)

/-- One figure: the file it is saved to and the points of its six panels (dBZ, Kdp, Zdr, LDR, rho, T). -/
structure Figure (α : Type) where
  file : String
  panels : List (Key × List (α × α))

/-- One species of `plot_beta_functions`, beta_functions.py:91-117. -/
def plotSpecies (sets : Sets α) (band pdir : String) (i : Nat) : Except PyErr (Figure α) := do
  let dz ← getBetaExample (plotAxis .DZ) (sets .DZ) i
  let kdp ← getBetaExample (plotAxis .KD) (sets .KD) i
  let zdr ← getBetaExample (plotAxis .DR) (sets .DR) i
  let ldr ← getBetaExample (plotAxis .LD) (sets .LD) i
  let rho ← getBetaExample (plotAxis .RH) (sets .RH) i
  let t ← getBetaExample (plotAxis .T) (sets .T) i
  match plotLabels[i]? with
  | none => .error .indexError
  | some label => .ok ⟨pdir ++ label ++ "_beta_" ++ band ++ ".png",
      [(.DZ, List.zip (plotAxis .DZ) dz), (.KD, List.zip (plotAxis .KD) kdp), (.DR, List.zip (plotAxis .DR) zdr),
       (.LD, List.zip (plotAxis .LD) ldr), (.RH, List.zip (plotAxis .RH) rho), (.T, List.zip (plotAxis .T) t)]⟩

/-- `plot_beta_functions`, beta_functions.py:69-117. -/
def plotBetaFunctions (sets : Sets α) (band pdir : String) (nTypes : Nat) : Except PyErr (List (Figure α)) :=
  (List.range nTypes).mapM (plotSpecies sets band pdir)

/-- `get_mbf_sets_summer` / `_winter` / `_winterML` with `plot_flag`, beta_functions.py:200-204, 272-276, 431-435: the sets, and
the figures drawn. -/
def getMbfSetsPlot (s : Season) (useTemp plotFlag : Bool) (nTypes : Nat) (tempFactor : α) (band pdir : String) :
    Except PyErr (Sets α × List (Figure α)) := do
  let sets ← getMbfSets s useTemp tempFactor band
  if plotFlag then do
    let figs ← plotBetaFunctions sets band pdir nTypes
    .ok (sets, figs)
  else .ok (sets, [])

/-- `mu.max()`, csu_fhc.py:279-280 (= csu_fhc_winter.py:123-125, csu_fhc_ml1.py:111-112): raises on an array without elements. -/
def verboseMax (rows : List (List α)) (sz : Nat) : Except PyErr Unit :=
  if rows.length * sz = 0 then .error .valueError else .ok ()

/-- `csu_fhc_summer` with `verbose` and `plot_flag`, csu_fhc.py:171-290.  Plots go to `pdir='./'`. -/
def csuFhcSummerV (verbose plotFlag : Bool) (A : SummerArgs α) (I : Inputs α) : Except PyErr (Option (Out α)) :=
  match I.dz with
  | none => .ok none
  | some dz => do
    let useTemp := if I.T.isNone then false else A.useTemp
    let (sets, _) ← getMbfSetsPlot .summer useTemp plotFlag A.nTypes A.tempFactor A.band "./"
    match methodOf A.method with
    | none => .ok none
    | some hybrid => do
      let C := mkCfg I dz useTemp (fun k _ => A.weights k) sets hybrid A.useTrap
      let rows ← getTestList C (List.range (((sets .DZ).getD []).length))
      let sz := dz.data.length
      if verbose then verboseMax rows sz
      if rows.length * sz ≠ A.nTypes * sz then .error .valueError
      else if A.returnScores then .ok (some (.scores (A.nTypes :: dz.shape) rows))
      else if A.nTypes = 0 then .error .valueError
      else .ok (some (.hid dz.shape (classify sz rows)))

/-- `csu_fhc_winter` with `verbose`, `plot_flag` and `n_types`, csu_fhc_winter.py:32-128. -/
def csuFhcWinterV (verbose plotFlag : Bool) (nTypes : Nat) (A : WinterArgs α) (I : Inputs α) :
    Except PyErr (Option (List Nat × List (List α))) :=
  match I.dz with
  | none => .ok none
  | some dz => do
    let useTemp := if I.T.isNone then false else A.useTemp
    let (sets, _) ← getMbfSetsPlot .winter useTemp plotFlag nTypes A.tempFactor A.band "./"
    match methodOf A.method with
    | none => .ok none
    | some hybrid => do
      let C := mkCfg I dz useTemp A.weights sets hybrid false
      let types := winterTypes A.warm
      let rows ← getTestList C types
      if verbose then verboseMax rows dz.data.length
      .ok (some (types.length :: dz.shape, rows))

/-- `csu_fhc_cold_newml1` with `verbose` and `plot_flag`, csu_fhc_ml1.py:30-114. -/
def csuFhcMlV (verbose plotFlag : Bool) (A : MlArgs α) (I : Inputs α) : Except PyErr (Option (List Nat × List (List α))) :=
  match I.dz with
  | none => .ok none
  | some dz => do
    let useTemp := if I.T.isNone then false else A.useTemp
    let (sets, _) ← getMbfSetsPlot .ml useTemp plotFlag A.nTypes A.tempFactor A.band "./"
    match methodOf A.method with
    | none => .ok none
    | some hybrid => do
      let C := mkCfg I dz useTemp A.weights sets hybrid false
      let rows ← getTestList C (List.range (((sets .DZ).getD []).length))
      if verbose then verboseMax rows dz.data.length
      if rows.length * dz.data.length ≠ A.nTypes * dz.data.length then .error .valueError
      else .ok (some (A.nTypes :: dz.shape, rows))

end Csu.Fhc
