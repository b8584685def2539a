import Verif.Model.Winter
import Verif.Model.CsvText
/-!
# Reading the parameter files: `fdir`, `pandas.read_csv`, and the classifiers with a table directory

The classifiers read their membership parameters from CSV files in the directory `fdir` each time they are called.
`Model/Fhc.lean` uses the shipped tables directly; here the files are read and parsed, so that `fdir` can be any
directory and the shipped tables can be compared with the text of the shipped files.

A file system is a function from paths to file contents.

Simplifications of `pandas.read_csv` (called with `index_col=0` only): text with quotation marks, and rows with more
fields than the header, are `notModelled`; a column of `True`/`False` or infinities counts as text; numbers are decimal
(`sign digits . digits e sign digits`) and converted exactly, surrounding blanks are ignored.
-/
namespace Csu.Csv
open Csu PyFloat Tables Fhc
variable {α : Type} [PyFloat α]

/-- The files that can be read: path to contents. -/
abbrev Files := String → Option String

/-- blank or tab -/
def isBlank (c : Char) : Bool := c == ' ' || c == '\t'

/-- split at every character satisfying `p` -/
def splitAtP (p : Char → Bool) : List Char → List (List Char)
  | [] => [[]]
  | c :: cs =>
    if p c then [] :: splitAtP p cs
    else match splitAtP p cs with
      | [] => [[c]]
      | f :: fs => (c :: f) :: fs

/-- without surrounding blanks -/
def trim (l : List Char) : List Char := ((l.dropWhile isBlank).reverse.dropWhile isBlank).reverse

/-- the value of a digit -/
def digit (c : Char) : Option Nat := if c.isDigit then some (c.toNat - '0'.toNat) else none

/-- the digits at the front: their value, their number, and the rest -/
def digits : List Char → Nat × Nat → (Nat × Nat) × List Char
  | [], acc => (acc, [])
  | c :: cs, acc => match digit c with
    | some d => digits cs (10 * acc.1 + d, acc.2 + 1)
    | none => (acc, c :: cs)

/-- an optional sign -/
def sign : List Char → Bool × List Char
  | '-' :: cs => (true, cs)
  | '+' :: cs => (false, cs)
  | cs => (false, cs)

/-- `10 ^ e` -/
def pow10 (e : Int) : Rat := if e < 0 then 1 / (10 : Rat) ^ e.natAbs else (10 : Rat) ^ e.natAbs

/-- the exponent part: nothing, or `e` and an integer -/
def exponent : List Char → Option Int
  | [] => some 0
  | c :: cs =>
    if c = 'e' || c = 'E' then
      let (neg, cs) := sign cs
      let ((v, n), rest) := digits cs (0, 0)
      if n = 0 || !rest.isEmpty then none else some (if neg then -(v : Int) else v)
    else none

/-- a point and the digits after it: they continue the number `v`, and are counted -/
def fraction (v : Nat) : List Char → (Nat × Nat) × List Char
  | '.' :: r => digits r (v, 0)
  | r => ((v, 0), r)

/-- the number after its sign: digits, at most one point, exponent -/
def unsigned (cs : List Char) : Option Rat :=
  let ((v, n), rest) := digits cs (0, 0)
  let ((w, k), rest) := fraction v rest
  if n + k = 0 then none
  else (exponent rest).map (fun e => (w : Rat) * pow10 (e - k))

/-- a field as a number -/
def parseNum (l : List Char) : Option Rat :=
  let (neg, cs) := sign (trim l)
  (unsigned cs).map (fun q => if neg then -q else q)

/-- the texts `pandas.read_csv` takes for a missing value -/
def naTexts : List (List Char) :=
  ["", "#N/A", "#N/A N/A", "#NA", "-1.#IND", "-1.#QNAN", "-NaN", "-nan", "1.#IND", "1.#QNAN", "<NA>", "N/A", "NA", "NULL",
   "NaN", "None", "n/a", "nan", "null"].map String.toList

/-- A CSV field of a numeric column: `some none` is missing (NaN), `none` is text. -/
def field (l : List Char) : Option (Option Rat) :=
  if l ∈ naTexts then some none
  else match parseNum l with
    | some q => some (some q)
    | none => none

/-- A parsed file: column names (the first is the index) and rows. -/
structure Table where
  header : List (List Char)
  rows : List (List (List Char))

/-- `pandas.read_csv(filename, index_col=0)` on the contents of the file, beta_functions.py:127: blank lines are skipped,
the first line is the header, short rows are filled with missing values; an empty file is an EmptyDataError (a
ValueError). -/
def parseCsv (text : List Char) : Except PyErr Table :=
  if '"' ∈ text then .error .notModelled
  else
    let lines := (splitAtP (fun c => c == '\n' || c == '\r') text).filter (fun l => !l.all isBlank)
    match lines with
    | [] => .error .valueError
    | h :: rest =>
      let header := splitAtP (· == ',') h
      let rows := rest.map (splitAtP (· == ','))
      if rows.any (fun r => decide (header.length < r.length)) then .error .notModelled
      else .ok ⟨header, rows⟩

/-- `pandas.read_csv`, beta_functions.py:127, on the contents of a file -/
def readCsv (text : String) : Except PyErr Table := parseCsv text.toList

/-- `beta_parameters.loc[:, label]`, beta_functions.py:130, as exact decimals (`none` is NaN): KeyError without such a column
(the first column is the index, not a column); text is only noticed by the division, TypeError. -/
def rawColumn (t : Table) (label : String) : Except PyErr (List (Option Rat)) :=
  match t.header.idxOf? label.toList with
  | none => .error .keyError
  | some 0 => .error .keyError
  | some i => match t.rows.mapM (fun r => field (r.getD i [])) with
    | none => .error .typeError
    | some vs => .ok vs

/-- a decimal as a float -/
def decVal (v : Option Rat) : α := match v with
  | none => PyFloat.nan
  | some q => PyFloat.lit q

/-- `np.array(beta_parameters.loc[:, label]) / factor`, beta_functions.py:130. -/
def columnOf (t : Table) (label : String) (factor : α) : Except PyErr (List α) := do
  let vs ← rawColumn t label
  .ok (vs.map (fun v => decVal v / factor))

/-- the three columns as rows -/
def toRows (m a b : List α) : List (Row α) := List.zipWith (fun m ab => ⟨m, ab.1, ab.2⟩) m (List.zip a b)

/-- `get_beta_set(filename, factor)`, beta_functions.py:120-131. -/
def getBetaSetF (fs : Files) (filename : String) (factor : α) : Except PyErr (List (Row α)) :=
  match fs filename with
  | none => .error .fileNotFoundError
  | some text => do
    let t ← readCsv text
    let m ← columnOf t "m" factor
    let a ← columnOf t "a" factor
    let b ← columnOf t "b" factor
    .ok (toRows m a b)

/-- the variable's part of the file name, e.g. beta_functions.py:397-418 -/
def varName : Key → String
  | .DZ => "Reflectivity"
  | .DR => "Differential_Reflectivity"
  | .KD => "Specific_Differential_Phase"
  | .RH => "Correlation_Coefficient"
  | .LD => "Linear_Depolarization_Ratio"
  | .T => "Temperature"

/-- the end of the file name: beta_functions.py:397-418 (summer), 166-187 (winter), 238-259 (melting layer) -/
def seasonSuffix : Season → String
  | .summer => ".csv"
  | .winter => "_winter.csv"
  | .ml => "_ML.csv"

/-- `fname`, beta_functions.py:166-187, 238-259, 397-418 -/
def fileName (band : String) (s : Season) (k : Key) : String := band ++ ("-band_" ++ varName k ++ seasonSuffix s)

/-- `get_mbf_sets_summer` / `_winter` / `_winterML` followed by `_convert_mbf_sets`, beta_functions.py:134-204, 206-276,
357-435, reading the files of `fdir` in the order of the code. -/
def getMbfSetsF (fs : Files) (fdir : String) (s : Season) (useTemp : Bool) (tempFactor : α) (band : String) :
    Except PyErr (Sets α) := do
  let path := fun k => fdir ++ fileName band s k
  let zh ← getBetaSetF fs (path .DZ) 1.0
  let zdr ← getBetaSetF fs (path .DR) 1.0
  let kdp ← getBetaSetF fs (path .KD) 1.0
  let ldr ← getBetaSetF fs (path .LD) 1.0
  let rho ← getBetaSetF fs (path .RH) 1.0
  let t ← (if useTemp then (do let t ← getBetaSetF fs (path .T) tempFactor; .ok (some t)) else .ok none :
    Except PyErr (Option (List (Row α))))
  .ok (fun k => match k with
    | .DZ => some zh
    | .DR => some zdr
    | .KD => some kdp
    | .LD => some ldr
    | .RH => some rho
    | .T => t)

/-! ## The classifiers with `fdir` -/

/-- `csu_fhc_summer` with `verbose` and `fdir`, csu_fhc.py:171-290. -/
def csuFhcSummerF (fs : Files) (fdir : String) (verbose : Bool) (A : SummerArgs α) (I : Inputs α) :
    Except PyErr (Option (Out α)) :=
  match I.dz with
  | none => .ok none
  | some dz => do
    let useTemp := if I.T.isNone then false else A.useTemp
    let sets ← getMbfSetsF fs fdir .summer useTemp A.tempFactor A.band
    match methodOf A.method with
    | none => .ok none
    | some hybrid => do
      let C := mkCfg I dz useTemp (fun k _ => A.weights k) sets hybrid A.useTrap
      let rows ← getTestList C (List.range (((sets .DZ).getD []).length))
      let sz := dz.data.length
      if verbose then verboseMax rows sz
      if rows.length * sz ≠ A.nTypes * sz then .error .valueError
      else if A.returnScores then .ok (some (.scores (A.nTypes :: dz.shape) rows))
      else if A.nTypes = 0 then .error .valueError
      else .ok (some (.hid dz.shape (classify sz rows)))

/-- `csu_fhc_winter` with `verbose` and `fdir`, csu_fhc_winter.py:32-128. -/
def csuFhcWinterF (fs : Files) (fdir : String) (verbose : Bool) (A : WinterArgs α) (I : Inputs α) :
    Except PyErr (Option (List Nat × List (List α))) :=
  match I.dz with
  | none => .ok none
  | some dz => do
    let useTemp := if I.T.isNone then false else A.useTemp
    let sets ← getMbfSetsF fs fdir .winter useTemp A.tempFactor A.band
    match methodOf A.method with
    | none => .ok none
    | some hybrid => do
      let C := mkCfg I dz useTemp A.weights sets hybrid false
      let types := winterTypes A.warm
      let rows ← getTestList C types
      if verbose then verboseMax rows dz.data.length
      .ok (some (types.length :: dz.shape, rows))

/-- `csu_fhc_cold_newml1` with `verbose` and `fdir`, csu_fhc_ml1.py:30-114. -/
def csuFhcMlF (fs : Files) (fdir : String) (verbose : Bool) (A : MlArgs α) (I : Inputs α) :
    Except PyErr (Option (List Nat × List (List α))) :=
  match I.dz with
  | none => .ok none
  | some dz => do
    let useTemp := if I.T.isNone then false else A.useTemp
    let sets ← getMbfSetsF fs fdir .ml useTemp A.tempFactor A.band
    match methodOf A.method with
    | none => .ok none
    | some hybrid => do
      let C := mkCfg I dz useTemp A.weights sets hybrid false
      let rows ← getTestList C (List.range (((sets .DZ).getD []).length))
      if verbose then verboseMax rows dz.data.length
      if rows.length * dz.data.length ≠ A.nTypes * dz.data.length then .error .valueError
      else .ok (some (A.nTypes :: dz.shape, rows))

/-- `melting_layer` with `fdir`, csu_fhc_melt.py:31-86. -/
def meltingLayerF (fs : Files) (fdir : String) (env : Env) (A : MeltArgs α) (F : Fields α) :
    Except PyErr (Option (MeltOut α)) := do
  match ← csuFhcMlF fs fdir env.verbose mlCallArgs (mlInputs F) with
  | none => .error .valueError
  | some (_, rows) => match F.dz with
    | none => .error .valueError
    | some dz =>
      if !sameShape dz [F.zdr, F.kdp, F.rho.array, F.sn, F.heights] then .error .notModelled
      else
        let fh : List Int := (classify dz.data.length rows).map Int.ofNat
        match F.rho with
        | .none => .error .attributeError
        | .plain _ => .error .attributeError
        | .masked rho =>
          if rho.mask.length ≠ dz.data.length then .error .notModelled
          else
            let fh := qualityControl (F.sn.map (·.data)) A.snThresh rho A.minRH fh
            match F.heights with
            | none => .ok none
            | some height => do
              let (lev, m) ← meltLevels env A F.azimuths dz height fh
              .ok (some ⟨dz.shape, lev, m, fh, rows⟩)

/-- `scores_warm` / `scores_cold` with `fdir`, csu_fhc.py:120-122, 130-132 -/
def winterRowsF (fs : Files) (fdir : String) (env : Env) (warm : Bool) (F : Fields α) : Except PyErr (List (List α)) := do
  match ← csuFhcWinterF fs fdir env.verbose (winterCallArgs warm) (winterInputs F) with
  | none => .error .valueError
  | some (_, rows) => .ok rows

/-- `run_winter` with `fdir`, csu_fhc.py:103-166. -/
def runWinterF (fs : Files) (fdir : String) (env : Env) (A : MeltArgs α) (F : Fields α) : Except PyErr (WinterOut α) := do
  match ← meltingLayerF fs fdir env A F with
  | none => .error .typeError
  | some M => match F.dz with
    | none => .error .valueError
    | some dz =>
      if !sameShape dz [F.T] then .error .notModelled
      else do
        let rowsW ← winterRowsF fs fdir env true F
        let rowsC ← winterRowsF fs fdir env false F
        let warm := (classify dz.data.length rowsW).map Int.ofNat
        let cold := (classify dz.data.length rowsC).map Int.ofNat
        .ok ⟨M.shape, combine (A.scanType == "grid") M.meltlev M.fh warm cold, M.scores, rowsW, rowsC,
          renumberMl M.fh, renumberWarm warm, cold⟩

end Csu.Csv
