import Verif.Model.Common
/-!
# Model of `csu_radartools/csu_dsd.py`

Arrays are raveled lists of equal length.  `x[m] = f(y[m])` with elementwise `f` is `maskCopy m (f y) x`.  Scalars are
floats or NumPy numbers; all output arrays are float because they start as `0.0 * dz`.
-/
namespace Csu.Dsd
open Csu PyFloat Csu.Common
variable {α : Type} [PyFloat α]

/-- `DEFAULT_MU`, csu_dsd.py:24. -/
def defaultMu : α := 3

/-- `power_law`, csu_dsd.py:51-53. -/
def powerLaw (x a b : α) : α := a * x ^ b

/-- `d0_low_zdr`, csu_dsd.py:80-82, one element. -/
def d0LowZdr (a b c d e z : α) : α := powerLaw z a 4 + powerLaw z b 3 + powerLaw z c 2 + powerLaw z d 1 + e

/-- `d0_high_zdr`, csu_dsd.py:85-86, one element. -/
def d0HighZdr (a b c d z : α) : α := powerLaw z a 3 + powerLaw z b 2 + powerLaw z c 1 + d

/-- D0, Nw and mu arrays -/
structure Out (α : Type) where
  d0 : List α
  nw : List α
  mu : List α
  deriving DecidableEq, Repr

/-- `calc_dsd_cband_bringi_2009`, csu_dsd.py:62-77. -/
def cband2009 (dz zdr : List α) : Out α :=
  let d0 := dz.map (0 * ·)
  let dzLin := dz.map linearize
  let meth1 := logicalAnd (zdr.map (· >=. -0.5)) (zdr.map (· <=. 1.25))
  let d0 := maskCopy meth1 (zdr.map (d0LowZdr 0.0203 (-0.1488) 0.2209 0.5571 0.801)) d0
  let meth2 := zdr.map (· >. 1.25)
  let d0 := maskCopy meth2 (zdr.map (d0HighZdr 0.0355 (-0.3021) 1.0556 0.6844)) d0
  let nw := List.zipWith (fun l d => l / powerLaw d 0.056 7.319) dzLin d0
  let mu := dz.map (fun d => 0 * d + defaultMu)
  ⟨d0, nw, mu⟩

/-- `calc_dsd_sband_bringi_2013`, csu_dsd.py:94-112. -/
def sband2013 (dz zdr : List α) : Out α :=
  let d0 := dz.map (0 * ·)
  let dzLin := dz.map linearize
  let meth1 := zdr.map (· <. 1)
  let d0 := maskCopy meth1 (zdr.map (d0LowZdr 0.0424 (-0.4571) 0.6125 0.457 0.8808)) d0
  let meth2 := zdr.map (· >=. 1)
  let d0 := maskCopy meth2 (zdr.map (d0HighZdr 0.0536 (-0.1971) 0.6261 1.0815)) d0
  let nw := List.zipWith (fun l d => 19.76 * l / powerLaw d 1 7.46) dzLin d0
  let mu := dz.map (fun d => 0 * d + defaultMu)
  ⟨d0, nw, mu⟩

/-- `calc_beta`, csu_dsd.py:151-153. -/
def calcBeta (dz kdp zeta : α) : α := 2.08 * dz ^ (-0.365 : α) * kdp ^ (0.38 : α) * zeta ^ (0.965 : α)

/-- `d0_from_dz_zeta`, csu_dsd.py:192-194. -/
def d0FromDzZeta (a b c dz zeta : α) : α := a * dz ^ b * zeta ^ c

/-- `calc_d0_sband_method1`, csu_dsd.py:156-159. -/
def d0Method1 (dz zeta beta : α) : α := d0FromDzZeta 0.56 0.064 (powerLaw beta 0.024 (-1.42)) dz zeta

/-- `calc_logNw_sband_method1`, csu_dsd.py:162-165. -/
def logNwMethod1 (dz zeta beta : α) : α := 3.29 * dz ^ (0.058 : α) * zeta ^ (powerLaw beta (-0.023) (-1.389))

/-- `calc_mu_sband_method1`, csu_dsd.py:168-176. -/
def muMethod1 (d0 zeta beta : α) : α :=
  let a := powerLaw beta 203 1.89
  let b := powerLaw beta 2.23 0.0388
  let c := powerLaw beta 3.16 (-0.0463)
  let d := powerLaw beta 0.374 (-0.355)
  a * (d0 ^ b / (zeta - 1)) - powerLaw zeta c d

/-- `calc_d0_sband_method3`, csu_dsd.py:179-184: both weights are divided by 3.0. -/
def d0Method3 (dz zdr zeta : α) : α :=
  ((zdr - 0.2) / 3) * powerLaw zdr 1.81 0.486 + ((0.5 - zdr) / 3) * d0FromDzZeta 0.6096 0.0516 3.111 dz zeta

/-- `calc_Nw_mult_methods`, csu_dsd.py:187-189. -/
def nwMultMethods (dz d0 : α) : α := 21 * dz / powerLaw d0 1 7.3529

/-- `dsd_sband_method1`, csu_dsd.py:197-202, one gate. -/
def method1 (dz zeta beta : α) : α × α × α :=
  let d0 := d0Method1 dz zeta beta
  (d0, (10 : α) ^ logNwMethod1 dz zeta beta, muMethod1 d0 zeta beta)

/-- `dsd_sband_method2`, csu_dsd.py:205-210, one gate. -/
def method2 (dz zdr : α) : α × α × α :=
  let d0 := powerLaw zdr 1.81 0.486
  (d0, nwMultMethods dz d0, 0 * dz + defaultMu)

/-- `dsd_sband_method3`, csu_dsd.py:213-218, one gate. -/
def method3 (dz zdr zeta : α) : α × α × α :=
  let d0 := d0Method3 dz zdr zeta
  (d0, nwMultMethods dz d0, 0 * dz + defaultMu)

/-- `dsd_sband_method4`, csu_dsd.py:221-226, one gate. -/
def method4 (dz zeta : α) : α × α × α :=
  let d0 := d0FromDzZeta 0.6096 0.0516 3.111 dz zeta
  (d0, nwMultMethods dz d0, 0 * dz + defaultMu)

/-- `d0[m], Nw[m], mu[m] = triple[m]` -/
def assign3 (m : List Bool) (v : List (α × α × α)) (o : Out α) : Out α :=
  ⟨maskCopy m (v.map (·.1)) o.d0, maskCopy m (v.map (·.2.1)) o.nw, maskCopy m (v.map (·.2.2)) o.mu⟩

/-- `calc_dsd_sband_bringi_2004`, csu_dsd.py:120-148. -/
def sband2004 (dz zdr kdp : List α) : Out α :=
  let o : Out α := ⟨dz.map (0 * ·), dz.map (0 * ·), dz.map (0 * ·)⟩
  let zeta := zdr.map linearize
  let dzLin := dz.map linearize
  let beta := List.zipWith (fun d (p : α × α) => calcBeta d p.1 p.2) dzLin (List.zip kdp zeta)
  let meth1a := logicalAnd (dz.map (· >=. 35)) (zdr.map (· >=. 0.2))
  let meth1 := logicalAnd meth1a (kdp.map (· >=. 0.3))
  let o := assign3 meth1 (List.zipWith (fun d (p : α × α) => method1 d p.1 p.2) dzLin (List.zip zeta beta)) o
  let meth2 := logicalAnd (kdp.map (· <. 0.3)) (zdr.map (· >=. 0.5))
  let o := assign3 meth2 (List.zipWith method2 dzLin zdr) o
  let meth3a := logicalAnd (zdr.map (· >=. 0.2)) (zdr.map (· <. 0.5))
  let meth3 := logicalAnd meth3a (kdp.map (· <. 0.3))
  let o := assign3 meth3 (List.zipWith (fun d (p : α × α) => method3 d p.1 p.2) dzLin (List.zip zdr zeta)) o
  let meth4a := logicalAnd (zdr.map (· >=. -0.5)) (zdr.map (· <. 0.2))
  let meth4 := logicalAnd meth4a (kdp.map (· <. 0.3))
  assign3 meth4 (List.zipWith method4 dzLin zeta) o

/-- the dispatch on band and method, csu_dsd.py:35-44; `none` is the warning branch that returns None -/
def dispatch (band method : String) (dz zdr kdp : List α) : Option (Out α) :=
  if band = "S" then
    if method = "2013" then some (sband2013 dz zdr) else some (sband2004 dz zdr kdp)
  else if band = "C" then some (cband2009 dz zdr)
  else none

/-- What `calc_dsd` returns. -/
inductive Ret (α : Type)
  | scalar (d0 nw mu : α)
  | arr (d0 nw mu : NdArray α)
  deriving DecidableEq, Repr

/-- first element, `a[0]` -/
def first {β : Type} : List β → Except PyErr β
  | [] => .error .indexError
  | x :: _ => .ok x

/-- `calc_dsd`, csu_dsd.py:27-48.  Line 31 calls `warnings.warn` but only `warn` was imported (line 20): NameError.
Mixed scalar/array calls: `Model/DsdAny.lean`; one-dimensional arrays of other lengths: `Model/DsdSizes.lean`. -/
def calcDsd (band method : String) (dz zdr kdp : Option (PyVal α)) : Except PyErr (Option (Ret α)) :=
  match dz, zdr, kdp with
  | some (.scalar _ d), some (.scalar _ z), some (.scalar _ k) =>
    match dispatch band method [d] [z] [k] with
    | none => .ok none
    | some o => do
      let a ← first o.d0
      let b ← first o.nw
      let c ← first o.mu
      return some (.scalar a b c)
  | some (.arr d), some (.arr z), some (.arr k) =>
    if d.shape = z.shape ∧ d.shape = k.shape then
      match dispatch band method d.data z.data k.data with
      | none => .ok none
      | some o => .ok (some (.arr ⟨.float, d.shape, o.d0⟩ ⟨.float, d.shape, o.nw⟩ ⟨.float, d.shape, o.mu⟩))
    else .error .notModelled
  | some _, some _, some _ => if band = "S" ∨ band = "C" then .error .notModelled else .ok none
  | _, _, _ => .error .nameError

end Csu.Dsd
