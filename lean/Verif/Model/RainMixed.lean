import Verif.Model.Rain
/-!
# The rain functions when array arguments are mixed with single numbers

`_check_for_array` (common.py:13-19) looks at `dz` only: when `dz` is an array, `zdr`, `kdp`, the classes and the rain
types reach the body as they are, and a single number takes part by broadcasting.  This module models those calls, the
ones `Model/Rain.lean` leaves as `notModelled`.  A number is a plain Python number (`py`) or a NumPy scalar (`np`);
the difference matters because `~` on a Python bool is integer negation (`~True = -2`, `~False = -1`).

Not modelled: arrays of unequal shapes, and the exceptions Python's own `**` raises on plain numbers (overflow, zero to a
negative power) where NumPy would give an infinity.
-/
namespace Csu.Rain
open Csu PyFloat Csu.Common Csu.LiquidIce
variable {α : Type} [PyFloat α]

/-- plain Python number, or NumPy scalar -/
inductive Kind
  | py
  | np
  deriving DecidableEq, Repr

/-- a value that is one number or an array (raveled) -/
inductive V (β : Type)
  | num (k : Kind) (x : β)
  | arr (l : List β)

/-- an operation with one operand (and Python literals); it keeps the kind of a number -/
def V.map {β γ : Type} (f : β → γ) : V β → V γ
  | .num k x => .num k (f x)
  | .arr l => .arr (l.map f)

/-- an operation of two operands: Python with Python gives Python, otherwise NumPy -/
def V.map2 {β γ δ : Type} (f : β → γ → δ) : V β → V γ → V δ
  | .num .py x, .num .py y => .num .py (f x y)
  | .num _ x, .num _ y => .num .np (f x y)
  | .num _ x, .arr l => .arr (l.map (f x))
  | .arr l, .num _ y => .arr (l.map (fun x => f x y))
  | .arr l, .arr l' => .arr (List.zipWith f l l')

/-- the result of a NumPy function is never a Python number -/
def V.np {β : Type} : V β → V β
  | .num _ x => .num .np x
  | .arr l => .arr l

/-- an array with a number or an array of the same shape -/
def withArr {β γ δ : Type} (f : β → γ → δ) (l : List β) : V γ → List δ
  | .num _ y => l.map (fun x => f x y)
  | .arr l' => List.zipWith f l l'

/-- `np.logical_and(a, b)` -/
def V.and (a b : V Bool) : V Bool := (V.map2 (· && ·) a b).np
/-- `np.logical_or(a, b)` -/
def V.or (a b : V Bool) : V Bool := (V.map2 (· || ·) a b).np
/-- `np.logical_and(a, b)` with `a` an array -/
def andArr (l : List Bool) (b : V Bool) : List Bool := withArr (· && ·) l b

/-- `~cond` as a condition: on a Python bool it is -1 or -2, which counts as true; on a NumPy bool or array it is the
negation -/
def V.tilde : V Bool → V Bool
  | .num .py _ => .num .py true
  | .num .np b => .num .np (!b)
  | .arr l => .arr (invert l)

/-- `target[mask] = v[mask]`: a Python number is not subscriptable, a NumPy scalar takes no array index -/
def V.copyTo (dt : DType) (mask : List Bool) (v : V α) (target : List α) : Except PyErr (List α) :=
  match v with
  | .num .py _ => .error .typeError
  | .num .np _ => .error .indexError
  | .arr l => .ok (maskCopy mask (l.map (store dt)) target)

/-- `calc_blended_rain` with `dz` an array, csu_blended_rain.py:67-134. -/
def blendedMix (P : Params α) (band : String) (dt : DType) (dz : List α) (zdr kdp : V α) : Except PyErr (Out α) := do
  let r := dz.map (fun _ => (0 : α))
  let meth := dz.map (fun _ => (0 : Int))
  let rDzNexrad := calcRainNexrad dz P.threshNexrad P.rZA P.rZB
  let rKdp := kdp.map (calcRainKdp P.rKdpA P.rKdpB)
  let condKdp := kdp.map (· >=. P.threshKdp)
  let condDz := dz.map (· >=. P.threshDz)
  let condDzKdp := andArr condDz condKdp
  if band = "S" then
    let rKdpZdr := V.map2 (calcRainKdpZdr P.rKdpZdrA P.rKdpZdrB P.rKdpZdrC) kdp zdr
    let rDzZdr := withArr (calcRainZZdr P.rZZdrA P.rZZdrB P.rZZdrC) dz zdr
    let zhor := dz.map linearize
    let zvert := withArr (fun d z => (calcZhZv d z).2) dz zdr
    let zdp := calcZdp zhor zvert
    let (fitA, fitB) ← rainLine P
    let zrain := zdp.map (fun x => (10 : α) ^ ((fitA * x + fitB) / 10))
    let dzrain := zrain.map (fun x => 10 * log10 x)
    let fi := List.zipWith (fun x h => 1 - x / h) zrain zhor
    let rDzRainonly := calcRainNexrad dzrain P.threshNexrad P.rZA P.rZB
    let condIce := fi.map (· <. P.threshFracIce)
    let condZdr := zdr.map (· >=. P.threshZdr)
    let cond1or2 := logicalAnd condIce condDzKdp
    let cond1 := andArr cond1or2 condZdr
    let cond2a := andArr cond1or2 condZdr.tilde
    let cond2b := logicalAnd (invert condIce) condDzKdp
    let cond2 := logicalOr cond2a cond2b
    let cond3or4 := logicalAnd condIce (invert condDzKdp)
    let cond3 := andArr cond3or4 condZdr
    let cond4 := andArr cond3or4 condZdr.tilde
    let cond5 := logicalAnd (invert condIce) (invert condDzKdp)
    let meth := maskSet cond1 1 meth
    let r ← V.copyTo dt cond1 rKdpZdr r
    let meth := maskSet cond3 3 meth
    let r := maskCopy cond3 (rDzZdr.map (store dt)) r
    let meth := maskSet cond5 5 meth
    let r := maskCopy cond5 (rDzRainonly.map (store dt)) r
    let meth := maskSet cond2 2 meth
    let r ← V.copyTo dt cond2 rKdp r
    let meth := maskSet cond4 4 meth
    let r := maskCopy cond4 (rDzNexrad.map (store dt)) r
    return ⟨r, meth, some (zdp, fi)⟩
  else
    let cond2 := condDzKdp
    let cond4 := invert condDzKdp
    let meth := maskSet cond2 2 meth
    let r ← V.copyTo dt cond2 rKdp r
    let meth := maskSet cond4 4 meth
    let r := maskCopy cond4 (rDzNexrad.map (store dt)) r
    return ⟨r, meth, none⟩

/-- `csu_hidro_rain` with `dz` an array, csu_blended_rain.py:185-248.  Simplification: with `kdp` and `fhc` both single
numbers the mask of line 230-231 is a single NumPy bool, which a NumPy scalar does accept as an index; the call then
fails with the same IndexError at line 246 instead. -/
def hidroMix (P : Params α) (band : String) (dt : DType) (dz : List α) (zdr kdp : V α) (fhc : V Int) :
    Except PyErr (List α × List Int) := do
  let r := dz.map (fun _ => (0 : α))
  let meth := dz.map (fun _ => (0 : Int))
  let rZ88 := calcRainNexrad dz defaultThreshNexrad P.rZA P.rZB
  let rKd := kdp.map (calcRainKdp P.rKdpA P.rKdpB)
  let condRainA := V.or (fhc.map (· == 1)) (fhc.map (· == 2))
  let condRain := V.or (fhc.map (· == 10)) condRainA
  let condKdp := kdp.map (· >=. P.threshKdp)
  let condDz := dz.map (· >=. P.threshDz)
  let condDzKdp := andArr condDz condKdp
  let condIceA := V.or (fhc.map (· == 5)) (fhc.map (· == 7))
  let condIceB := V.or (fhc.map (· == 8)) (fhc.map (· == 9))
  let condIce := V.or condIceA condIceB
  let condIceKdp := V.and condIce condKdp
  -- the masks that may be a single NumPy bool, as an array index: all gates or none
  let full (v : V Bool) : List Bool := withArr (fun _ b => b) dz v
  if band = "S" then
    let rZhdr := withArr (calcRainZZdr P.rZZdrA P.rZZdrB P.rZZdrC) dz zdr
    let rKddr := V.map2 (calcRainKdpZdr P.rKdpZdrA P.rKdpZdrB P.rKdpZdrC) kdp zdr
    let condZdr := zdr.map (· >=. P.threshZdr)
    let condDzKdpZdr := andArr condDzKdp condZdr
    let condDzKdpNotZdr := andArr condDzKdp condZdr.tilde
    let condNotKdpZdr := V.and condKdp.tilde condZdr
    let condNotKdpNotZdr := V.and condKdp.tilde condZdr.tilde
    let cond1 := andArr condDzKdpZdr condRain
    let cond2 := andArr condDzKdpNotZdr condRain
    let cond3 := full (V.and condRain condNotKdpZdr)
    let cond4a := V.and condRain condNotKdpNotZdr
    let cond4b := andArr (invert condDz) condRain
    let cond4 := withArr (· || ·) cond4b cond4a
    let meth := maskSet cond1 1 meth
    let r ← V.copyTo dt cond1 rKddr r
    let meth := maskSet cond3 3 meth
    let r := maskCopy cond3 (rZhdr.map (store dt)) r
    let meth := maskSet (full condIceKdp) 2 meth
    let r ← V.copyTo dt (full condIceKdp) rKd r
    let meth := maskSet cond2 2 meth
    let r ← V.copyTo dt cond2 rKd r
    let meth := maskSet cond4 4 meth
    let r := maskCopy cond4 (rZ88.map (store dt)) r
    return (r, meth)
  else
    let cond2 := condDzKdp
    let cond4 := andArr (invert condDzKdp) condRain
    let condIceKdp := andArr (invert condDzKdp) condRain.tilde
    let meth := maskSet condIceKdp 2 meth
    let r := maskSet condIceKdp 0 r
    let meth := maskSet cond2 2 meth
    let r ← V.copyTo dt cond2 rKd r
    let meth := maskSet cond4 4 meth
    let r := maskCopy cond4 (rZ88.map (store dt)) r
    return (r, meth)

/-- An argument of a call whose `dz` is an array. -/
inductive Arg (α : Type)
  | num (k : Kind) (x : α)
  | arr (a : NdArray α)

/-- what reaches the body; a different shape is outside the model -/
def Arg.val {α : Type} (shape : List Nat) : Arg α → Except PyErr (V α)
  | .num k x => .ok (.num k x)
  | .arr a => if shape = a.shape then .ok (.arr a.data) else .error .notModelled

/-- `calc_blended_rain(dz, zdr, kdp, ...)` with `dz` an array and the others arrays or numbers,
csu_blended_rain.py:24-145. -/
def calcBlendedRainMixed (P : Params α) (band : String) (iceFlag : Bool) (d : NdArray α) (zdr kdp : Arg α) :
    Except PyErr (Ret α) := do
  let z ← zdr.val d.shape
  let k ← kdp.val d.shape
  let o ← blendedMix P band d.dtype d.data z k
  if !iceFlag || band ≠ "S" then
    return .arr ⟨d.dtype, d.shape, o.rain⟩ ⟨.int, d.shape, o.meth⟩ none
  else match o.ice with
    | none => .error .unboundLocalError
    | some (zdp, fi) =>
      return .arr ⟨d.dtype, d.shape, o.rain⟩ ⟨.int, d.shape, o.meth⟩
        (some (⟨.float, d.shape, zdp⟩, ⟨.float, d.shape, fi⟩))

/-- `csu_hidro_rain(dz, zdr, kdp, fhc, ...)` with `dz` an array and the others arrays or numbers,
csu_blended_rain.py:148-253. -/
def csuHidroRainMixed (P : Params α) (band : String) (d : NdArray α) (zdr kdp : Arg α) (fhc : Arg Int) :
    Except PyErr (Ret α) := do
  let z ← zdr.val d.shape
  let k ← kdp.val d.shape
  let c ← fhc.val d.shape
  let o ← hidroMix P band d.dtype d.data z k c
  return .arr ⟨d.dtype, d.shape, o.1⟩ ⟨.int, d.shape, o.2⟩ none

/-- `calc_blended_rain_tropical` with `dz` an array, csu_blended_rain_tropical.py:163-227, once the coefficients `P` are
chosen. -/
def tropicalMix (P : TropParams α) (dt : DType) (dz : List α) (zdr kdp : V α) (cs fhc : Option (V Int)) :
    Except PyErr (List α × List Int) := do
  let r := dz.map (fun _ => (0 : α))
  let meth := dz.map (fun _ => (-1 : Int))
  let rConv := dz.map (calcRainZr P.rZAc P.rZBc)
  let rStrat := dz.map (calcRainZr P.rZAs P.rZBs)
  let rAll := dz.map (calcRainZr P.rZA P.rZB)
  let rKdpZdr := V.map2 (calcRainKdpZdr P.rKdpZdrA P.rKdpZdrB P.rKdpZdrC) kdp zdr
  let rDzZdr := withArr (calcRainZZdr P.rZZdrA P.rZZdrB P.rZZdrC) dz zdr
  let rKdp := kdp.map (calcRainKdp P.rKdpA P.rKdpB)
  let condKdp := kdp.map (· >=. P.threshKdp)
  let condDbz := dz.map (· >=. P.threshDz)
  let condKdpz := andArr condDbz condKdp
  let condZdr := zdr.map (· >=. P.threshZdr)
  let cond1 := andArr condKdpz condZdr
  let cond2 := andArr condKdpz condZdr.tilde
  let cond3 := andArr (invert condKdpz) condZdr
  let cond4 := andArr (invert condKdpz) condZdr.tilde
  let (r, meth) := match cs with
    | none => (maskCopy cond4 (rAll.map (store dt)) r, maskSet cond4 4 meth)
    | some cs =>
      let cond4c := andArr cond4 (cs.map (· == 2))
      let cond4s := andArr cond4 (cs.map (· == 1))
      let cond4a := andArr cond4 (cs.map (· == 3))
      let meth := maskSet cond4c 5 meth
      let meth := maskSet cond4s 6 meth
      let meth := maskSet cond4a 4 meth
      let r := maskCopy cond4c (rConv.map (store dt)) r
      let r := maskCopy cond4s (rStrat.map (store dt)) r
      let r := maskCopy cond4a (rAll.map (store dt)) r
      (r, meth)
  let meth := maskSet cond1 1 meth
  let meth := maskSet cond2 2 meth
  let meth := maskSet cond3 3 meth
  let r ← V.copyTo dt cond1 rKdpZdr r
  let r ← V.copyTo dt cond2 rKdp r
  let r := maskCopy cond3 (rDzZdr.map (store dt)) r
  let (r, meth) ← match fhc with
    | none => pure (r, meth)
    | some fhc => do
      -- a single NumPy bool as an index: all gates or none
      let condIce := withArr (fun _ b => b) dz
        (V.and (fhc.map (fun f => decide (f > 2))) (fhc.map (fun f => decide (f < 10))))
      let r := maskSet condIce 0 r
      let meth := maskSet condIce (-1) meth
      let condHail := andArr condKdpz (fhc.map (· == 9))
      let r ← V.copyTo dt condHail rKdp r
      let meth := maskSet condIce 2 meth
      pure (r, meth)
  let r := maskSet (dz.map (· <. -10)) 0 r
  let meth := maskSet (dz.map (· <. -10)) (-1) meth
  return (r, meth)

/-- the optional class and rain-type arguments -/
def optVal (shape : List Nat) : Option (Arg Int) → Except PyErr (Option (V Int))
  | none => .ok none
  | some a => do return some (← a.val shape)

/-- `calc_blended_rain_tropical` with `dz` an array and the others arrays or numbers,
csu_blended_rain_tropical.py:27-227.  With `predef='True'` at S band the coefficients are one-element tuples (115-125):
a tuple times a Python number is a TypeError (`10.0**(c * zdr)`, common.py:54); a tuple times a NumPy scalar is not
modelled. -/
def calcBlendedRainTropicalMixed (P : TropParams α) (predef band : String) (d : NdArray α) (zdr kdp : Arg α)
    (cs fhc : Option (Arg Int)) : Except PyErr (Ret α) := do
  let z ← zdr.val d.shape
  let k ← kdp.val d.shape
  let c ← optVal d.shape cs
  let f ← optVal d.shape fhc
  if predef = "True" ∧ band = "S" then
    match z, k with
    | .num .py _, .arr _ => .error .typeError
    | .arr _, .arr _ => pure ()
    | _, _ => .error .notModelled
  let o ← tropicalMix (tropPredef predef band P) d.dtype d.data z k c f
  return .arr ⟨d.dtype, d.shape, o.1⟩ ⟨.int, d.shape, o.2⟩ none

end Csu.Rain
