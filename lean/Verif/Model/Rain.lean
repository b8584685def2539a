import Verif.Model.LiquidIce
/-!
# Model of `csu_blended_rain.py` and `csu_blended_rain_tropical.py`

Array functions act on raveled lists; `dt` is the dtype of `dz`, which `np.zeros_like(dz)` hands to the rain array.
A literal `0.0` stored into an integer array is 0.  Wrappers below handle `None`, scalars and shapes; calls that mix scalars and arrays (see Model/RainMixed) or unequal shapes (NumPy
broadcasting) are `notModelled`.
-/
namespace Csu.Rain
open Csu PyFloat Csu.Common Csu.LiquidIce
variable {α : Type} [PyFloat α]

/-- Keyword arguments of `calc_blended_rain`, csu_blended_rain.py:24-32. -/
structure Params (α : Type) where
  threshDz : α
  threshZdr : α
  threshKdp : α
  threshFracIce : α
  threshNexrad : α
  rZA : α
  rZB : α
  rKdpA : α
  rKdpB : α
  rZZdrA : α
  rZZdrB : α
  rZZdrC : α
  rKdpZdrA : α
  rKdpZdrB : α
  rKdpZdrC : α
  fitA : Option α
  fitB : Option α
  method : String

/-- Default values, csu_blended_rain.py:24-32. -/
def Params.default : Params α where
  threshDz := 38
  threshZdr := 0.5
  threshKdp := 0.3
  threshFracIce := 0.1
  threshNexrad := 53
  rZA := 300
  rZB := 1.4
  rKdpA := 40.5
  rKdpB := 0.85
  rZZdrA := 0.0067
  rZZdrB := 0.927
  rZZdrC := -0.343
  rKdpZdrA := 90.8
  rKdpZdrB := 0.93
  rKdpZdrC := -0.169
  fitA := none
  fitB := none
  method := "cr1995"

/-- What `calc_blended_rain` computes before unpacking. -/
structure Out (α : Type) where
  rain : List α
  meth : List Int
  /-- Zdp and ice fraction exist at S band only -/
  ice : Option (List α × List α)

/-- The rain line coefficients, csu_blended_rain.py:91-92; `fit_a` without `fit_b` raises TypeError at line 93. -/
def rainLine (P : Params α) : Except PyErr (α × α) :=
  match P.fitA, P.fitB with
  | none, _ => .ok (getLinearFits P.method)
  | some a, some b => .ok (a, b)
  | some _, none => .error .typeError

/-- `calc_blended_rain` on arrays, csu_blended_rain.py:67-134. -/
def blendedArr (P : Params α) (band : String) (dt : DType) (dz zdr kdp : List α) : Except PyErr (Out α) := do
  let r := dz.map (fun _ => (0 : α))
  let meth := dz.map (fun _ => (0 : Int))
  let rDzNexrad := calcRainNexrad dz P.threshNexrad P.rZA P.rZB
  let rKdp := kdp.map (calcRainKdp P.rKdpA P.rKdpB)
  let condKdp := kdp.map (· >=. P.threshKdp)
  let condDz := dz.map (· >=. P.threshDz)
  let condDzKdp := logicalAnd condDz condKdp
  if band = "S" then
    let rKdpZdr := List.zipWith (calcRainKdpZdr P.rKdpZdrA P.rKdpZdrB P.rKdpZdrC) kdp zdr
    let rDzZdr := List.zipWith (calcRainZZdr P.rZZdrA P.rZZdrB P.rZZdrC) dz zdr
    let zhor := dz.map linearize
    let zvert := List.zipWith (fun d z => (calcZhZv d z).2) dz zdr
    let zdp := calcZdp zhor zvert
    let (fitA, fitB) ← rainLine P
    let zrain := zdp.map (fun x => (10 : α) ^ ((fitA * x + fitB) / 10))
    let dzrain := zrain.map (fun x => 10 * log10 x)
    let fi := List.zipWith (fun x h => 1 - x / h) zrain zhor
    let rDzRainonly := calcRainNexrad dzrain P.threshNexrad P.rZA P.rZB
    let condIce := fi.map (· <. P.threshFracIce)
    let condZdr := zdr.map (· >=. P.threshZdr)
    let cond1or2 := logicalAnd condIce condDzKdp
    let cond1 := logicalAnd cond1or2 condZdr
    let cond2a := logicalAnd cond1or2 (invert condZdr)
    let cond2b := logicalAnd (invert condIce) condDzKdp
    let cond2 := logicalOr cond2a cond2b
    let cond3or4 := logicalAnd condIce (invert condDzKdp)
    let cond3 := logicalAnd cond3or4 condZdr
    let cond4 := logicalAnd cond3or4 (invert condZdr)
    let cond5 := logicalAnd (invert condIce) (invert condDzKdp)
    let meth := maskSet cond1 1 meth
    let r := maskCopy cond1 (rKdpZdr.map (store dt)) r
    let meth := maskSet cond3 3 meth
    let r := maskCopy cond3 (rDzZdr.map (store dt)) r
    let meth := maskSet cond5 5 meth
    let r := maskCopy cond5 (rDzRainonly.map (store dt)) r
    let meth := maskSet cond2 2 meth
    let r := maskCopy cond2 (rKdp.map (store dt)) r
    let meth := maskSet cond4 4 meth
    let r := maskCopy cond4 (rDzNexrad.map (store dt)) r
    return ⟨r, meth, some (zdp, fi)⟩
  else
    let cond2 := condDzKdp
    let cond4 := invert condDzKdp
    let meth := maskSet cond2 2 meth
    let r := maskCopy cond2 (rKdp.map (store dt)) r
    let meth := maskSet cond4 4 meth
    let r := maskCopy cond4 (rDzNexrad.map (store dt)) r
    return ⟨r, meth, none⟩

/-- `csu_hidro_rain` on arrays, csu_blended_rain.py:185-248.  `fhc` has one class per gate.  Note
`calc_rain_nexrad(dz, a=..., b=...)` on line 189: the `thresh_nexrad` argument is not passed on. -/
def hidroArr (P : Params α) (band : String) (dt : DType) (dz zdr kdp : List α) (fhc : List Int) :
    List α × List Int :=
  let r := dz.map (fun _ => (0 : α))
  let meth := dz.map (fun _ => (0 : Int))
  let rZ88 := calcRainNexrad dz defaultThreshNexrad P.rZA P.rZB
  let rKd := kdp.map (calcRainKdp P.rKdpA P.rKdpB)
  let condRainA := logicalOr (fhc.map (· == 1)) (fhc.map (· == 2))
  let condRain := logicalOr (fhc.map (· == 10)) condRainA
  let condKdp := kdp.map (· >=. P.threshKdp)
  let condDz := dz.map (· >=. P.threshDz)
  let condDzKdp := logicalAnd condDz condKdp
  let condIceA := logicalOr (fhc.map (· == 5)) (fhc.map (· == 7))
  let condIceB := logicalOr (fhc.map (· == 8)) (fhc.map (· == 9))
  let condIce := logicalOr condIceA condIceB
  let condIceKdp := logicalAnd condIce condKdp
  if band = "S" then
    let rZhdr := List.zipWith (calcRainZZdr P.rZZdrA P.rZZdrB P.rZZdrC) dz zdr
    let rKddr := List.zipWith (calcRainKdpZdr P.rKdpZdrA P.rKdpZdrB P.rKdpZdrC) kdp zdr
    let condZdr := zdr.map (· >=. P.threshZdr)
    let condDzKdpZdr := logicalAnd condDzKdp condZdr
    let condDzKdpNotZdr := logicalAnd condDzKdp (invert condZdr)
    let condNotKdpZdr := logicalAnd (invert condKdp) condZdr
    let condNotKdpNotZdr := logicalAnd (invert condKdp) (invert condZdr)
    let cond1 := logicalAnd condRain condDzKdpZdr
    let cond2 := logicalAnd condRain condDzKdpNotZdr
    let cond3 := logicalAnd condRain condNotKdpZdr
    let cond4a := logicalAnd condRain condNotKdpNotZdr
    let cond4b := logicalAnd condRain (invert condDz)
    let cond4 := logicalOr cond4a cond4b
    let meth := maskSet cond1 1 meth
    let r := maskCopy cond1 (rKddr.map (store dt)) r
    let meth := maskSet cond3 3 meth
    let r := maskCopy cond3 (rZhdr.map (store dt)) r
    let meth := maskSet condIceKdp 2 meth
    let r := maskCopy condIceKdp (rKd.map (store dt)) r
    let meth := maskSet cond2 2 meth
    let r := maskCopy cond2 (rKd.map (store dt)) r
    let meth := maskSet cond4 4 meth
    let r := maskCopy cond4 (rZ88.map (store dt)) r
    (r, meth)
  else
    let cond2 := condDzKdp
    let cond4 := logicalAnd (invert condDzKdp) condRain
    let condIceKdp := logicalAnd (invert condDzKdp) (invert condRain)
    let meth := maskSet condIceKdp 2 meth
    let r := maskSet condIceKdp 0 r
    let meth := maskSet cond2 2 meth
    let r := maskCopy cond2 (rKd.map (store dt)) r
    let meth := maskSet cond4 4 meth
    let r := maskCopy cond4 (rZ88.map (store dt)) r
    (r, meth)

/-- Keyword arguments of `calc_blended_rain_tropical` that matter, csu_blended_rain_tropical.py:27-38. -/
structure TropParams (α : Type) where
  threshDz : α
  threshZdr : α
  threshKdp : α
  rZA : α
  rZB : α
  rZAc : α
  rZBc : α
  rZAs : α
  rZBs : α
  rKdpA : α
  rKdpB : α
  rZZdrA : α
  rZZdrB : α
  rZZdrC : α
  rKdpZdrA : α
  rKdpZdrB : α
  rKdpZdrC : α

/-- Defaults, csu_blended_rain_tropical.py:27-38. -/
def TropParams.default : TropParams α where
  threshDz := 38
  threshZdr := 0.25
  threshKdp := 0.3
  rZA := 216
  rZB := 1.39
  rZAc := 126
  rZBc := 1.39
  rZAs := 291
  rZBs := 1.55
  rKdpA := 59.5202
  rKdpB := 0.7451
  rZZdrA := 0.0085
  rZZdrB := 0.9237
  rZZdrC := -5.2389 / 10
  rKdpZdrA := 96.5726
  rKdpZdrB := 0.9315
  rKdpZdrC := -2.1140 / 10

/-- `predef == 'True'`, csu_blended_rain_tropical.py:101-158.  At S band the code writes
`r_kdp_zdr_a = 96.5726,` (one-element tuples); NumPy broadcasts those like the numbers, so they are modelled as
numbers. -/
def tropPredef (predef band : String) (P : TropParams α) : TropParams α :=
  if predef = "True" then
    let P := { P with rZAc := 126, rZBc := 1.39, rZAs := 291, rZBs := 1.55, rZA := 216, rZB := 1.39 }
    if band = "S" then
      { P with rKdpZdrA := 96.5726, rKdpZdrB := 0.9315, rKdpZdrC := -2.1140 / 10
               rZZdrA := 0.0085, rZZdrB := 0.9237, rZZdrC := -5.2389 / 10, rKdpA := 59.5202, rKdpB := 0.7451 }
    else if band = "C" then
      { P with rKdpZdrA := 45.6976, rKdpZdrB := 0.8763, rKdpZdrC := -1.6718 / 10
               rZZdrA := 0.0086, rZZdrB := 0.9088, rZZdrC := -4.2059 / 10, rKdpA := 34.5703, rKdpB := 0.7331 }
    else if band = "X" then
      { P with rKdpZdrA := 28.1289, rKdpZdrB := 0.9194, rKdpZdrC := -1.6876 / 10
               rZZdrA := 0.0085, rZZdrB := 0.9294, rZZdrC := -4.4580 / 10, rKdpA := 21.9729, rKdpB := 0.7221 }
    else P
  else P

/-- `calc_blended_rain_tropical` on arrays, csu_blended_rain_tropical.py:163-227. -/
def tropicalArr (P0 : TropParams α) (predef band : String) (dt : DType) (dz zdr kdp : List α)
    (cs : Option (List Int)) (fhc : Option (List Int)) : List α × List Int :=
  let P := tropPredef predef band P0
  let r := dz.map (fun _ => (0 : α))
  let meth := dz.map (fun _ => (-1 : Int))
  let rConv := dz.map (calcRainZr P.rZAc P.rZBc)
  let rStrat := dz.map (calcRainZr P.rZAs P.rZBs)
  let rAll := dz.map (calcRainZr P.rZA P.rZB)
  let rKdpZdr := List.zipWith (calcRainKdpZdr P.rKdpZdrA P.rKdpZdrB P.rKdpZdrC) kdp zdr
  let rDzZdr := List.zipWith (calcRainZZdr P.rZZdrA P.rZZdrB P.rZZdrC) dz zdr
  let rKdp := kdp.map (calcRainKdp P.rKdpA P.rKdpB)
  let condKdp := kdp.map (· >=. P.threshKdp)
  let condDbz := dz.map (· >=. P.threshDz)
  let condKdpz := logicalAnd condKdp condDbz
  let condZdr := zdr.map (· >=. P.threshZdr)
  let cond1 := logicalAnd condKdpz condZdr
  let cond2 := logicalAnd condKdpz (invert condZdr)
  let cond3 := logicalAnd condZdr (invert condKdpz)
  let cond4 := logicalAnd (invert condKdpz) (invert condZdr)
  let (r, meth) := match cs with
    | none => (maskCopy cond4 (rAll.map (store dt)) r, maskSet cond4 4 meth)
    | some cs =>
      let cond4c := logicalAnd cond4 (cs.map (· == 2))
      let cond4s := logicalAnd cond4 (cs.map (· == 1))
      let cond4a := logicalAnd cond4 (cs.map (· == 3))
      let meth := maskSet cond4c 5 meth
      let meth := maskSet cond4s 6 meth
      let meth := maskSet cond4a 4 meth
      let r := maskCopy cond4c (rConv.map (store dt)) r
      let r := maskCopy cond4s (rStrat.map (store dt)) r
      let r := maskCopy cond4a (rAll.map (store dt)) r
      (r, meth)
  let meth := maskSet cond1 1 meth
  let meth := maskSet cond2 2 meth
  let meth := maskSet cond3 3 meth
  let r := maskCopy cond1 (rKdpZdr.map (store dt)) r
  let r := maskCopy cond2 (rKdp.map (store dt)) r
  let r := maskCopy cond3 (rDzZdr.map (store dt)) r
  let (r, meth) := match fhc with
    | none => (r, meth)
    | some fhc =>
      let condIce := logicalAnd (fhc.map (fun f => decide (f > 2))) (fhc.map (fun f => decide (f < 10)))
      let r := maskSet condIce 0 r
      let meth := maskSet condIce (-1) meth
      let condHail := logicalAnd (fhc.map (· == 9)) condKdpz
      let r := maskCopy condHail (rKdp.map (store dt)) r
      let meth := maskSet condIce 2 meth
      (r, meth)
  let r := maskSet (dz.map (· <. -10)) 0 r
  let meth := maskSet (dz.map (· <. -10)) (-1) meth
  (r, meth)

/-! ## Wrappers -/

/-- A result of a rain function as the caller sees it. -/
inductive Ret (α : Type)
  | scalar (rain : α) (meth : Int) (ice : Option (α × α))
  | arr (rain : NdArray α) (meth : NdArray Int) (ice : Option (NdArray α × NdArray α))

/-- first element, `a[0]` -/
def first {β : Type} : List β → Except PyErr β
  | [] => .error .indexError
  | x :: _ => .ok x

/-- `calc_blended_rain`, csu_blended_rain.py:24-145: `None` check (63-65), `_check_for_array` (common.py:13-19), return
branches (136-145). -/
def calcBlendedRain (P : Params α) (band : String) (iceFlag : Bool) (dz zdr kdp : Option (PyVal α)) :
    Except PyErr (Option (Ret α)) :=
  match dz, zdr, kdp with
  | some (.scalar dt d), some (.scalar _ z), some (.scalar _ k) => do
    let o ← blendedArr P band dt [d] [z] [k]
    let r ← first o.rain
    let m ← first o.meth
    if !iceFlag || band ≠ "S" then return some (.scalar r m none)
    else match o.ice with
      | none => .error .unboundLocalError
      | some (zdp, fi) => do
        let a ← first zdp
        let b ← first fi
        return some (.scalar r m (some (a, b)))
  | some (.arr d), some (.arr z), some (.arr k) =>
    if d.shape = z.shape ∧ d.shape = k.shape then do
      let o ← blendedArr P band d.dtype d.data z.data k.data
      if !iceFlag || band ≠ "S" then
        return some (.arr ⟨d.dtype, d.shape, o.rain⟩ ⟨.int, d.shape, o.meth⟩ none)
      else match o.ice with
        | none => .error .unboundLocalError
        | some (zdp, fi) =>
          return some (.arr ⟨d.dtype, d.shape, o.rain⟩ ⟨.int, d.shape, o.meth⟩
            (some (⟨.float, d.shape, zdp⟩, ⟨.float, d.shape, fi⟩)))
    else .error .notModelled
  | some _, some _, some _ => .error .notModelled
  | _, _, _ => .ok none

/-- The `fhc` argument: one class for a scalar call, one per gate for an array call. -/
inductive Cls
  | scalar (c : Int)
  | arr (a : NdArray Int)

/-- `csu_hidro_rain`, csu_blended_rain.py:148-253. -/
def csuHidroRain (P : Params α) (band : String) (dz zdr kdp : Option (PyVal α)) (fhc : Option Cls) :
    Except PyErr (Option (Ret α)) :=
  match dz, zdr, kdp, fhc with
  | some (.scalar dt d), some (.scalar _ z), some (.scalar _ k), some (.scalar c) => do
    let o := hidroArr P band dt [d] [z] [k] [c]
    let r ← first o.1
    let m ← first o.2
    return some (.scalar r m none)
  | some (.arr d), some (.arr z), some (.arr k), some (.arr c) =>
    if d.shape = z.shape ∧ d.shape = k.shape ∧ d.shape = c.shape then
      let o := hidroArr P band d.dtype d.data z.data k.data c.data
      .ok (some (.arr ⟨d.dtype, d.shape, o.1⟩ ⟨.int, d.shape, o.2⟩ none))
    else .error .notModelled
  | some _, some _, some _, some _ => .error .notModelled
  | _, _, _, _ => .ok none

/-- `calc_blended_rain_tropical`, csu_blended_rain_tropical.py:27-227: scalars are wrapped into one-element arrays
(96-99) and never unwrapped (227). -/
def calcBlendedRainTropical (P : TropParams α) (predef band : String) (dz zdr kdp : Option (PyVal α))
    (cs fhc : Option Cls) : Except PyErr (Option (Ret α)) :=
  match dz, zdr, kdp with
  | some (.scalar dt d), some (.scalar _ z), some (.scalar _ k) =>
    let go (cs fhc : Option (List Int)) : Except PyErr (Option (Ret α)) :=
      let o := tropicalArr P predef band dt [d] [z] [k] cs fhc
      .ok (some (.arr ⟨dt, [1], o.1⟩ ⟨.int, [1], o.2⟩ none))
    match cs, fhc with
    | none, none => go none none
    | some (.scalar c), none => go (some [c]) none
    | none, some (.scalar f) => go none (some [f])
    | some (.scalar c), some (.scalar f) => go (some [c]) (some [f])
    | _, _ => .error .notModelled
  | some (.arr d), some (.arr z), some (.arr k) =>
    if d.shape = z.shape ∧ d.shape = k.shape then
      let go (cs fhc : Option (List Int)) : Except PyErr (Option (Ret α)) :=
        let o := tropicalArr P predef band d.dtype d.data z.data k.data cs fhc
        .ok (some (.arr ⟨d.dtype, d.shape, o.1⟩ ⟨.int, d.shape, o.2⟩ none))
      match cs, fhc with
      | none, none => go none none
      | some (.arr c), none => if c.shape = d.shape then go (some c.data) none else .error .notModelled
      | none, some (.arr f) => if f.shape = d.shape then go none (some f.data) else .error .notModelled
      | some (.arr c), some (.arr f) =>
        if c.shape = d.shape ∧ f.shape = d.shape then go (some c.data) (some f.data) else .error .notModelled
      | _, _ => .error .notModelled
    else .error .notModelled
  | some _, some _, some _ => .error .notModelled
  | _, _, _ => .ok none

end Csu.Rain
