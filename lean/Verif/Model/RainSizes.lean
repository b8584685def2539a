import Verif.Model.LiquidIceAny
/-!
# `calc_blended_rain`, `csu_hidro_rain` and `calc_blended_rain_tropical` on one-dimensional arrays of any lengths

Nothing in these functions compares the sizes of the arguments (`_check_for_array`, common.py:13-19, looks at `dz` only); what happens to arrays of
different lengths is decided by NumPy's broadcasting of each operation and by the length check of each boolean index.  This module models the calls
`Model/Rain.lean` leaves as `notModelled` when every argument is one-dimensional.

Not modelled: unequal shapes of two or more axes.
-/
namespace Csu.Rain
open Csu PyFloat Csu.Common Csu.LiquidIce
variable {α : Type} [PyFloat α]

/-- `np.logical_and` of two boolean arrays of any lengths -/
def andAny (a b : List Bool) : Except PyErr (List Bool) := bcast (· && ·) a b

/-- `np.logical_or` of two boolean arrays of any lengths -/
def orAny (a b : List Bool) : Except PyErr (List Bool) := bcast (· || ·) a b

/-- `calc_blended_rain` on one-dimensional arrays of any lengths, csu_blended_rain.py:67-134. -/
def blendedSizes (P : Params α) (band : String) (dt : DType) (dz zdr kdp : List α) : Except PyErr (Out α) := do
  let r := dz.map (fun _ => (0 : α))
  let meth := dz.map (fun _ => (0 : Int))
  let rDzNexrad := calcRainNexrad dz P.threshNexrad P.rZA P.rZB
  let rKdp := kdp.map (calcRainKdp P.rKdpA P.rKdpB)
  let condKdp := kdp.map (· >=. P.threshKdp)
  let condDz := dz.map (· >=. P.threshDz)
  let condDzKdp ← andAny condDz condKdp
  if band = "S" then
    let rKdpZdr ← bcast (calcRainKdpZdr P.rKdpZdrA P.rKdpZdrB P.rKdpZdrC) kdp zdr
    let rDzZdr ← bcast (calcRainZZdr P.rZZdrA P.rZZdrB P.rZZdrC) dz zdr
    let zhor := dz.map linearize
    let zvert ← bcast (fun d z => (calcZhZv d z).2) dz zdr
    let zd ← bcast (· - ·) zhor zvert
    let zdp := (maskSet (zd.map (· <=. 0)) 0.000000000001 zd).map (fun x => 10 * log10 x)
    let (fitA, fitB) ← rainLine P
    let zrain := zdp.map (fun x => (10 : α) ^ ((fitA * x + fitB) / 10))
    let dzrain := zrain.map (fun x => 10 * log10 x)
    let fi ← bcast (fun x h => 1 - x / h) zrain zhor
    let rDzRainonly := calcRainNexrad dzrain P.threshNexrad P.rZA P.rZB
    let condIce := fi.map (· <. P.threshFracIce)
    let condZdr := zdr.map (· >=. P.threshZdr)
    let cond1or2 ← andAny condIce condDzKdp
    let cond1 ← andAny cond1or2 condZdr
    let cond2a ← andAny cond1or2 (invert condZdr)
    let cond2b ← andAny (invert condIce) condDzKdp
    let cond2 ← orAny cond2a cond2b
    let cond3or4 ← andAny condIce (invert condDzKdp)
    let cond3 ← andAny cond3or4 condZdr
    let cond4 ← andAny cond3or4 (invert condZdr)
    let cond5 ← andAny (invert condIce) (invert condDzKdp)
    let meth ← maskSetAny cond1 1 meth
    let r ← maskCopyAny cond1 (rKdpZdr.map (store dt)) r
    let meth ← maskSetAny cond3 3 meth
    let r ← maskCopyAny cond3 (rDzZdr.map (store dt)) r
    let meth ← maskSetAny cond5 5 meth
    let r ← maskCopyAny cond5 (rDzRainonly.map (store dt)) r
    let meth ← maskSetAny cond2 2 meth
    let r ← maskCopyAny cond2 (rKdp.map (store dt)) r
    let meth ← maskSetAny cond4 4 meth
    let r ← maskCopyAny cond4 (rDzNexrad.map (store dt)) r
    return ⟨r, meth, some (zdp, fi)⟩
  else
    let cond2 := condDzKdp
    let cond4 := invert condDzKdp
    let meth ← maskSetAny cond2 2 meth
    let r ← maskCopyAny cond2 (rKdp.map (store dt)) r
    let meth ← maskSetAny cond4 4 meth
    let r ← maskCopyAny cond4 (rDzNexrad.map (store dt)) r
    return ⟨r, meth, none⟩

/-- `csu_hidro_rain` on one-dimensional arrays of any lengths, csu_blended_rain.py:185-248. -/
def hidroSizes (P : Params α) (band : String) (dt : DType) (dz zdr kdp : List α) (fhc : List Int) : Except PyErr (List α × List Int) := do
  let r := dz.map (fun _ => (0 : α))
  let meth := dz.map (fun _ => (0 : Int))
  let rZ88 := calcRainNexrad dz defaultThreshNexrad P.rZA P.rZB
  let rKd := kdp.map (calcRainKdp P.rKdpA P.rKdpB)
  let condRainA ← orAny (fhc.map (· == 1)) (fhc.map (· == 2))
  let condRain ← orAny (fhc.map (· == 10)) condRainA
  let condKdp := kdp.map (· >=. P.threshKdp)
  let condDz := dz.map (· >=. P.threshDz)
  let condDzKdp ← andAny condDz condKdp
  let condIceA ← orAny (fhc.map (· == 5)) (fhc.map (· == 7))
  let condIceB ← orAny (fhc.map (· == 8)) (fhc.map (· == 9))
  let condIce ← orAny condIceA condIceB
  let condIceKdp ← andAny condIce condKdp
  if band = "S" then
    let rZhdr ← bcast (calcRainZZdr P.rZZdrA P.rZZdrB P.rZZdrC) dz zdr
    let rKddr ← bcast (calcRainKdpZdr P.rKdpZdrA P.rKdpZdrB P.rKdpZdrC) kdp zdr
    let condZdr := zdr.map (· >=. P.threshZdr)
    let condDzKdpZdr ← andAny condDzKdp condZdr
    let condDzKdpNotZdr ← andAny condDzKdp (invert condZdr)
    let condNotKdpZdr ← andAny (invert condKdp) condZdr
    let condNotKdpNotZdr ← andAny (invert condKdp) (invert condZdr)
    let cond1 ← andAny condRain condDzKdpZdr
    let cond2 ← andAny condRain condDzKdpNotZdr
    let cond3 ← andAny condRain condNotKdpZdr
    let cond4a ← andAny condRain condNotKdpNotZdr
    let cond4b ← andAny condRain (invert condDz)
    let cond4 ← orAny cond4a cond4b
    let meth ← maskSetAny cond1 1 meth
    let r ← maskCopyAny cond1 (rKddr.map (store dt)) r
    let meth ← maskSetAny cond3 3 meth
    let r ← maskCopyAny cond3 (rZhdr.map (store dt)) r
    let meth ← maskSetAny condIceKdp 2 meth
    let r ← maskCopyAny condIceKdp (rKd.map (store dt)) r
    let meth ← maskSetAny cond2 2 meth
    let r ← maskCopyAny cond2 (rKd.map (store dt)) r
    let meth ← maskSetAny cond4 4 meth
    let r ← maskCopyAny cond4 (rZ88.map (store dt)) r
    return (r, meth)
  else
    let cond2 := condDzKdp
    let cond4 ← andAny (invert condDzKdp) condRain
    let condIceKdp ← andAny (invert condDzKdp) (invert condRain)
    let meth ← maskSetAny condIceKdp 2 meth
    let r ← maskSetAny condIceKdp 0 r
    let meth ← maskSetAny cond2 2 meth
    let r ← maskCopyAny cond2 (rKd.map (store dt)) r
    let meth ← maskSetAny cond4 4 meth
    let r ← maskCopyAny cond4 (rZ88.map (store dt)) r
    return (r, meth)

/-- `calc_blended_rain` called on one-dimensional arrays of any lengths: the return branches, csu_blended_rain.py:136-145. -/
def calcBlendedRain1d (P : Params α) (band : String) (iceFlag : Bool) (dt : DType) (dz zdr kdp : List α) : Except PyErr (Ret α) := do
  let o ← blendedSizes P band dt dz zdr kdp
  if !iceFlag || band ≠ "S" then
    return .arr ⟨dt, [o.rain.length], o.rain⟩ ⟨.int, [o.meth.length], o.meth⟩ none
  else match o.ice with
    | none => .error .unboundLocalError
    | some (zdp, fi) =>
      return .arr ⟨dt, [o.rain.length], o.rain⟩ ⟨.int, [o.meth.length], o.meth⟩ (some (⟨.float, [zdp.length], zdp⟩, ⟨.float, [fi.length], fi⟩))

/-- `csu_hidro_rain` called on one-dimensional arrays of any lengths: the return branch, csu_blended_rain.py:245-248. -/
def csuHidroRain1d (P : Params α) (band : String) (dt : DType) (dz zdr kdp : List α) (fhc : List Int) : Except PyErr (Ret α) := do
  let o ← hidroSizes P band dt dz zdr kdp fhc
  return .arr ⟨dt, [o.1.length], o.1⟩ ⟨.int, [o.2.length], o.2⟩ none

/-- the choice by rain type, csu_blended_rain_tropical.py:192-206, on one-dimensional arrays of any lengths: the rates and the codes -/
def tropTypesSizes (dt : DType) (cond4 : List Bool) (rAll rConv rStrat r : List α) (meth : List Int) (cs : Option (List Int)) :
    Except PyErr (List α × List Int) :=
  match cs with
  | none => do
    let meth ← maskSetAny cond4 4 meth
    let r ← maskCopyAny cond4 (rAll.map (store dt)) r
    return (r, meth)
  | some cs => do
    let cond4c ← andAny cond4 (cs.map (· == 2))
    let cond4s ← andAny cond4 (cs.map (· == 1))
    let cond4a ← andAny cond4 (cs.map (· == 3))
    let meth ← maskSetAny cond4c 5 meth
    let meth ← maskSetAny cond4s 6 meth
    let meth ← maskSetAny cond4a 4 meth
    let r ← maskCopyAny cond4c (rConv.map (store dt)) r
    let r ← maskCopyAny cond4s (rStrat.map (store dt)) r
    let r ← maskCopyAny cond4a (rAll.map (store dt)) r
    return (r, meth)

/-- the choice by hydrometeor class, csu_blended_rain_tropical.py:215-221, on one-dimensional arrays of any lengths -/
def tropIceSizes (dt : DType) (condKdpz : List Bool) (rKdp r : List α) (meth : List Int) (fhc : Option (List Int)) :
    Except PyErr (List α × List Int) :=
  match fhc with
  | none => .ok (r, meth)
  | some fhc => do
    let condIce ← andAny (fhc.map (fun f => decide (f > 2))) (fhc.map (fun f => decide (f < 10)))
    let r ← maskSetAny condIce 0 r
    let meth ← maskSetAny condIce (-1) meth
    let condHail ← andAny (fhc.map (· == 9)) condKdpz
    let r ← maskCopyAny condHail (rKdp.map (store dt)) r
    let meth ← maskSetAny condIce 2 meth
    return (r, meth)

/-- `calc_blended_rain_tropical` on one-dimensional arrays of any lengths, csu_blended_rain_tropical.py:163-224. -/
def tropicalSizes (P0 : TropParams α) (predef band : String) (dt : DType) (dz zdr kdp : List α) (cs fhc : Option (List Int)) :
    Except PyErr (List α × List Int) := do
  let P := tropPredef predef band P0
  let r := dz.map (fun _ => (0 : α))
  let meth := dz.map (fun _ => (-1 : Int))
  let rConv := dz.map (calcRainZr P.rZAc P.rZBc)
  let rStrat := dz.map (calcRainZr P.rZAs P.rZBs)
  let rAll := dz.map (calcRainZr P.rZA P.rZB)
  let rKdpZdr ← bcast (calcRainKdpZdr P.rKdpZdrA P.rKdpZdrB P.rKdpZdrC) kdp zdr
  let rDzZdr ← bcast (calcRainZZdr P.rZZdrA P.rZZdrB P.rZZdrC) dz zdr
  let rKdp := kdp.map (calcRainKdp P.rKdpA P.rKdpB)
  let condKdp := kdp.map (· >=. P.threshKdp)
  let condDbz := dz.map (· >=. P.threshDz)
  let condKdpz ← andAny condKdp condDbz
  let condZdr := zdr.map (· >=. P.threshZdr)
  let cond1 ← andAny condKdpz condZdr
  let cond2 ← andAny condKdpz (invert condZdr)
  let cond3 ← andAny condZdr (invert condKdpz)
  let cond4 ← andAny (invert condKdpz) (invert condZdr)
  let o ← tropTypesSizes dt cond4 rAll rConv rStrat r meth cs
  let meth ← maskSetAny cond1 1 o.2
  let meth ← maskSetAny cond2 2 meth
  let meth ← maskSetAny cond3 3 meth
  let r ← maskCopyAny cond1 (rKdpZdr.map (store dt)) o.1
  let r ← maskCopyAny cond2 (rKdp.map (store dt)) r
  let r ← maskCopyAny cond3 (rDzZdr.map (store dt)) r
  let o ← tropIceSizes dt condKdpz rKdp r meth fhc
  let r ← maskSetAny (dz.map (· <. -10)) 0 o.1
  let meth ← maskSetAny (dz.map (· <. -10)) (-1) o.2
  return (r, meth)

/-- `calc_blended_rain_tropical` called on one-dimensional arrays of any lengths: the return, csu_blended_rain_tropical.py:227. -/
def calcBlendedRainTropical1d (P : TropParams α) (predef band : String) (dt : DType) (dz zdr kdp : List α) (cs fhc : Option (List Int)) :
    Except PyErr (Ret α) := do
  let o ← tropicalSizes P predef band dt dz zdr kdp cs fhc
  return .arr ⟨dt, [o.1.length], o.1⟩ ⟨.int, [o.2.length], o.2⟩ none

end Csu.Rain
