import Verif.Model.Common
/-!
# Model of `csu_radartools/csu_t_traps.py`

The trapezoid functions take the array `x_arr`, allocate `beta = np.zeros_like(x_arr)` (so `beta` has the dtype of
`x_arr`; integer arrays truncate every stored value) and overwrite parts of it in source order.  `np.where(cond)` used
as an index is the boolean mask `cond`.  The `print` calls are not modelled.
Simplification: 0-d input (a Python scalar) is not modelled.
-/
namespace Csu.Traps
open Csu PyFloat Common
variable {α : Type} [PyFloat α]

/-- `np.logical_and(x >= lo, x <= hi)` -/
def between (lo hi : α) (x : List α) : List Bool := logicalAnd (x.map (· >=. lo)) (x.map (· <=. hi))

/-- `t_trap_agg`, csu_t_traps.py:83-100. -/
def tTrapAgg (t : DType) (x : List α) (x1 x2 x3 x4 : α) : List α :=
  let beta := x.map (fun _ => store t 0)
  let beta := maskSet (x.map (· <=. x1)) (store t 0.5) beta
  let beta := maskSet (between x2 x3 x) (store t 1) beta
  let beta := maskSet (x.map (· >=. x4)) (store t (-1)) beta
  let slope12 := 0.5 / abs (abs x1 - abs x2)
  let slope34 := 1 / abs (abs x4 - abs x3)
  let test1 := x.map (fun v => slope12 * (abs x1 + v) + 0.5)
  let beta := maskCopy (between x1 x2 x) (test1.map (store t)) beta
  let test2 := x.map (fun v => slope34 * (abs x4 - v))
  maskCopy (between x3 x4 x) (test2.map (store t)) beta

/-- `t_trap_bd`, csu_t_traps.py:102-114. -/
def tTrapBd (t : DType) (x : List α) (x1 x2 : α) : List α :=
  let beta := x.map (fun _ => store t 0)
  let beta := maskSet (x.map (· <=. x1)) (store t (-1)) beta
  let beta := maskSet (x.map (· >=. x2)) (store t 1) beta
  let slope12 := 2 / abs (abs x1 + abs x2)
  let test1 := x.map (fun v => abs (slope12 * (v - x1) / (x2 - x1)))
  maskCopy (between x1 x2 x) (test1.map (store t)) beta

/-- `t_trap_dz`, csu_t_traps.py:116-128. -/
def tTrapDz (t : DType) (x : List α) (x1 x2 : α) : List α :=
  let beta := x.map (fun _ => store t 0)
  let beta := maskSet (x.map (· <=. x1)) (store t (-1)) beta
  let beta := maskSet (x.map (· >=. x2)) (store t 1) beta
  let slope12 := 2 / abs (abs x1 + abs x2)
  let test1 := x.map (fun v => abs (slope12 * (v - x1) / (x2 - x1)))
  maskCopy (between x1 x2 x) (test1.map (store t)) beta

/-- `t_trap_ha`, csu_t_traps.py:130-147. -/
def tTrapHa (t : DType) (x : List α) (x1 x2 x3 x4 : α) : List α :=
  let beta := x.map (fun _ => store t 0)
  let beta := maskSet (x.map (· <=. x1)) (store t 0.2) beta
  let beta := maskSet (between x2 x3 x) (store t 0.8) beta
  let beta := maskSet (x.map (· >=. x4)) (store t 0.2) beta
  let slope12 := 0.6 / abs (abs x1 - abs x2)
  let slope34 := 0.6 / abs (abs x4 - abs x3)
  let test1 := x.map (fun v => slope12 * (abs x1 + v) + 0.2)
  let beta := maskCopy (between x1 x2 x) (test1.map (store t)) beta
  let test2 := x.map (fun v => slope34 * (abs x4 - v) + 0.2)
  maskCopy (between x3 x4 x) (test2.map (store t)) beta

/-- `t_trap_hdg`, csu_t_traps.py:149-166. -/
def tTrapHdg (t : DType) (x : List α) (x1 x2 x3 x4 : α) : List α :=
  let beta := x.map (fun _ => store t 0)
  let beta := maskSet (x.map (· <=. x1)) (store t 0.3) beta
  let beta := maskSet (between x2 x3 x) (store t 1) beta
  let beta := maskSet (x.map (· >=. x4)) (store t (-1)) beta
  let slope12 := 0.7 / abs (abs x1 - abs x2)
  let slope34 := 2 / abs (abs x4 - abs x3)
  let test1 := x.map (fun v => slope12 * (abs x1 + v) + 0.3)
  let beta := maskCopy (between x1 x2 x) (test1.map (store t)) beta
  let test2 := x.map (fun v => slope34 * (abs x4 - v) - 1)
  maskCopy (between x3 x4 x) (test2.map (store t)) beta

/-- `t_trap_ic`, csu_t_traps.py:169-181. -/
def tTrapIc (t : DType) (x : List α) (x1 x2 : α) : List α :=
  let beta := x.map (fun _ => store t 0)
  let beta := maskSet (x.map (· <=. x1)) (store t 1) beta
  let beta := maskSet (x.map (· >=. x2)) (store t (-1)) beta
  let slope12 := 1 / abs (x2 + x1)
  let test1 := x.map (fun v => 1 - abs (slope12 * (v - x1)))
  maskCopy (between x1 x2 x) (test1.map (store t)) beta

/-- `t_trap_ldg`, csu_t_traps.py:183-200. -/
def tTrapLdg (t : DType) (x : List α) (x1 x2 x3 x4 : α) : List α :=
  let beta := x.map (fun _ => store t 0)
  let beta := maskSet (x.map (· <=. x1)) (store t 0.5) beta
  let beta := maskSet (between x2 x3 x) (store t 1) beta
  let beta := maskSet (x.map (· >=. x4)) (store t (-1)) beta
  let slope12 := 0.5 / abs (abs x1 - abs x2)
  let slope34 := 1 / abs (abs x4 - abs x3)
  let test1 := x.map (fun v => slope12 * (abs x1 + v) + 0.5)
  let beta := maskCopy (between x1 x2 x) (test1.map (store t)) beta
  let test2 := x.map (fun v => slope34 * (abs x4 - v))
  maskCopy (between x3 x4 x) (test2.map (store t)) beta

/-- `t_trap_rain`, csu_t_traps.py:202-214. -/
def tTrapRain (t : DType) (x : List α) (x1 x2 : α) : List α :=
  let beta := x.map (fun _ => store t 0)
  let beta := maskSet (x.map (· <=. x1)) (store t (-1)) beta
  let beta := maskSet (x.map (· >=. x2)) (store t 1) beta
  let slope12 := 1 / abs (x2 + x1)
  let test1 := x.map (fun v => abs (slope12 * (v - x1)))
  maskCopy (between x1 x2 x) (test1.map (store t)) beta

/-- `t_trap_ws`, csu_t_traps.py:216-224. -/
def tTrapWs (t : DType) (x : List α) (x1 x2 : α) : List α :=
  let beta := x.map (fun _ => store t 0)
  let beta := maskSet (x.map (· <=. x1)) (store t (-1)) beta
  let beta := maskSet (x.map (· >=. x2)) (store t (-1)) beta
  maskSet (between x1 x2 x) (store t 1) beta

/-- `get_hid_traps` on the flat data of an array of dtype `t`, csu_t_traps.py:19-81; `c` is any Python integer. -/
def getHidTraps (c : Int) (t : DType) (x : List α) : Option (List α) :=
  if c = 0 then some (tTrapDz t x (-3) (-1))
  else if c = 1 then some (tTrapRain t x (-10) (-2))
  else if c = 2 then some (tTrapIc t x 0 5)
  else if c = 3 then some (tTrapAgg t x (-35) (-25) 0 5)
  else if c = 4 then some (tTrapWs t x (-3) 3)
  else if c = 5 then some (tTrapIc t x 0 5)
  else if c = 6 then some (tTrapLdg t x (-40) (-30) 0 5)
  else if c = 7 then some (tTrapHdg t x (-30) (-20) 5 30)
  else if c = 8 then some (tTrapHa t x (-30) (-20) 5 15)
  else if c = 9 then some (tTrapBd t x (-2) 1)
  else none

end Csu.Traps
