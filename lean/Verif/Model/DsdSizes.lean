import Verif.Model.DsdAny
import Verif.Model.Winter
/-!
# `calc_dsd` on one-dimensional arrays of any lengths, statement by statement

Nothing in `csu_dsd.py` compares the sizes of the arguments (`_check_for_array`, common.py:13-19, looks at `dz` only).  Here every boolean index is
taken apart: `x[m]` selects (`getAny`), the retrieval runs on the selected gates, `a[m] = v` puts the results back (`putAny`); each checks the length of
the mask as NumPy does, and each arithmetic or logical operation broadcasts.

Not modelled: unequal shapes of two or more axes.
-/
namespace Csu.Dsd
open Csu PyFloat Csu.Common Csu.LiquidIce
variable {α : Type} [PyFloat α]

/-- `x[m]`, a boolean index on a one-dimensional array: IndexError unless the lengths agree -/
def getAny {β : Type} (m : List Bool) (x : List β) : Except PyErr (List β) :=
  if m.length = x.length then .ok (Csu.maskGet m x) else .error .indexError

/-- the values `v` put, in order, into the places of `a` the mask selects -/
def maskPut {β : Type} : List Bool → List β → List β → List β
  | true :: m, v :: vs, _ :: a => v :: maskPut m vs a
  | false :: m, vs, x :: a => x :: maskPut m vs a
  | _, _, a => a

/-- `a[m] = v`: IndexError unless the mask has the length of the array; a value array of another size than the selection is a ValueError, except that
one value is repeated (NumPy assigns by broadcasting). -/
def putAny {β : Type} (m : List Bool) (v a : List β) : Except PyErr (List β) :=
  if m.length ≠ a.length then .error .indexError
  else if v.length = m.countP id then .ok (maskPut m v a)
  else match v with
    | [x] => .ok (maskPut m (List.replicate (m.countP id) x) a)
    | _ => .error .valueError

/-- `calc_dsd_cband_bringi_2009`, csu_dsd.py:62-77. -/
def cband2009Sizes (dz zdr : List α) : Except PyErr (Out α) := do
  let d0 := dz.map (0 * ·)
  let dzLin := dz.map linearize
  let meth1 ← bcast (· && ·) (zdr.map (· >=. -0.5)) (zdr.map (· <=. 1.25))
  let z ← getAny meth1 zdr
  let d0 ← putAny meth1 (z.map (d0LowZdr 0.0203 (-0.1488) 0.2209 0.5571 0.801)) d0
  let meth2 := zdr.map (· >. 1.25)
  let z ← getAny meth2 zdr
  let d0 ← putAny meth2 (z.map (d0HighZdr 0.0355 (-0.3021) 1.0556 0.6844)) d0
  let nw ← bcast (fun l d => l / powerLaw d 0.056 7.319) dzLin d0
  let mu := dz.map (fun d => 0 * d + defaultMu)
  return ⟨d0, nw, mu⟩

/-- `calc_dsd_sband_bringi_2013`, csu_dsd.py:94-112. -/
def sband2013Sizes (dz zdr : List α) : Except PyErr (Out α) := do
  let d0 := dz.map (0 * ·)
  let dzLin := dz.map linearize
  let meth1 := zdr.map (· <. 1)
  let z ← getAny meth1 zdr
  let d0 ← putAny meth1 (z.map (d0LowZdr 0.0424 (-0.4571) 0.6125 0.457 0.8808)) d0
  let meth2 := zdr.map (· >=. 1)
  let z ← getAny meth2 zdr
  let d0 ← putAny meth2 (z.map (d0HighZdr 0.0536 (-0.1971) 0.6261 1.0815)) d0
  let nw ← bcast (fun l d => 19.76 * l / powerLaw d 1 7.46) dzLin d0
  let mu := dz.map (fun d => 0 * d + defaultMu)
  return ⟨d0, nw, mu⟩

/-- `d0[m], Nw[m], mu[m] = triple` -/
def put3 (m : List Bool) (v : List (α × α × α)) (o : Out α) : Except PyErr (Out α) := do
  let d0 ← putAny m (v.map (·.1)) o.d0
  let nw ← putAny m (v.map (·.2.1)) o.nw
  let mu ← putAny m (v.map (·.2.2)) o.mu
  return ⟨d0, nw, mu⟩

/-- method 1 assigned to its gates, csu_dsd.py:135-136 -/
def step1 (m : List Bool) (dzLin kdp zeta beta : List α) (o : Out α) : Except PyErr (Out α) := do
  let d ← getAny m dzLin
  let _ ← getAny m kdp
  let z ← getAny m zeta
  let b ← getAny m beta
  put3 m (List.zipWith (fun d (p : α × α) => method1 d p.1 p.2) d (List.zip z b)) o

/-- method 2 assigned to its gates, csu_dsd.py:138-139 -/
def step2 (m : List Bool) (dzLin kdp zdr : List α) (o : Out α) : Except PyErr (Out α) := do
  let d ← getAny m dzLin
  let _ ← getAny m kdp
  let z ← getAny m zdr
  put3 m (List.zipWith method2 d z) o

/-- method 3 assigned to its gates, csu_dsd.py:142-143 -/
def step3 (m : List Bool) (dzLin kdp zdr zeta : List α) (o : Out α) : Except PyErr (Out α) := do
  let d ← getAny m dzLin
  let _ ← getAny m kdp
  let z ← getAny m zdr
  let t ← getAny m zeta
  put3 m (List.zipWith (fun d (p : α × α) => method3 d p.1 p.2) d (List.zip z t)) o

/-- method 4 assigned to its gates, csu_dsd.py:146-147 -/
def step4 (m : List Bool) (dzLin zeta : List α) (o : Out α) : Except PyErr (Out α) := do
  let d ← getAny m dzLin
  let t ← getAny m zeta
  put3 m (List.zipWith method4 d t) o

/-- `calc_dsd_sband_bringi_2004`, csu_dsd.py:120-148. `a * (dz**b) * (kdp**c) * (zeta**d)` (csu_dsd.py:153) broadcasts twice. -/
def sband2004Sizes (dz zdr kdp : List α) : Except PyErr (Out α) := do
  let o : Out α := ⟨dz.map (0 * ·), dz.map (0 * ·), dz.map (0 * ·)⟩
  let zeta := zdr.map linearize
  let dzLin := dz.map linearize
  let dk ← bcast (fun d k => (2.08 : α) * d ^ (-0.365 : α) * k ^ (0.38 : α)) dzLin kdp
  let beta ← bcast (fun x z => x * z ^ (0.965 : α)) dk zeta
  let meth1a ← bcast (· && ·) (dz.map (· >=. 35)) (zdr.map (· >=. 0.2))
  let meth1 ← bcast (· && ·) meth1a (kdp.map (· >=. 0.3))
  let o ← step1 meth1 dzLin kdp zeta beta o
  let meth2 ← bcast (· && ·) (kdp.map (· <. 0.3)) (zdr.map (· >=. 0.5))
  let o ← step2 meth2 dzLin kdp zdr o
  let meth3a ← bcast (· && ·) (zdr.map (· >=. 0.2)) (zdr.map (· <. 0.5))
  let meth3 ← bcast (· && ·) meth3a (kdp.map (· <. 0.3))
  let o ← step3 meth3 dzLin kdp zdr zeta o
  let meth4a ← bcast (· && ·) (zdr.map (· >=. -0.5)) (zdr.map (· <. 0.2))
  let meth4 ← bcast (· && ·) meth4a (kdp.map (· <. 0.3))
  step4 meth4 dzLin zeta o

/-- three one-dimensional arrays returned, csu_dsd.py:45-48 -/
def arrays1d (o : Out α) : Option (Ret α) :=
  some (.arr ⟨.float, [o.d0.length], o.d0⟩ ⟨.float, [o.nw.length], o.nw⟩ ⟨.float, [o.mu.length], o.mu⟩)

/-- `calc_dsd` called on one-dimensional arrays of any lengths, csu_dsd.py:27-48. -/
def calcDsd1d (band method : String) (dz zdr kdp : List α) : Except PyErr (Option (Ret α)) :=
  if band = "S" then
    if method = "2013" then (sband2013Sizes dz zdr).map arrays1d else (sband2004Sizes dz zdr kdp).map arrays1d
  else if band = "C" then (cband2009Sizes dz zdr).map arrays1d
  else .ok none

end Csu.Dsd
