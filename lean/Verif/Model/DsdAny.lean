import Verif.Model.Dsd
import Verif.Model.LiquidIceAny
/-!
# `calc_dsd` with numbers and arrays mixed

`calc_dsd` (csu_dsd.py:27-48) passes its arguments through `_check_for_array` (common.py:13-19), which looks at `dz` only:
when `dz` is an array the others reach the body as they are, when it is a number they are wrapped in one-element lists.

Not modelled (`notModelled`): a NumPy number (as opposed to a plain Python one) for ZDR beside an array of reflectivity in
the two retrievals without KDP, arrays of unequal shapes beside an array of reflectivity, zero-dimensional arrays, and
the OverflowError of Python's own `**` on plain numbers.
-/
namespace Csu.Dsd
open Csu PyFloat Csu.Common Csu.LiquidIce Csu.Rain
variable {α : Type} [PyFloat α]

/-- the retrievals that do not use KDP, csu_dsd.py:36-37 and 40-41 -/
def withoutKdp (band method : String) : Bool := (band = "S" ∧ method = "2013") ∨ band = "C"

/-- `dz` an array: `calc_dsd_sband_bringi_2013`/`calc_dsd_cband_bringi_2009` index ZDR with a mask (csu_dsd.py:71, 105),
which a plain number does not allow. -/
def arrayNoKdp (band method : String) (d : NdArray α) (zdr : Arg α) : Except PyErr (Option (Dsd.Ret α)) :=
  match zdr with
  | .arr z =>
    if d.shape = z.shape then
      match dispatch band method d.data z.data d.data with
      | none => .ok none
      | some o => .ok (some (.arr ⟨.float, d.shape, o.d0⟩ ⟨.float, d.shape, o.nw⟩ ⟨.float, d.shape, o.mu⟩))
    else .error .notModelled
  | .num .py _ => .error .typeError
  | .num .np _ => .error .notModelled

/-- `dz` an array: `calc_dsd_sband_bringi_2004` indexes KDP, then the linear ZDR, with a mask of the shape of `dz`
(csu_dsd.py:135-136): TypeError for a plain number, IndexError for a NumPy number. -/
def array2004 (d : NdArray α) (zdr kdp : Arg α) : Except PyErr (Option (Dsd.Ret α)) :=
  match kdp, zdr with
  | .num .py _, _ => .error .typeError
  | .num .np _, _ => .error .indexError
  | .arr _, .num .py _ => .error .typeError
  | .arr _, .num .np _ => .error .indexError
  | .arr k, .arr z => calcDsd "S" "2004" (some (.arr d)) (some (.arr z)) (some (.arr k))

/-- `dz` a number: everything else is wrapped in one more axis; a mask with two or more axes does not index the one-axis
arrays made from `dz` (csu_dsd.py:71, 105, 135). -/
def numberDsd (band method : String) (d : α) (zdr kdp : Arg α) : Except PyErr (Option (Dsd.Ret α)) := do
  let (s, z) := wrapped zdr
  let (s', k) := wrapped kdp
  let sh ← if withoutKdp band method then Except.ok s
    else match bshape s s' with
      | none => Except.error PyErr.valueError
      | some sh => Except.ok sh
  if sh.length ≠ 1 then throw .indexError
  match dispatch band method [d] z k with
  | none => return none
  | some o => do
    let a ← first o.d0
    let b ← first o.nw
    let c ← first o.mu
    return some (.scalar a b c)

/-- `calc_dsd`, csu_dsd.py:27-48, every argument given. -/
def calcDsdAny (band method : String) (dz zdr kdp : Arg α) : Except PyErr (Option (Dsd.Ret α)) :=
  if band = "S" ∨ band = "C" then
    match dz with
    | .num _ d => numberDsd band method d zdr kdp
    | .arr d =>
      if d.shape = [] then .error .notModelled
      else if withoutKdp band method then arrayNoKdp band method d zdr
      else array2004 d zdr kdp
  else .ok none

end Csu.Dsd
