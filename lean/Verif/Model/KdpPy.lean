import Verif.Model.Kdp
/-!
# Model of the pure-Python ray routine of `csu_kdp.py`

`_calc_kdp_ray` ("currently disabled due to performance issues") is never called by the package, but it is the only
implementation that needs no compiler.  Rays are functions on gate numbers below `n`.  `numpy.linalg.lstsq` is a
parameter `ls` (points to slope and intercept, or an exception).

Simplifications: `np.sum`, `np.dot` add from left to right; `int16`/`int32` do not overflow; casting a NaN to `int16` gives
some natural number `castNan` (0 on x86).
-/
namespace Csu.KdpPy
open Csu PyFloat Kdp
variable {α : Type} [PyFloat α]

/-- Arguments of `_calc_kdp_ray`, csu_kdp.py:157 (a scalar `thsd` is broadcast, lines 182-183). -/
structure PRay (α : Type) where
  n : Nat
  dp : Nat → α
  dz : Nat → α
  rng : Nat → α
  thsd : Nat → α
  nf : Nat
  bad : α
  order : Nat
  gain : α
  coef : List α
  castNan : Nat

/-- `half_fir_win`, csu_kdp.py:188 -/
def PRay.half (R : PRay α) : Nat := R.order / 2

/-- sum of a list -/
def psum (l : List α) : α := l.foldl (· + ·) 0.0

/-- `np.dot` -/
def dot (a b : List α) : α := (a.zip b).foldl (fun s p => s + p.1 * p.2) 0.0

/-- `_quick_std`, csu_kdp.py:269-274 (`array[mask]` is the argument) -/
def quickStd (a : List α) : α :=
  let m := psum a / PyFloat.ofNat a.length
  let c := a.map (· - m)
  (dot c c / PyFloat.ofNat a.length) ^ (0.5 : α)

/-- the gates `lo, ..., lo + len - 1` -/
def win (lo len : Nat) : List Nat := (List.range len).map (lo + ·)

/-- `sd_lin[i]`, csu_kdp.py:195-203: the slice is `[i-5, i+5)`, and the test is `index2 < length - 1` -/
def sdAt (R : PRay α) (i : Nat) : α :=
  if (R.dp i !=. R.bad) && decide (5 ≤ i ∧ (i : Int) + 5 < (R.n : Int) - 1) then
    let a := ((win (i - 5) 10).map R.dp).filter (fun x => x !=. R.bad)
    if 5 < a.length then quickStd a else 100.0
  else 100.0

/-- filling the gates of the window that are not in the mask, csu_kdp.py:220 (`yy` is a view of `z`) -/
def fill (R : PRay α) (mask : Nat → Bool) (w : List Nat) (ab : α × α) (z : Nat → α) : Nat → α :=
  fun j => if j ∈ w ∧ mask j = false then ab.1 * R.rng j + ab.2 else z j

/-- One gate of the filter, csu_kdp.py:209-221; `mask` is fixed during the pass.  `np.dot` of different lengths raises
ValueError. -/
def gate (ls : List (α × α) → Except PyErr (α × α)) (R : PRay α) (mask : Nat → Bool) (yz : (Nat → α) × (Nat → α)) (i : Nat) :
    Except PyErr ((Nat → α) × (Nat → α)) :=
  if R.half ≤ i ∧ (i : Int) + R.half < (R.n : Int) - 1 then
    let w := win (i - R.half) (2 * R.half + 1)
    let g := w.filter mask
    if PyFloat.ofNat g.length >. (0.8 : α) * PyFloat.ofNat R.order then do
      let z ← (if g.length < R.order + 1 then do
          let ab ← ls (g.map (fun j => (R.rng j, yz.2 j)))
          .ok (fill R mask w ab yz.2)
        else .ok yz.2 : Except PyErr (Nat → α))
      if R.coef.length ≠ w.length then .error .valueError
      else .ok (fun j => if j = i then R.gain * dot R.coef (w.map z) else yz.1 j, z)
    else .ok yz
  else .ok yz

/-- the mask of a pass, csu_kdp.py:208 -/
def passMask (R : PRay α) (sd z : Nat → α) (j : Nat) : Bool := (sd j <=. R.thsd j) && (z j !=. R.bad)

/-- One pass, csu_kdp.py:207-222. -/
def pass (ls : List (α × α) → Except PyErr (α × α)) (R : PRay α) (sd : Nat → α) (yz : (Nat → α) × (Nat → α)) :
    Except PyErr ((Nat → α) × (Nat → α)) := do
  let r ← ((List.range R.n).filter (passMask R sd yz.2)).foldlM (gate ls R (passMask R sd yz.2)) yz
  .ok (r.1, r.1)

/-- `nfilter` passes, csu_kdp.py:207-222 -/
def passes (ls : List (α × α) → Except PyErr (α × α)) (R : PRay α) (sd : Nat → α) :
    Nat → (Nat → α) × (Nat → α) → Except PyErr ((Nat → α) × (Nat → α))
  | 0, yz => .ok yz
  | k + 1, yz => do
    let yz ← pass ls R sd yz
    passes ls R sd k yz

/-- `nadp[i]`, csu_kdp.py:229-233 -/
def nadp (R : PRay α) (i : Nat) : Nat :=
  let d := R.dz i
  if (d >=. 35.0) && (d <. 45.0) then 2 * R.half
  else if d <. 35.0 then 3 * R.half
  else if isnan ((0 : α) * d + PyFloat.ofNat R.half) then R.castNan
  else R.half

/-- `_get_nadp_indices`, csu_kdp.py:259-261: `np.int32` truncates towards zero -/
def nadpIndices (R : PRay α) (i : Nat) : Int × Int :=
  (Int.tdiv (2 * (i : Int) - nadp R i) 2, Int.tdiv (2 * (i : Int) + nadp R i + 2) 2)

/-- `kd_lin[i]`, csu_kdp.py:234-244; `_fit_line_and_get_kdp` 264-266, `_leastsqrs` 250-256. -/
def kdAt (ls : List (α × α) → Except PyErr (α × α)) (R : PRay α) (dpl : Nat → α) (i : Nat) : Except PyErr α :=
  if dpl i !=. R.bad then
    let ix := nadpIndices R i
    if 0 ≤ ix.1 ∧ ix.2 ≤ (R.n : Int) then
      let g := (win ix.1.toNat (ix.2 - ix.1).toNat).filter (fun j => dpl j !=. R.bad)
      if PyFloat.ofNat g.length >=. (0.8 : α) * PyFloat.ofNat (nadp R i) then do
        let ab ← ls (g.map (fun j => (R.rng j, dpl j)))
        .ok ((0.5 : α) * ab.1)
      else .ok R.bad
    else .ok R.bad
  else .ok R.bad

/-- `_calc_kdp_ray`, csu_kdp.py:157-247. -/
def calcKdpRay (ls : List (α × α) → Except PyErr (α × α)) (R : PRay α) : Except PyErr (RayOut α) := do
  let yz ← passes ls R (sdAt R) R.nf (fun _ => R.bad, R.dp)
  let kd ← (List.range R.n).mapM (kdAt ls R yz.2)
  .ok ⟨kd, (List.range R.n).map yz.2, (List.range R.n).map (sdAt R)⟩

end Csu.KdpPy
