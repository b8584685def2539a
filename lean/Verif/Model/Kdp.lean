import Verif.PyFloat
/-!
# Model of the KDP code: `calc_kdp_ray_fir.pyx`, `calc_kdp_ray_fir.f` and `csu_kdp.py`

The Cython kernel is compiled with `boundscheck=False`, so an access outside an array is undefined behaviour.  Arrays are
modelled as buffers whose memory also exists outside the array, and every access goes through `rd` / `Buf.set`, which with
`chk = true` report an access outside the array and with `chk = false` perform it (what the compiled code does on reads).

The Fortran kernel has the same structure; the differences are collected in `Dialect`.

Precision: `α` is the type of C doubles, and `f32` the rounding of a store to a C `float` or `float32` array.  A product, sum, difference
or quotient of two `float`s is the exact double operation rounded to `float32` (the intermediate double rounding is innocuous).  The Fortran
kernel works in single precision throughout, `Dialect.w`.

Simplifications: C integers do not overflow; an out-of-range write to the
500-element work buffers `xx`, `yy` behaves, unchecked, as if the buffers were longer; the work buffers are lists of
the pairs written so far (entries beyond `N` are never read).
-/
namespace Csu.Kdp
open Csu PyFloat
variable {α : Type} [PyFloat α]

/-- An array in memory: `mem i` is the content of cell `i`, inside the array for `0 ≤ i < len`. -/
structure Buf (α : Type) where
  len : Nat
  mem : Int → α

/-- is cell `i` inside the array? -/
def Buf.has (b : Buf α) (i : Int) : Bool := decide (0 ≤ i) && decide (i < b.len)

/-- read cell `i` -/
def rd (chk : Bool) (name : String) (b : Buf α) (i : Int) : Except PyErr α :=
  if chk && !b.has i then .error (.outOfBounds name i) else .ok (b.mem i)

/-- write cell `i` -/
def Buf.set (chk : Bool) (name : String) (b : Buf α) (i : Int) (v : α) : Except PyErr (Buf α) :=
  if chk && !b.has i then .error (.outOfBounds name i)
  else .ok ⟨b.len, fun j => if j = i then v else b.mem j⟩

/-- Python `range(a, b)` -/
def rangeI (a b : Int) : List Int := (List.range (b - a).toNat).map (fun (k : Nat) => a + Int.ofNat k)

/-- Size of the work buffers, calc_kdp_ray_fir.pyx:75-76, calc_kdp_ray_fir.f:75. -/
def workSize : Nat := 500

/-- Append to the work buffers, `yy[N] = ...; xx[N] = ...; N += 1`, calc_kdp_ray_fir.pyx:128-130, 169-171. -/
def push (chk : Bool) (acc : List (α × α)) (p : α × α) : Except PyErr (List (α × α)) :=
  if chk && decide (workSize ≤ acc.length) then .error (.outOfBounds "yy" acc.length) else .ok (acc ++ [p])

/-- The differences between the two kernels. -/
structure Dialect (α : Type) where
  /-- the filter reads coefficient `j - index1 + coefOff` (counted from 0): calc_kdp_ray_fir.pyx:143 has `+ 1` on a
  0-based array, calc_kdp_ray_fir.f:145 has `+1` on a 1-based one -/
  coefOff : Int
  /-- the KDP window runs to `index2` exclusive (calc_kdp_ray_fir.pyx:166) or inclusive (calc_kdp_ray_fir.f:174) -/
  winEnd : Int
  /-- which samples `LSE` skips: `== bad` (calc_kdp_ray_fir.pyx:31) or `> 1e35` (calc_kdp_ray_fir.f:21) -/
  skip : α → α → Bool
  /-- does dividing by zero raise? (Cython without `cdivision`) -/
  raises : Bool
  /-- are the local variables single precision? `double` in calc_kdp_ray_fir.pyx:84, `REAL*4` in calc_kdp_ray_fir.f:75-78 -/
  single : Bool

/-- rounding to the precision of the local variables -/
def Dialect.w (D : Dialect α) (x : α) : α := if D.single then f32 x else x

/-- calc_kdp_ray_fir.pyx -/
def cython : Dialect α := { coefOff := 1, winEnd := 0, skip := fun bad x => x ==. bad, raises := true, single := false }
/-- calc_kdp_ray_fir.f -/
def fortran : Dialect α := { coefOff := 0, winEnd := 1, skip := fun _ x => x >. 1e35, raises := false, single := true }

/-- running sums of `LSE`: total, xsum, ysum, xxsum, xysum -/
structure Sums (α : Type) where
  total : α
  x : α
  y : α
  xx : α
  xy : α

/-- one iteration of the loop of `LSE`, calc_kdp_ray_fir.pyx:30-37, calc_kdp_ray_fir.f:20-29 -/
def lseStep (D : Dialect α) (bad : α) (s : Sums α) (p : α × α) : Sums α :=
  if D.skip bad p.1 || D.skip bad p.2 then { s with total := f32 (s.total - 1.0) }
  else ⟨s.total, f32 (s.x + p.1), f32 (s.y + p.2), f32 (s.xx + D.w (p.1 * p.1)), f32 (s.xy + D.w (p.1 * p.2))⟩

/-- the sums over all samples -/
def lseSums (D : Dialect α) (bad : α) (pts : List (α × α)) : Sums α :=
  pts.foldl (lseStep D bad) ⟨f32 (PyFloat.ofNat pts.length), 0.0, 0.0, 0.0, 0.0⟩

/-- `det` of `LSE`, calc_kdp_ray_fir.pyx:39 -/
def lseDet (s : Sums α) : α := f32 (f32 (s.total * s.xx) - f32 (s.x ^ (2 : α)))

/-- `LSE`, calc_kdp_ray_fir.pyx:10-42, calc_kdp_ray_fir.f:3-34: slope and intercept. -/
def lse (D : Dialect α) (bad : α) (pts : List (α × α)) : Except PyErr (α × α) :=
  let s := lseSums D bad pts
  let det := lseDet s
  if D.raises && det ==. 0 then .error .zeroDivisionError
  else .ok (f32 (f32 (f32 (s.total * s.xy) - f32 (s.x * s.y)) / det), f32 (f32 (f32 (s.y * s.xx) - f32 (s.x * s.xy)) / det))

/-- Arguments of `calc_kdp_ray_fir`, and the initial content of the uninitialised C variable `nadp`
(calc_kdp_ray_fir.pyx:82). -/
structure Ray (α : Type) where
  n : Nat
  dp : Buf α
  dz : Buf α
  rng : Buf α
  thsd : Buf α
  nf : Nat
  bad : α
  order : Nat
  gain : α
  coef : Buf α
  stdGate : Int
  nadp0 : Int

/-- `half_std_win`, calc_kdp_ray_fir.pyx:88 (floor division; Fortran truncates, which differs only for `std_gate < 0`) -/
def Ray.halfStd (R : Ray α) : Int := (R.stdGate - 1) / 2
/-- `half_fir_win`, calc_kdp_ray_fir.pyx:90 -/
def Ray.half (R : Ray α) : Nat := R.order / 2

/-- state of the one-pass standard deviation: N, A, V, W -/
structure SdAcc (α : Type) where
  N : Nat
  A : α
  V : α
  W : α

/-- calc_kdp_ray_fir.pyx:106-114, calc_kdp_ray_fir.f:99-107 -/
def sdStep (D : Dialect α) (bad : α) (s : SdAcc α) (x : α) : SdAcc α :=
  if x !=. bad then
    let W := if s.N = 0 then x else s.W
    let N := s.N + 1
    let d := D.w (D.w (x - W) - s.A)
    ⟨N, D.w (D.w (d / D.w (PyFloat.ofNat N)) + s.A),
      D.w (D.w (D.w (D.w (PyFloat.ofNat (N - 1)) * D.w (d ^ (2 : α))) / D.w (PyFloat.ofNat N)) + s.V), W⟩
  else s

/-- `sd_lin[i]`, calc_kdp_ray_fir.pyx:94-116, calc_kdp_ray_fir.f:87-113 -/
def sdAt (D : Dialect α) (chk : Bool) (R : Ray α) (i : Int) : Except PyErr α :=
  if 0 ≤ i - R.halfStd ∧ i + R.halfStd ≤ (R.n : Int) - 1 then do
    let xs ← (rangeI (i - R.halfStd) (i + R.halfStd + 1)).mapM (rd chk "dp" R.dp)
    let s := xs.foldl (sdStep D R.bad) ⟨0, 0.0, 0.0, 0.0⟩
    if (s.N : Int) > R.halfStd then
      if D.raises && s.N == 0 then .error .zeroDivisionError
      else .ok (f32 (PyFloat.sqrt (D.w (s.V / D.w (PyFloat.ofNat s.N)))))
    else .ok 100.0
  else .ok 100.0

/-- a new array of `n` gates -/
def ofList (n : Nat) (l : List α) : Buf α := ⟨n, fun j => if 0 ≤ j then l.getD j.toNat PyFloat.nan else PyFloat.nan⟩

/-- `sd_lin[j] <= thsd[j] and z[j] != bad`, calc_kdp_ray_fir.pyx:122, 127 -/
def good (chk : Bool) (R : Ray α) (sd z : Buf α) (j : Int) : Except PyErr Bool := do
  let s ← rd chk "sd_lin" sd j
  let t ← rd chk "thsd" R.thsd j
  if s <=. t then do
    let v ← rd chk "z" z j
    .ok (v !=. R.bad)
  else .ok false

/-- the good samples of the filter window, calc_kdp_ray_fir.pyx:125-130, calc_kdp_ray_fir.f:123-130 -/
def collect (chk : Bool) (R : Ray α) (sd z : Buf α) (js : List Int) : Except PyErr (List (α × α)) :=
  js.foldlM (fun acc j => do
    if ← good chk R sd z j then do
      let v ← rd chk "z" z j
      let r ← rd chk "rng" R.rng j
      push chk acc (r, v)
    else .ok acc) []

/-- fill gaps with the fitted line, calc_kdp_ray_fir.pyx:136-138, calc_kdp_ray_fir.f:136-140 -/
def fill (D : Dialect α) (chk : Bool) (R : Ray α) (ab : α × α) (js : List Int) (z : Buf α) : Except PyErr (Buf α) :=
  js.foldlM (fun z j => do
    let v ← rd chk "z" z j
    if v ==. R.bad then do
      let r ← rd chk "rng" R.rng j
      z.set chk "z" j (f32 (D.w (ab.1 * r) + ab.2))
    else .ok z) z

/-- the filter sum, calc_kdp_ray_fir.pyx:141-143, calc_kdp_ray_fir.f:143-146 -/
def firSum (D : Dialect α) (chk : Bool) (R : Ray α) (z : Buf α) (lo : Int) (js : List Int) : Except PyErr α :=
  js.foldlM (fun A j => do
    let c ← rd chk "fir_coeff" R.coef (j - lo + D.coefOff)
    let v ← rd chk "z" z j
    .ok (D.w (A + D.w (c * v)))) 0.0

/-- One gate of the filter, calc_kdp_ray_fir.pyx:122-144, calc_kdp_ray_fir.f:119-149.  State: `y`, `z`. -/
def firGate (D : Dialect α) (chk : Bool) (R : Ray α) (sd : Buf α) (yz : Buf α × Buf α) (i : Int) :
    Except PyErr (Buf α × Buf α) := do
  if ← good chk R sd yz.2 i then do
    let lo := i - R.half
    let js := rangeI lo (i + R.half + 1)
    let pts ← collect chk R sd yz.2 js
    if D.w (PyFloat.ofNat pts.length) >. D.w (D.w (0.8 : α) * D.w (PyFloat.ofNat R.order)) then do
      let z ← (if pts.length < R.order + 1 then do
          let ab ← lse D R.bad pts
          fill D chk R ab js yz.2
        else .ok yz.2 : Except PyErr (Buf α))
      let A ← firSum D chk R z lo js
      let y ← yz.1.set chk "y" i (f32 (A * R.gain))
      .ok (y, z)
    else .ok yz
  else .ok yz

/-- One pass of the filter, calc_kdp_ray_fir.pyx:121-146, calc_kdp_ray_fir.f:118-153: afterwards `z = y`. -/
def firPass (D : Dialect α) (chk : Bool) (R : Ray α) (sd : Buf α) (yz : Buf α × Buf α) : Except PyErr (Buf α × Buf α) := do
  let r ← (rangeI R.half ((R.n : Int) - R.half)).foldlM (firGate D chk R sd) yz
  .ok (r.1, r.1)

/-- `nf` passes, calc_kdp_ray_fir.pyx:120-146 -/
def firPasses (D : Dialect α) (chk : Bool) (R : Ray α) (sd : Buf α) : Nat → Buf α × Buf α → Except PyErr (Buf α × Buf α)
  | 0, yz => .ok yz
  | k + 1, yz => do
    let yz ← firPass D chk R sd yz
    firPasses D chk R sd k yz

/-- The window size for reflectivity `d`, calc_kdp_ray_fir.pyx:156-161, calc_kdp_ray_fir.f:165-169: unchanged when no
branch applies (NaN). -/
def nadpOf (R : Ray α) (d : α) (nadp : Int) : Int :=
  let nadp := if d >=. 45.0 then (R.half : Int) else nadp
  let nadp := if d >=. 35.0 && d <. 45.0 then 2 * (R.half : Int) else nadp
  if d <. 35.0 then 3 * (R.half : Int) else nadp

/-- the good samples of the KDP window, calc_kdp_ray_fir.pyx:165-171, calc_kdp_ray_fir.f:173-182 (the test on `index1`,
`index2` does not depend on `j`) -/
def kdpCollect (chk : Bool) (R : Ray α) (dpLin : Buf α) (js : List Int) : Except PyErr (List (α × α)) :=
  js.foldlM (fun acc j => do
    let v ← rd chk "dp_lin" dpLin j
    if v !=. R.bad then do
      let r ← rd chk "rng" R.rng j
      push chk acc (r, v)
    else .ok acc) []

/-- One gate of the KDP loop, calc_kdp_ray_fir.pyx:155-174, calc_kdp_ray_fir.f:164-187: the KDP of gate `i` and the
value of `nadp` carried to the next gate. -/
def kdpGate (D : Dialect α) (chk : Bool) (R : Ray α) (dpLin : Buf α) (nadp : Int) (i : Int) : Except PyErr (α × Int) := do
  let d ← rd chk "dz" R.dz i
  if d !=. R.bad then do
    let nadp := nadpOf R d nadp
    let h := nadp / 2
    let pts ← (if 0 ≤ i - h ∧ i + h ≤ (R.n : Int) - 1 then kdpCollect chk R dpLin (rangeI (i - h) (i + h + D.winEnd))
      else .ok [] : Except PyErr (List (α × α)))
    if D.w (PyFloat.ofNat pts.length) >. D.w (D.w (0.8 : α) * D.w (PyFloat.ofInt nadp)) then do
      let ab ← lse D R.bad pts
      .ok (f32 (0.5 * ab.1), nadp)
    else .ok (R.bad, nadp)
  else .ok (R.bad, nadp)

/-- the KDP loop over the gates `is` -/
def kdpLoop (D : Dialect α) (chk : Bool) (R : Ray α) (dpLin : Buf α) : List Int → Int → Except PyErr (List α)
  | [], _ => .ok []
  | i :: is, nadp => do
    let (k, nadp) ← kdpGate D chk R dpLin nadp i
    let ks ← kdpLoop D chk R dpLin is nadp
    .ok (k :: ks)

/-- Result of the kernel: KDP, filtered phase and standard deviation. -/
structure RayOut (α : Type) where
  kd : List α
  dp : List α
  sd : List α
  deriving DecidableEq, Repr

/-- the gates of a ray -/
def gates (n : Nat) : List Int := rangeI 0 n

/-- `calc_kdp_ray_fir`, calc_kdp_ray_fir.pyx:45-177, calc_kdp_ray_fir.f:37-192. -/
def calcKdpRayFir (D : Dialect α) (chk : Bool) (R : Ray α) : Except PyErr (RayOut α) := do
  let z ← (gates R.n).mapM (rd chk "dp" R.dp)
  let sd ← (gates R.n).mapM (sdAt D chk R)
  let y := List.replicate R.n R.bad
  let (_, z) ← firPasses D chk R (ofList R.n sd) R.nf (ofList R.n y, ofList R.n z)
  let kd ← kdpLoop D chk R z (gates R.n) R.nadp0
  .ok ⟨kd, (gates R.n).map z.mem, sd⟩

end Csu.Kdp
