import Verif.Heap
import Verif.Model.KdpApi
/-!
# `calc_kdp_bringi` on array objects

The KDP kernel and its caller written with references, statement by statement: the kernel creates `y`, `z`, `kd_lin`, `dp_lin`, `sd_lin` and writes to
single elements of them while it reads its arguments, the caller makes `float32` copies of its own arguments but passes an array of thresholds
through as it is.

Simplifications: those of `Model/Kdp.lean` and `Model/KdpApi.lean`; the work buffers `xx`, `yy` (new arrays that are neither returned nor
shared) are values; an argument is a float array or a view of one; the element type of a float array is not recorded except for thresholds; what lies in
memory beyond the `float32` copy of an array is the `float32` value of what lies beyond the array.
-/
namespace Csu.Heap
open Csu PyFloat Kdp
variable {α : Type} [PyFloat α]

/-- A one-dimensional view of an array object: `len` elements from element `off` on.  `beyond` is the content of the memory outside the object, which
unchecked reads can reach. -/
structure View (α : Type) where
  ref : Ref
  off : Nat
  len : Nat
  beyond : Int → α

/-- the view as a buffer, when the object has the contents `xs` -/
def View.buf (v : View α) (xs : List α) : Buf α :=
  ⟨v.len, fun i => if 0 ≤ v.off + i ∧ v.off + i < xs.length then xs.getD (v.off + i).toNat PyFloat.nan else v.beyond (v.off + i)⟩

/-- `v[i]` (`boundscheck=False`) -/
def View.get (v : View α) (i : Int) : HM α α := do
  let (_, xs) ← getF v.ref
  pure ((v.buf xs).mem i)

/-- a whole array of `n` elements -/
def whole (r : Ref) (n : Nat) : View α := ⟨r, 0, n, fun _ => PyFloat.nan⟩

/-- `a[i] = v` -/
def poke (r : Ref) (i : Int) (v : α) : HM α Unit := updF r (fun xs => xs.set i.toNat v)

/-- Arguments of the kernel, calc_kdp_ray_fir.pyx:45-48, and the initial content of `nadp`. -/
structure RayH (α : Type) where
  n : Nat
  dp : View α
  dz : View α
  rng : View α
  thsd : View α
  nf : Nat
  bad : α
  order : Nat
  gain : α
  coef : View α
  stdGate : Int
  nadp0 : Int

/-- `half_std_win`, calc_kdp_ray_fir.pyx:88 -/
def RayH.halfStd (R : RayH α) : Int := (R.stdGate - 1) / 2
/-- `half_fir_win`, calc_kdp_ray_fir.pyx:90 -/
def RayH.half (R : RayH α) : Nat := R.order / 2

/-- The arrays of the kernel, calc_kdp_ray_fir.pyx:77-81. -/
structure Own where
  y : Ref
  z : Ref
  kd : Ref
  dp : Ref
  sd : Ref

/-- one gate of the first loop, calc_kdp_ray_fir.pyx:95-116, calc_kdp_ray_fir.f:88-113 -/
def sdGateH (D : Dialect α) (R : RayH α) (w : Own) (_ : Unit) (i : Int) : HM α Unit := do
  poke w.kd i R.bad
  poke w.sd i 100.0
  poke w.y i R.bad
  let x ← R.dp.get i
  poke w.z i x
  if 0 ≤ i - R.halfStd ∧ i + R.halfStd ≤ (R.n : Int) - 1 then do
    let s ← (rangeI (i - R.halfStd) (i + R.halfStd + 1)).foldlM (fun s j => do
      let x ← R.dp.get j
      pure (sdStep D R.bad s x)) ⟨0, 0.0, 0.0, 0.0⟩
    if (s.N : Int) > R.halfStd then
      if D.raises && s.N == 0 then raise .zeroDivisionError
      else poke w.sd i (f32 (PyFloat.sqrt (D.w (s.V / D.w (PyFloat.ofNat s.N)))))
    else pure ()
  else pure ()

/-- `sd_lin[j] <= thsd[j] and z[j] != bad`, calc_kdp_ray_fir.pyx:122, 127 -/
def goodH (R : RayH α) (w : Own) (j : Int) : HM α Bool := do
  let s ← (whole w.sd R.n).get j
  let t ← R.thsd.get j
  if s <=. t then do
    let v ← (whole w.z R.n).get j
    pure (v !=. R.bad)
  else pure false

/-- calc_kdp_ray_fir.pyx:125-130, calc_kdp_ray_fir.f:123-130 -/
def collectH (R : RayH α) (w : Own) (js : List Int) : HM α (List (α × α)) :=
  js.foldlM (fun acc j => do
    if ← goodH R w j then do
      let v ← (whole w.z R.n).get j
      let r ← R.rng.get j
      pure (acc ++ [(r, v)])
    else pure acc) []

/-- calc_kdp_ray_fir.pyx:136-138, calc_kdp_ray_fir.f:136-140 -/
def fillH (D : Dialect α) (R : RayH α) (w : Own) (ab : α × α) (js : List Int) : HM α Unit :=
  js.foldlM (fun _ j => do
    let v ← (whole w.z R.n).get j
    if v ==. R.bad then do
      let r ← R.rng.get j
      poke w.z j (f32 (D.w (ab.1 * r) + ab.2))
    else pure ()) ()

/-- calc_kdp_ray_fir.pyx:141-143, calc_kdp_ray_fir.f:143-146 -/
def firSumH (D : Dialect α) (R : RayH α) (w : Own) (lo : Int) (js : List Int) : HM α α :=
  js.foldlM (fun A j => do
    let c ← R.coef.get (j - lo + D.coefOff)
    let v ← (whole w.z R.n).get j
    pure (D.w (A + D.w (c * v)))) 0.0

/-- one gate of the filter, calc_kdp_ray_fir.pyx:122-144, calc_kdp_ray_fir.f:119-149 -/
def firGateH (D : Dialect α) (R : RayH α) (w : Own) (_ : Unit) (i : Int) : HM α Unit := do
  if ← goodH R w i then do
    let lo := i - R.half
    let js := rangeI lo (i + R.half + 1)
    let pts ← collectH R w js
    if D.w (PyFloat.ofNat pts.length) >. D.w (D.w (0.8 : α) * D.w (PyFloat.ofNat R.order)) then do
      (if pts.length < R.order + 1 then do
        let ab ← lift (lse D R.bad pts)
        fillH D R w ab js
      else pure ())
      let A ← firSumH D R w lo js
      poke w.y i (f32 (A * R.gain))
    else pure ()
  else pure ()

/-- `for i in range(ngates): b[i] = a[i]`, calc_kdp_ray_fir.pyx:145-148 -/
def copyInto (a b : Ref) (n : Nat) : HM α Unit :=
  (gates n).foldlM (fun _ i => do
    let v ← (whole a n).get i
    poke b i v) ()

/-- one pass of the filter, calc_kdp_ray_fir.pyx:121-146, calc_kdp_ray_fir.f:118-153 -/
def firPassH (D : Dialect α) (R : RayH α) (w : Own) : HM α Unit := do
  (rangeI R.half ((R.n : Int) - R.half)).foldlM (firGateH D R w) ()
  copyInto w.y w.z R.n

/-- `nf` passes, calc_kdp_ray_fir.pyx:120-146 -/
def firPassesH (D : Dialect α) (R : RayH α) (w : Own) : Nat → HM α Unit
  | 0 => pure ()
  | k + 1 => do
    firPassH D R w
    firPassesH D R w k

/-- calc_kdp_ray_fir.pyx:156-161, calc_kdp_ray_fir.f:165-169 -/
def RayH.nadpOf (R : RayH α) (d : α) (nadp : Int) : Int :=
  let nadp := if d >=. 45.0 then (R.half : Int) else nadp
  let nadp := if d >=. 35.0 && d <. 45.0 then 2 * (R.half : Int) else nadp
  if d <. 35.0 then 3 * (R.half : Int) else nadp

/-- calc_kdp_ray_fir.pyx:165-171, calc_kdp_ray_fir.f:173-182 -/
def kdpCollectH (R : RayH α) (w : Own) (js : List Int) : HM α (List (α × α)) :=
  js.foldlM (fun acc j => do
    let v ← (whole w.dp R.n).get j
    if v !=. R.bad then do
      let r ← R.rng.get j
      pure (acc ++ [(r, v)])
    else pure acc) []

/-- one gate of the KDP loop, calc_kdp_ray_fir.pyx:154-174, calc_kdp_ray_fir.f:164-187; `nadp` is carried along -/
def kdpGateH (D : Dialect α) (R : RayH α) (w : Own) (nadp : Int) (i : Int) : HM α Int := do
  let d ← R.dz.get i
  if d !=. R.bad then do
    let nadp := R.nadpOf d nadp
    let h := nadp / 2
    let pts ← (if 0 ≤ i - h ∧ i + h ≤ (R.n : Int) - 1 then kdpCollectH R w (rangeI (i - h) (i + h + D.winEnd))
      else pure [])
    if D.w (PyFloat.ofNat pts.length) >. D.w (D.w (0.8 : α) * D.w (PyFloat.ofInt nadp)) then do
      let ab ← lift (lse D R.bad pts)
      poke w.kd i (f32 (0.5 * ab.1))
      pure nadp
    else pure nadp
  else pure nadp

/-- `calc_kdp_ray_fir`, calc_kdp_ray_fir.pyx:45-177, calc_kdp_ray_fir.f:37-192: the objects it returns -/
def calcKdpRayFirH (D : Dialect α) (R : RayH α) : HM α (Ref × Ref × Ref) := do
  let y ← newF .float (List.replicate R.n 0)
  let z ← newF .float (List.replicate R.n 0)
  let kd ← newF .float (List.replicate R.n 0)
  let dp ← newF .float (List.replicate R.n 0)
  let sd ← newF .float (List.replicate R.n 0)
  let w : Own := ⟨y, z, kd, dp, sd⟩
  (gates R.n).foldlM (sdGateH D R w) ()
  firPassesH D R w R.nf
  copyInto z dp R.n
  let _ ← (gates R.n).foldlM (kdpGateH D R w) R.nadp0
  pure (kd, dp, sd)

/-! ## `calc_kdp_bringi` -/

/-- A data argument: an array object with its shape; `beyond` is the memory around it. -/
inductive DataH (α : Type)
  | one (r : Ref) (n : Nat) (beyond : Int → α)
  | two (r : Ref) (n w : Nat) (beyond : Int → α)
  | other (ndim : Nat)

/-- `np.ndim` -/
def DataH.ndim : DataH α → Nat
  | one _ _ _ => 1
  | two _ _ _ _ => 2
  | other k => k

/-- The threshold argument. -/
inductive ThsdH (α : Type)
  | scalar (x : α)
  | list (l : List α)
  | one (is32 : Bool) (r : Ref) (n : Nat) (beyond : Int → α)
  | two (is32 : Bool) (r : Ref) (n w : Nat) (beyond : Int → α)

/-- row `ray` of a 2-D array -/
def rowView (r : Ref) (w : Nat) (beyond : Int → α) (ray : Nat) : View α := ⟨r, ray * w, w, beyond⟩

/-- `np.array(a).astype('float32')`, csu_kdp.py:102-104 -/
def copy32 (r : Ref) : HM α Ref := do
  let (_, xs) ← getF r
  newF .float (xs.map f32)

/-- passing an array to the parameter `float[:] thsd` (calc_kdp_ray_fir.pyx:47): the array itself, no copy -/
def thsdView (is32 : Bool) (v : View α) : HM α (View α) := if is32 then pure v else raise .valueError

/-- the other arguments -/
structure KdpOptsH (α : Type) where
  thsd : ThsdH α
  nfilter : Int
  bad : α
  stdGate : Int

/-- `thsd` after csu_kdp.py:107-108 for an array of `size` elements: a number becomes a new array -/
def thsdArray (t : ThsdH α) (size : Nat) : HM α (Option Ref) :=
  match t with
  | .scalar x => do
    let r ← newF .float (List.replicate size (f32 x))
    pure (some r)
  | _ => pure none

/-- `thsd` for 1-D data as the kernel gets it, csu_kdp.py:125-127 -/
def thsd1H (t : ThsdH α) (new : Option Ref) (n : Nat) : HM α (View α) :=
  match t with
  | .scalar x => match new with
    | some r => pure ⟨r, 0, n, fun _ => f32 x⟩
    | none => raise .typeError
  | .list _ => raise .typeError
  | .one f r m b => thsdView f ⟨r, 0, m, b⟩
  | .two _ _ _ _ _ => raise .valueError

/-- `thsd[ray]` for 2-D data as the kernel gets it, csu_kdp.py:117-119 -/
def thsd2H (t : ThsdH α) (new : Option Ref) (w ray : Nat) : HM α (View α) :=
  match t with
  | .scalar x => match new with
    | some r => pure (rowView r w (fun _ => f32 x) ray)
    | none => raise .typeError
  | .list l => if ray < l.length then raise .typeError else raise .indexError
  | .one _ _ m _ => if ray < m then raise .valueError else raise .indexError
  | .two f r m w b => if ray < m then thsdView f (rowView r w b ray) else raise .indexError

/-- the kernel's arguments, csu_kdp.py:117-119, 125-127 -/
def rayCallH (fir : Fir α) (o : KdpOptsH α) (J : Junk α) (coef : Ref) (ray : Nat) (dp dz rng thsd : View α) : RayH α :=
  { n := dp.len, dp := dp, dz := dz, rng := rng, thsd := thsd, nf := o.nfilter.toNat, bad := f32 o.bad, order := fir.order, gain := f32 fir.gain,
    coef := ⟨coef, 0, fir.coef.length, J.after⟩, stdGate := fixStdGate o.stdGate, nadp0 := J.nadp ray }

/-- `a[ray] = b` for a 2-D array `a` with rows of `w` elements -/
def putRow (a b : Ref) (w ray : Nat) : HM α Unit := do
  let (_, xs) ← getF b
  updF a (fun ys => ys.take (ray * w) ++ xs ++ ys.drop ((ray + 1) * w))

/-- one ray of the 2-D loop, csu_kdp.py:115-119 -/
def ray2H (D : Dialect α) (J : Junk α) (fir : Fir α) (o : KdpOptsH α) (coef : Ref) (new : Option Ref) (dp dz rng : Ref) (w nz wz nr wr : Nat)
    (bp bz br : Int → α) (out : Ref × Ref × Ref) (_ : Unit) (ray : Nat) : HM α Unit := do
  if ray < nz ∧ ray < nr then do
    let t ← thsd2H o.thsd new w ray
    let res ← calcKdpRayFirH D (rayCallH fir o J coef ray (rowView dp w bp ray) (rowView dz wz bz ray) (rowView rng wr br ray) t)
    putRow out.1 res.1 w ray
    putRow out.2.1 res.2.1 w ray
    putRow out.2.2 res.2.2 w ray
  else raise .indexError

/-- What the function returns. -/
inductive Ret2H
  | none
  | noneTriple
  | one (kd dp sd : Ref)
  | two (n w : Nat) (kd dp sd : Ref)

/-- `calc_kdp_bringi` given the result of `get_fir`, csu_kdp.py:86-133 -/
def kdpWithFirH (D : Dialect α) (J : Junk α) (fir : Except PyErr (Option (Fir α))) (dp dz rng : Option (DataH α)) (o : KdpOptsH α) : HM α Ret2H :=
  match dp, dz, rng with
  | some dp, some dz, some rng =>
    if dp.ndim ≠ dz.ndim ∨ dp.ndim ≠ rng.ndim then pure .none
    else do
      match ← lift fir with
      | none => pure .noneTriple
      | some fir =>
        match dp, dz, rng with
        | .two p n w bp, .two z nz wz bz, .two r nr wr br => do
          let p ← copy32 p
          let z ← copy32 z
          let r ← copy32 r
          let c ← newF .float (fir.coef.map D.w)
          let t ← thsdArray o.thsd (n * w)
          let kd ← newF .float (List.replicate (n * w) (f32 o.bad))
          let dp ← newF .float (List.replicate (n * w) (f32 o.bad))
          let sd ← newF .float (List.replicate (n * w) 100.0)
          (List.range n).foldlM (ray2H D J fir o c t p z r w nz wz nr wr (fun i => f32 (bp i)) (fun i => f32 (bz i)) (fun i => f32 (br i)) (kd, dp, sd)) ()
          pure (.two n w kd dp sd)
        | .one p n bp, .one z nz bz, .one r nr br => do
          let p ← copy32 p
          let z ← copy32 z
          let r ← copy32 r
          let c ← newF .float (fir.coef.map D.w)
          let t ← thsdArray o.thsd n
          let t ← thsd1H o.thsd t n
          let res ← calcKdpRayFirH D (rayCallH fir o J c 0 ⟨p, 0, n, fun i => f32 (bp i)⟩ ⟨z, 0, nz, fun i => f32 (bz i)⟩ ⟨r, 0, nr, fun i => f32 (br i)⟩ t)
          pure (.one res.1 res.2.1 res.2.2)
        | _, _, _ => pure .none
  | _, _, _ => pure .none

end Csu.Heap
