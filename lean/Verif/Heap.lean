import Verif.Np
/-!
# Array objects with identity

The models of `Verif/Model/*.lean` treat arrays as values.  Python passes references: a function that wrote into an argument
would change the caller's array.  Here arrays are objects on a heap, `a[mask] = v` is a write to an object, and `b = a` shares it, so that
"the caller's arrays are not changed" and "the result is a new array" can be stated and proved.

A program keeps the heap it has reached when it raises, so the theorems also say what a failed call leaves behind.
-/
namespace Csu.Heap
open Csu PyFloat

/-- An array object: float data with its dtype, integers, or Booleans (row-major). -/
inductive Cell (α : Type)
  | flt (dt : DType) (xs : List α)
  | int (xs : List Int)
  | bool (xs : List Bool)
  deriving DecidableEq, Repr

/-- All array objects, numbered in the order of their creation. -/
abbrev Heap (α : Type) := List (Cell α)
/-- A reference to an array object. -/
abbrev Ref := Nat

/-- A Python computation on array objects: the value or the exception, and the heap it leaves. -/
def HM (α β : Type) := Heap α → Except PyErr β × Heap α

variable {α β γ : Type}

/-- sequencing; an exception ends the computation -/
def HM.bind (p : HM α β) (f : β → HM α γ) : HM α γ := fun h =>
  match p h with
  | (.ok v, h') => f v h'
  | (.error e, h') => (.error e, h')

instance : Monad (HM α) where
  pure v := fun h => (.ok v, h)
  bind := HM.bind

/-- `raise` -/
def raise (e : PyErr) : HM α β := fun h => (.error e, h)
/-- a computation that touches no array -/
def lift (x : Except PyErr β) : HM α β := fun h => (x, h)

/-- a new object -/
def new (c : Cell α) : HM α Ref := fun h => (.ok h.length, h ++ [c])
/-- a new float array (`np.zeros_like(..)`, `0.0 * dz`, the value of an arithmetic expression, ...) -/
def newF (dt : DType) (xs : List α) : HM α Ref := new (.flt dt xs)
/-- a new integer array -/
def newI (xs : List Int) : HM α Ref := new (.int xs)
/-- a new Boolean array -/
def newB (xs : List Bool) : HM α Ref := new (.bool xs)

/-- the dtype and contents of a float array -/
def getF (r : Ref) : HM α (DType × List α) := fun h =>
  match h[r]? with
  | some (.flt dt xs) => (.ok (dt, xs), h)
  | _ => (.error .typeError, h)
/-- the contents of an integer array -/
def getI (r : Ref) : HM α (List Int) := fun h =>
  match h[r]? with
  | some (.int xs) => (.ok xs, h)
  | _ => (.error .typeError, h)
/-- the contents of a Boolean array -/
def getB (r : Ref) : HM α (List Bool) := fun h =>
  match h[r]? with
  | some (.bool xs) => (.ok xs, h)
  | _ => (.error .typeError, h)

/-- change a float array in place -/
def updF (r : Ref) (f : List α → List α) : HM α Unit := fun h =>
  match h[r]? with
  | some (.flt dt xs) => (.ok (), h.set r (.flt dt (f xs)))
  | _ => (.error .typeError, h)
/-- change an integer array in place -/
def updI (r : Ref) (f : List Int → List Int) : HM α Unit := fun h =>
  match h[r]? with
  | some (.int xs) => (.ok (), h.set r (.int (f xs)))
  | _ => (.error .typeError, h)
/-- change a Boolean array in place -/
def updB (r : Ref) (f : List Bool → List Bool) : HM α Unit := fun h =>
  match h[r]? with
  | some (.bool xs) => (.ok (), h.set r (.bool (f xs)))
  | _ => (.error .typeError, h)

/-- `a.ravel()`: the same data for a contiguous array (a view), a copy otherwise -/
def ravel (contiguous : Bool) (r : Ref) : HM α Ref :=
  if contiguous then pure r
  else do
    let (dt, xs) ← getF r
    newF dt xs

end Csu.Heap
