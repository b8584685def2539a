/-!
# Abstract floating point

`PyFloat α` is the signature of the arithmetic that the Python/Cython code of CSU_RadarTools uses on array
elements.  It has **no laws**: a theorem proved for every `PyFloat α` holds for IEEE binary32 or binary64 with
rounding, overflow, NaN and infinities, since nothing about the operations was assumed.  The numeric theorems use the
instance `XR` of `Verif/XReal.lean` (extended reals with NaN).

One type `α` stands for Python floats and NumPy float64; a float32 is an element of it, and `f32` is the rounding that a store to a
float32 array or C `float` makes.  The KDP code uses it; elsewhere (simplification) float32 and float64 are not told apart.
-/

namespace Csu

/-- The arithmetic interface used by the modelled code.  `lit q` is the float written as the literal `q`. -/
class PyFloat (α : Type) where
  lit : Rat → α
  nan : α
  pi : α
  add : α → α → α
  sub : α → α → α
  mul : α → α → α
  div : α → α → α
  pow : α → α → α
  neg : α → α
  abs : α → α
  sqrt : α → α
  log10 : α → α
  ln : α → α
  sin : α → α
  cos : α → α
  tan : α → α
  asin : α → α
  trunc : α → α
  /-- conversion to float32 (and back to the type `α`, which is at least as precise) -/
  f32 : α → α
  lt : α → α → Bool
  le : α → α → Bool
  eq : α → α → Bool

namespace PyFloat
variable {α : Type} [PyFloat α]

scoped instance : Add α := ⟨PyFloat.add⟩
scoped instance : Sub α := ⟨PyFloat.sub⟩
scoped instance : Mul α := ⟨PyFloat.mul⟩
scoped instance : Div α := ⟨PyFloat.div⟩
scoped instance : Neg α := ⟨PyFloat.neg⟩
scoped instance : HPow α α α := ⟨PyFloat.pow⟩
scoped instance {n : Nat} : OfNat α n := ⟨PyFloat.lit (n : Rat)⟩
scoped instance : OfScientific α := ⟨fun m s e => PyFloat.lit (OfScientific.ofScientific m s e)⟩

/-- Python `x < y` on floats. -/
scoped infix:50 " <. " => PyFloat.lt
/-- Python `x <= y` on floats. -/
scoped infix:50 " <=. " => PyFloat.le
/-- Python `x == y` on floats (false when either is NaN). -/
scoped infix:50 " ==. " => PyFloat.eq
/-- Python `x > y`. -/
def gt (x y : α) : Bool := PyFloat.lt y x
/-- Python `x >= y`. -/
def ge (x y : α) : Bool := PyFloat.le y x
/-- Python `x != y`: the negation of `==`, also for NaN. -/
def ne (x y : α) : Bool := !(PyFloat.eq x y)
/-- `np.isnan(x)`: NaN is the float that differs from itself. -/
def isnan (x : α) : Bool := !(PyFloat.eq x x)
scoped infix:50 " >. " => PyFloat.gt
scoped infix:50 " >=. " => PyFloat.ge
scoped infix:50 " !=. " => PyFloat.ne

/-- an integer as a float -/
def ofInt (n : Int) : α := PyFloat.lit (n : Rat)
/-- a natural number as a float -/
def ofNat (n : Nat) : α := PyFloat.lit (n : Rat)
end PyFloat

/-- Python exceptions and, for the Cython code with `boundscheck=False`, the undefined behaviour `outOfBounds`. -/
inductive PyErr
  | typeError | valueError | nameError | unboundLocalError | indexError | zeroDivisionError
  | fileNotFoundError | attributeError | keyError
  /-- not a Python exception: the model does not cover this call (unequal shapes, i.e. NumPy broadcasting) -/
  | notModelled
  | outOfBounds (array : String) (index : Int)
  deriving DecidableEq, Repr

/-- NumPy number kinds that matter here: assigning a float into an integer array truncates it. -/
inductive DType | int | float
  deriving DecidableEq, Repr

/-- An `ndarray`: dtype, shape and row-major data. -/
structure NdArray (α : Type) where
  dtype : DType
  shape : List Nat
  data : List α
  deriving DecidableEq, Repr

/-- A well-formed array has as many elements as its shape says. -/
def NdArray.WF {α : Type} (a : NdArray α) : Prop := a.data.length = a.shape.prod

instance {α : Type} (a : NdArray α) : Decidable a.WF := inferInstanceAs (Decidable (_ = _))

/-- A Python argument or result that is either a scalar or an array. -/
inductive PyVal (α : Type)
  | scalar (dtype : DType) (x : α)
  | arr (a : NdArray α)
  deriving DecidableEq, Repr

end Csu
