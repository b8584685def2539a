import Verif.PyFloat
import Mathlib.Analysis.SpecialFunctions.Pow.Real
import Mathlib.Analysis.SpecialFunctions.Log.Base
import Mathlib.Analysis.SpecialFunctions.Trigonometric.Inverse
import Mathlib.Data.Rat.Cast.OfScientific
import Mathlib.Algebra.Order.Floor.Ring
import Mathlib.Algebra.Order.Archimedean.Real.Basic
/-!
# Extended reals with NaN: the numeric instance of `PyFloat`

`XR` has the special values of IEEE 754 and the C99 rules for them; finite values are real numbers and finite
arithmetic is exact.  Not exhibited: rounding, overflow/underflow, signed zeros (`x / 0` takes the sign of `x`).
-/

namespace Csu
open PyFloat

/-- A float: NaN, minus/plus infinity or a finite real. -/
inductive XR
  | nan | ninf | pinf | fin (x : ℝ)

namespace XR
noncomputable section

/-- IEEE addition. -/
def add : XR → XR → XR
  | fin a, fin b => fin (a + b)
  | nan, _ => nan
  | _, nan => nan
  | pinf, ninf => nan
  | ninf, pinf => nan
  | pinf, _ => pinf
  | _, pinf => pinf
  | ninf, _ => ninf
  | _, ninf => ninf

/-- IEEE negation. -/
def neg : XR → XR
  | fin a => fin (-a)
  | nan => nan
  | pinf => ninf
  | ninf => pinf

/-- IEEE subtraction. -/
def sub (a b : XR) : XR := add a (neg b)

/-- an infinity with the sign of a real; NaN for zero -/
def infOfSign (x : ℝ) : XR := if 0 < x then pinf else if x < 0 then ninf else nan

/-- IEEE multiplication. -/
def mul : XR → XR → XR
  | fin a, fin b => fin (a * b)
  | nan, _ => nan
  | _, nan => nan
  | pinf, pinf => pinf
  | pinf, ninf => ninf
  | ninf, pinf => ninf
  | ninf, ninf => pinf
  | pinf, fin b => infOfSign b
  | fin a, pinf => infOfSign a
  | ninf, fin b => infOfSign (-b)
  | fin a, ninf => infOfSign (-a)

/-- IEEE division (NumPy semantics: never raises; zero divisor counts as `+0`). -/
def div : XR → XR → XR
  | fin a, fin b => if b = 0 then infOfSign a else fin (a / b)
  | nan, _ => nan
  | _, nan => nan
  | fin _, pinf => fin 0
  | fin _, ninf => fin 0
  | pinf, fin b => if b < 0 then ninf else pinf
  | ninf, fin b => if b < 0 then pinf else ninf
  | _, _ => nan

/-- absolute value -/
def abs : XR → XR
  | fin a => fin |a|
  | nan => nan
  | _ => pinf

/-- C99 `pow` on finite arguments: NaN for a negative base with a non-integer exponent. -/
def powFin (x y : ℝ) : XR :=
  if 0 < x then fin (x ^ y)
  else if x = 0 then (if 0 < y then fin 0 else if y = 0 then fin 1 else pinf)
  else if (⌊y⌋ : ℝ) = y then fin (x ^ (⌊y⌋ : ℤ)) else nan

/-- C99 `pow`. -/
def pow : XR → XR → XR
  | fin x, fin y => powFin x y
  | x, fin y =>
    if y = 0 then fin 1 else
    match x with
    | pinf => if 0 < y then pinf else fin 0
    | ninf => if 0 < y then (if (⌊y⌋ : ℝ) = y ∧ ⌊y⌋ % 2 = 1 then ninf else pinf) else fin 0
    | _ => nan
  | fin x, y =>
    if x = 1 then fin 1 else
    match y with
    | nan => nan
    | pinf => if 1 < |x| then pinf else if |x| = 1 then fin 1 else fin 0
    | _ => if 1 < |x| then fin 0 else if |x| = 1 then fin 1 else pinf
  | nan, _ => nan
  | _, nan => nan
  | _, pinf => pinf
  | _, _ => fin 0

/-- square root, NaN for negatives -/
def sqrt : XR → XR
  | fin a => if 0 ≤ a then fin (Real.sqrt a) else nan
  | pinf => pinf
  | _ => nan

/-- base-10 logarithm -/
def log10 : XR → XR
  | fin a => if 0 < a then fin (Real.logb 10 a) else if a = 0 then ninf else nan
  | pinf => pinf
  | _ => nan

/-- natural logarithm -/
def ln : XR → XR
  | fin a => if 0 < a then fin (Real.log a) else if a = 0 then ninf else nan
  | pinf => pinf
  | _ => nan

/-- a real function on finite arguments, NaN elsewhere -/
def lift (f : ℝ → ℝ) : XR → XR
  | fin a => fin (f a)
  | _ => nan

/-- arcsine, NaN outside [-1,1] -/
def asin : XR → XR
  | fin a => if -1 ≤ a ∧ a ≤ 1 then fin (Real.arcsin a) else nan
  | _ => nan

/-- truncation toward zero of a real -/
def truncR (x : ℝ) : ℤ := if 0 ≤ x then ⌊x⌋ else ⌈x⌉

/-- conversion to integer and back (NumPy float to int assignment); NaN/inf conversion is not modelled (gives NaN) -/
def trunc : XR → XR
  | fin a => fin (truncR a : ℤ)
  | _ => nan

/-- IEEE `<` -/
def lt : XR → XR → Bool
  | fin a, fin b => decide (a < b)
  | nan, _ => false
  | _, nan => false
  | ninf, ninf => false
  | ninf, _ => true
  | pinf, _ => false
  | fin _, pinf => true
  | fin _, ninf => false

/-- IEEE `<=` -/
def le : XR → XR → Bool
  | fin a, fin b => decide (a ≤ b)
  | nan, _ => false
  | _, nan => false
  | ninf, _ => true
  | _, pinf => true
  | pinf, _ => false
  | fin _, ninf => false

/-- IEEE `==` -/
def eq : XR → XR → Bool
  | fin a, fin b => decide (a = b)
  | pinf, pinf => true
  | ninf, ninf => true
  | _, _ => false

instance : PyFloat XR where
  lit q := fin (q : ℝ)
  nan := nan
  pi := fin Real.pi
  add := add
  sub := sub
  mul := mul
  div := div
  pow := pow
  neg := neg
  abs := abs
  sqrt := sqrt
  log10 := log10
  ln := ln
  sin := lift Real.sin
  cos := lift Real.cos
  tan := lift Real.tan
  asin := asin
  trunc := trunc
  f32 := id
  lt := lt
  le := le
  eq := eq

/-! ## Evaluation lemmas on finite values -/

@[simp] theorem fin_inj {a b : ℝ} : (fin a = fin b) ↔ a = b := by
  constructor
  · intro h; injection h
  · rintro rfl; rfl

@[simp] theorem fadd (a b : ℝ) : (fin a + fin b : XR) = fin (a + b) := rfl
@[simp] theorem fsub (a b : ℝ) : (fin a - fin b : XR) = fin (a - b) := by
  show add (fin a) (neg (fin b)) = _; simp [add, neg, sub_eq_add_neg]
@[simp] theorem fmul (a b : ℝ) : (fin a * fin b : XR) = fin (a * b) := rfl
@[simp] theorem fneg (a : ℝ) : (-fin a : XR) = fin (-a) := rfl
theorem fdiv_def (a b : ℝ) : (fin a / fin b : XR) = if b = 0 then infOfSign a else fin (a / b) := rfl
theorem fdiv {a b : ℝ} (h : b ≠ 0) : (fin a / fin b : XR) = fin (a / b) := by
  rw [fdiv_def, if_neg h]
theorem fpow_def (a b : ℝ) : (fin a ^ fin b : XR) = powFin a b := rfl
theorem fpow {a : ℝ} (h : 0 < a) (b : ℝ) : (fin a ^ fin b : XR) = fin (a ^ b) := by
  rw [fpow_def, powFin, if_pos h]
theorem fpow_nonneg {a : ℝ} (h : 0 ≤ a) {b : ℝ} (hb : 0 < b) : (fin a ^ fin b : XR) = fin (a ^ b) := by
  rcases h.lt_or_eq with h | h
  · exact fpow h b
  · subst h; rw [fpow_def, powFin]; simp [hb, Real.zero_rpow hb.ne']
@[simp] theorem fabs (a : ℝ) : (PyFloat.abs (fin a) : XR) = fin |a| := rfl
theorem fsqrt {a : ℝ} (h : 0 ≤ a) : (PyFloat.sqrt (fin a) : XR) = fin (Real.sqrt a) := by
  show sqrt (fin a) = _; simp [sqrt, h]
theorem flog10 {a : ℝ} (h : 0 < a) : (PyFloat.log10 (fin a) : XR) = fin (Real.logb 10 a) := by
  show log10 (fin a) = _; simp [log10, h]
theorem fln {a : ℝ} (h : 0 < a) : (PyFloat.ln (fin a) : XR) = fin (Real.log a) := by
  show ln (fin a) = _; simp [ln, h]
@[simp] theorem fsin (a : ℝ) : (PyFloat.sin (fin a) : XR) = fin (Real.sin a) := rfl
@[simp] theorem fcos (a : ℝ) : (PyFloat.cos (fin a) : XR) = fin (Real.cos a) := rfl
@[simp] theorem ftan (a : ℝ) : (PyFloat.tan (fin a) : XR) = fin (Real.tan a) := rfl
theorem fasin {a : ℝ} (h1 : -1 ≤ a) (h2 : a ≤ 1) : (PyFloat.asin (fin a) : XR) = fin (Real.arcsin a) := by
  show asin (fin a) = _; simp [asin, h1, h2]
@[simp] theorem fpi : (PyFloat.pi : XR) = fin Real.pi := rfl
@[simp] theorem fnan : (PyFloat.nan : XR) = nan := rfl
@[simp] theorem ff32 (x : XR) : PyFloat.f32 x = x := rfl
@[simp] theorem ftrunc (a : ℝ) : (PyFloat.trunc (fin a) : XR) = fin (truncR a : ℤ) := rfl
@[simp] theorem flt (a b : ℝ) : (fin a <. fin b) = decide (a < b) := rfl
@[simp] theorem fle (a b : ℝ) : (fin a <=. fin b) = decide (a ≤ b) := rfl
@[simp] theorem feq (a b : ℝ) : (fin a ==. fin b) = decide (a = b) := rfl
@[simp] theorem fgt (a b : ℝ) : (fin a >. fin b) = decide (b < a) := rfl
@[simp] theorem fge (a b : ℝ) : (fin a >=. fin b) = decide (b ≤ a) := rfl
@[simp] theorem fne (a b : ℝ) : (fin a !=. fin b) = decide (a ≠ b) := by
  simp [PyFloat.ne]
@[simp] theorem fisnan (a : ℝ) : PyFloat.isnan (fin a) = false := by simp [PyFloat.isnan]
@[simp] theorem nisnan : PyFloat.isnan nan = true := rfl

@[simp] theorem flit (q : ℚ) : (PyFloat.lit q : XR) = fin (q : ℝ) := rfl
@[simp] theorem fofInt (n : ℤ) : (PyFloat.ofInt n : XR) = fin (n : ℝ) := by
  simp [PyFloat.ofInt]
@[simp] theorem fofNat (n : ℕ) : (PyFloat.ofNat n : XR) = fin (n : ℝ) := by
  simp [PyFloat.ofNat]
@[simp] theorem fzero : (0 : XR) = fin 0 := by
  show fin (((0 : ℕ) : ℚ) : ℝ) = _; norm_num
@[simp] theorem fone : (1 : XR) = fin 1 := by
  show fin (((1 : ℕ) : ℚ) : ℝ) = _; norm_num
@[simp] theorem foflit (n : ℕ) [n.AtLeastTwo] : (OfNat.ofNat n : XR) = fin (OfNat.ofNat n) := by
  show fin (((n : ℕ) : ℚ) : ℝ) = _
  norm_num
  rfl
@[simp] theorem fsci (m : ℕ) (s : Bool) (e : ℕ) :
    (OfScientific.ofScientific m s e : XR) = fin (OfScientific.ofScientific m s e) := by
  show fin (((OfScientific.ofScientific m s e : ℚ)) : ℝ) = _
  rw [Rat.cast_ofScientific]

/-! ## NaN propagation and comparisons -/
@[simp] theorem nan_add (x : XR) : (nan + x : XR) = nan := by cases x <;> rfl
@[simp] theorem add_nan (x : XR) : (x + nan : XR) = nan := by cases x <;> rfl
@[simp] theorem nan_sub (x : XR) : (nan - x : XR) = nan := by cases x <;> rfl
@[simp] theorem sub_nan (x : XR) : (x - nan : XR) = nan := by cases x <;> rfl
@[simp] theorem nan_mul (x : XR) : (nan * x : XR) = nan := by cases x <;> rfl
@[simp] theorem mul_nan (x : XR) : (x * nan : XR) = nan := by cases x <;> rfl
@[simp] theorem nan_div (x : XR) : (nan / x : XR) = nan := by cases x <;> rfl
@[simp] theorem div_nan (x : XR) : (x / nan : XR) = nan := by cases x <;> rfl
@[simp] theorem neg_nan : (-nan : XR) = nan := rfl
theorem nan_pow {y : ℝ} (h : y ≠ 0) : (nan ^ fin y : XR) = nan := by
  show pow nan (fin y) = _; simp [pow, h]
@[simp] theorem nan_lt (x : XR) : (nan <. x) = false := by cases x <;> rfl
@[simp] theorem lt_nan (x : XR) : (x <. nan) = false := by cases x <;> rfl
@[simp] theorem nan_le (x : XR) : (nan <=. x) = false := by cases x <;> rfl
@[simp] theorem le_nan (x : XR) : (x <=. nan) = false := by cases x <;> rfl
@[simp] theorem nan_gt (x : XR) : (nan >. x) = false := by cases x <;> rfl
@[simp] theorem gt_nan (x : XR) : (x >. nan) = false := by cases x <;> rfl
@[simp] theorem nan_ge (x : XR) : (nan >=. x) = false := by cases x <;> rfl
@[simp] theorem ge_nan (x : XR) : (x >=. nan) = false := by cases x <;> rfl
@[simp] theorem nan_eq (x : XR) : (nan ==. x) = false := by cases x <;> rfl
@[simp] theorem eq_nan (x : XR) : (x ==. nan) = false := by cases x <;> rfl
@[simp] theorem nan_ne (x : XR) : (nan !=. x) = true := by cases x <;> rfl
@[simp] theorem ne_nan (x : XR) : (x !=. nan) = true := by cases x <;> rfl
@[simp] theorem log10_nan : (PyFloat.log10 nan : XR) = nan := rfl
@[simp] theorem abs_nan : (PyFloat.abs nan : XR) = nan := rfl

/-- A finite float: a real number. -/
def IsFin (x : XR) : Prop := ∃ r : ℝ, x = fin r
@[simp] theorem isFin_fin (r : ℝ) : IsFin (fin r) := ⟨r, rfl⟩

end
end XR
end Csu
