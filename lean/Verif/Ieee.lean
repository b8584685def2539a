import Verif.XReal
import Mathlib.Tactic.Linarith
import Mathlib.Tactic.Positivity
import Mathlib.Tactic.NormNum
/-!
# Floating point with rounding

`IeeeFloat α` adds to `PyFloat α` the laws that IEEE 754 arithmetic has: every float has a value in `XR` (extended reals with NaN; the
sign of zero is forgotten), and `+ - * / sqrt` return the exact result rounded by one monotone rounding that leaves floats alone.
Overflow is included: a finite exact result may be rounded to an infinity.  About `**` it is only assumed that
its result is on the right side of 0 and of 1, NaN exactly when the exact result is, and within a factor of two of it (for results of
moderate size), and about `log10` that it returns a number for every nonnegative argument; any mathematical library satisfies this.
`Verif/Binary.lean` proves that round-to-nearest-even in any binary format at least as large as binary32 satisfies these laws.
-/
namespace Csu
open PyFloat

/-- `r`, computed for the exact result `e`, is on the right side of 0 and 1, and NaN exactly if `e` is. -/
structure RightSide (e r : XR) : Prop where
  nan : e = .nan ↔ r = .nan
  ge0 : XR.le (.fin 0) e = true → XR.le (.fin 0) r = true
  le0 : XR.le e (.fin 0) = true → XR.le r (.fin 0) = true
  ge1 : XR.le (.fin 1) e = true → XR.le (.fin 1) r = true
  le1 : XR.le e (.fin 1) = true → XR.le r (.fin 1) = true

/-- Floating-point arithmetic with rounding. -/
class IeeeFloat (α : Type) extends PyFloat α where
  /-- the value of a float -/
  val : α → XR
  /-- rounding -/
  rnd : XR → XR
  rnd_mono : ∀ x y, XR.le x y = true → XR.le (rnd x) (rnd y) = true
  rnd_nan : rnd .nan = .nan
  /-- floats are not changed by rounding -/
  rnd_val : ∀ a, rnd (val a) = val a
  /-- integers of 24 bits times powers of two (not too extreme) are floats -/
  rnd_exact : ∀ n k : ℤ, |n| ≤ 2 ^ 24 → |k| ≤ 100 → rnd (.fin ((n : ℝ) * (2 : ℝ) ^ k)) = .fin ((n : ℝ) * (2 : ℝ) ^ k)
  rnd_pinf : rnd .pinf = .pinf
  rnd_ninf : rnd .ninf = .ninf
  /-- rounding to float32 -/
  rnd32 : XR → XR
  rnd32_mono : ∀ x y, XR.le x y = true → XR.le (rnd32 x) (rnd32 y) = true
  rnd32_nan : rnd32 .nan = .nan
  rnd32_pinf : rnd32 .pinf = .pinf
  rnd32_ninf : rnd32 .ninf = .ninf
  rnd32_idem : ∀ x, rnd32 (rnd32 x) = rnd32 x
  rnd32_exact : ∀ n k : ℤ, |n| ≤ 2 ^ 24 → |k| ≤ 100 → rnd32 (.fin ((n : ℝ) * (2 : ℝ) ^ k)) = .fin ((n : ℝ) * (2 : ℝ) ^ k)
  val_f32 : ∀ a, val (f32 a) = rnd32 (val a)
  val_lit : ∀ q : ℚ, val (lit q) = rnd (.fin (q : ℝ))
  val_nan : val nan = .nan
  val_pi : val pi = rnd (.fin Real.pi)
  val_add : ∀ a b, val (add a b) = rnd (XR.add (val a) (val b))
  val_sub : ∀ a b, val (sub a b) = rnd (XR.sub (val a) (val b))
  val_mul : ∀ a b, val (mul a b) = rnd (XR.mul (val a) (val b))
  /-- (a zero divisor counts with its sign, which `val` forgets) -/
  val_div : ∀ a b, val b ≠ .fin 0 → val (div a b) = rnd (XR.div (val a) (val b))
  val_sqrt : ∀ a, val (sqrt a) = rnd (XR.sqrt (val a))
  val_neg : ∀ a, val (neg a) = XR.neg (val a)
  val_abs : ∀ a, val (abs a) = XR.abs (val a)
  val_pow : ∀ a b, val a ≠ .fin 0 ∨ XR.le (.fin 0) (val b) = true → RightSide (XR.pow (val a) (val b)) (val (pow a b))
  /-- powers of moderate size are right within a factor of two -/
  val_pow_acc : ∀ a b x y, val a = .fin x → val b = .fin y → 0 < x → (2 : ℝ) ^ (-100 : ℤ) ≤ x ^ y → x ^ y ≤ (2 : ℝ) ^ (100 : ℤ) →
    XR.le (.fin (x ^ y / 2)) (val (pow a b)) = true ∧ XR.le (val (pow a b)) (.fin (2 * x ^ y)) = true
  /-- finite powers of moderate size are right within a millionth (`2^-20`), tiny ones within `2^-100` -/
  val_pow_near : ∀ a b (e : ℝ), XR.pow (val a) (val b) = .fin e → |e| ≤ (2 : ℝ) ^ (100 : ℤ) →
    ∃ r : ℝ, val (pow a b) = .fin r ∧ |r - e| ≤ (2 : ℝ) ^ (-20 : ℤ) * |e| + (2 : ℝ) ^ (-100 : ℤ)
  val_log10 : ∀ a, XR.le (.fin 0) (val a) = true → val (log10 a) ≠ .nan
  val_lt : ∀ a b, lt a b = XR.lt (val a) (val b)
  val_le : ∀ a b, le a b = XR.le (val a) (val b)
  val_eq : ∀ a b, eq a b = XR.eq (val a) (val b)

namespace Ieee
open IeeeFloat
noncomputable section

/-! ## Order on values -/

theorem le_trans {a b c : XR} (h1 : XR.le a b = true) (h2 : XR.le b c = true) : XR.le a c = true := by
  cases a <;> cases b <;> cases c <;> simp_all [XR.le]
  linarith
theorem le_refl {a : XR} (h : a ≠ .nan) : XR.le a a = true := by cases a <;> simp_all [XR.le]
theorem ne_nan_of_le {a b : XR} (h : XR.le a b = true) : a ≠ .nan ∧ b ≠ .nan := by
  cases a <;> cases b <;> simp_all [XR.le]
@[simp] theorem le_fin (a b : ℝ) : XR.le (.fin a) (.fin b) = true ↔ a ≤ b := by simp [XR.le]

/-- a value in `[a, b]` is a real number in `[a, b]` -/
theorem between {x : XR} {a b : ℝ} (h1 : XR.le (.fin a) x = true) (h2 : XR.le x (.fin b) = true) : ∃ r : ℝ, x = .fin r ∧ a ≤ r ∧ r ≤ b := by
  cases x <;> simp_all [XR.le]
/-- a nonnegative value is a nonnegative real or `+inf` -/
theorem nonneg_cases {x : XR} {a : ℝ} (h : XR.le (.fin a) x = true) : x = .pinf ∨ ∃ r : ℝ, x = .fin r ∧ a ≤ r := by
  cases x <;> simp_all [XR.le]

/-! ## Rounding -/
variable {α : Type} [IeeeFloat α]

/-- the real numbers that every format contains: 24-bit integers times moderate powers of two -/
def Simple (x : ℝ) : Prop := ∃ n k : ℤ, |n| ≤ 2 ^ 24 ∧ |k| ≤ 100 ∧ x = (n : ℝ) * (2 : ℝ) ^ k

theorem simple_int (n : ℤ) (h : |n| ≤ 2 ^ 24) : Simple n := ⟨n, 0, h, by norm_num, by simp⟩
theorem simple_zero : Simple 0 := by simpa using simple_int 0 (by norm_num)
theorem simple_one : Simple 1 := by simpa using simple_int 1 (by norm_num)
theorem simple_two_zpow (k : ℤ) (h : |k| ≤ 100) : Simple ((2 : ℝ) ^ k) := ⟨1, k, by norm_num, h, by simp⟩
theorem simple_nat (n : ℕ) [n.AtLeastTwo] (h : |(n : ℤ)| ≤ 2 ^ 24) : Simple (OfNat.ofNat n) := by
  have := simple_int n h
  rw [Int.cast_natCast] at this
  exact this
theorem Simple.neg {x : ℝ} (h : Simple x) : Simple (-x) := by
  obtain ⟨n, k, h1, h2, rfl⟩ := h
  exact ⟨-n, k, by simpa using h1, h2, by push_cast; ring⟩

theorem rnd_simple {x : ℝ} (h : Simple x) : rnd α (.fin x) = .fin x := by
  obtain ⟨n, k, h1, h2, rfl⟩ := h
  exact rnd_exact n k h1 h2
theorem rnd_ne_nan {x : XR} (h : x ≠ .nan) : rnd α x ≠ .nan := (ne_nan_of_le (rnd_mono (α := α) x x (le_refl h))).1
theorem rnd_ge {x : XR} {a : ℝ} (ha : Simple a) (h : XR.le (.fin a) x = true) : XR.le (.fin a) (rnd α x) = true := by
  have := rnd_mono (α := α) _ _ h
  rwa [rnd_simple ha] at this
theorem rnd_le {x : XR} {a : ℝ} (ha : Simple a) (h : XR.le x (.fin a) = true) : XR.le (rnd α x) (.fin a) = true := by
  have := rnd_mono (α := α) _ _ h
  rwa [rnd_simple ha] at this
theorem rnd_ge_val {x : XR} {a : α} (h : XR.le (val a) x = true) : XR.le (val a) (rnd α x) = true := by
  have := rnd_mono (α := α) _ _ h
  rwa [rnd_val] at this
theorem rnd_le_val {x : XR} {a : α} (h : XR.le x (val a) = true) : XR.le (rnd α x) (val a) = true := by
  have := rnd_mono (α := α) _ _ h
  rwa [rnd_val] at this

/-! ## Evaluation -/

theorem vadd (a b : α) : val (a + b) = rnd α (val a + val b) := val_add a b
theorem vsub (a b : α) : val (a - b) = rnd α (val a - val b) := val_sub a b
theorem vmul (a b : α) : val (a * b) = rnd α (val a * val b) := val_mul a b
theorem vdiv (a b : α) (h : val b ≠ .fin 0) : val (a / b) = rnd α (val a / val b) := val_div a b h
theorem vneg (a : α) : val (-a) = -val a := val_neg a
theorem vlit (q : ℚ) : val (PyFloat.lit q : α) = rnd α (.fin (q : ℝ)) := val_lit q
theorem vnat (n : ℕ) : val (PyFloat.ofNat n : α) = rnd α (.fin (n : ℝ)) := by
  show val (PyFloat.lit ((n : ℕ) : ℚ) : α) = _
  rw [vlit]; norm_num
theorem vzero : val (0 : α) = .fin 0 := by
  show val (PyFloat.lit ((0 : ℕ) : ℚ) : α) = _
  rw [vlit]; push_cast; exact rnd_simple simple_zero
theorem vone : val (1 : α) = .fin 1 := by
  show val (PyFloat.lit ((1 : ℕ) : ℚ) : α) = _
  rw [vlit]; push_cast; exact rnd_simple simple_one
theorem voflit (n : ℕ) [n.AtLeastTwo] (h : |(n : ℤ)| ≤ 2 ^ 24) : val (OfNat.ofNat n : α) = .fin (OfNat.ofNat n) := by
  show val (PyFloat.lit ((n : ℕ) : ℚ) : α) = _
  rw [vlit]
  rw [Rat.cast_natCast]
  exact rnd_simple (α := α) (simple_nat n h)
/-- a decimal literal is rounded -/
theorem vsci (m : ℕ) (s : Bool) (e : ℕ) :
    val (OfScientific.ofScientific m s e : α) = rnd α (.fin (OfScientific.ofScientific m s e)) := by
  show val (PyFloat.lit (OfScientific.ofScientific m s e : ℚ) : α) = _
  rw [vlit, Rat.cast_ofScientific]

/-- a monotone map that keeps the 24-bit numbers moves a real of moderate size by little -/
theorem near_of_mono {f : XR → XR} (mono : ∀ x y, XR.le x y = true → XR.le (f x) (f y) = true)
    (exact : ∀ n k : ℤ, |n| ≤ 2 ^ 24 → |k| ≤ 100 → f (.fin ((n : ℝ) * (2 : ℝ) ^ k)) = .fin ((n : ℝ) * (2 : ℝ) ^ k))
    {x : ℝ} (hx : |x| ≤ 2 ^ (100 : ℤ)) :
    ∃ r : ℝ, f (.fin x) = .fin r ∧ |r - x| ≤ 2 ^ (-20 : ℤ) * |x| + 2 ^ (-100 : ℤ) := by
  -- a step `2^k`, not larger than the bound, such that `x` is at most `2^24 - 1` steps from 0
  obtain ⟨k, hk, hsmall, hcount⟩ : ∃ k : ℤ, |k| ≤ 100 ∧ (2 : ℝ) ^ k ≤ 2 ^ (-20 : ℤ) * |x| + 2 ^ (-100 : ℤ) ∧
      |x| < (2 ^ 23) * 2 ^ k := by
    by_cases hs : |x| < 2 ^ (-77 : ℤ)
    · have : (0 : ℝ) ≤ 2 ^ (-20 : ℤ) * |x| := by positivity
      exact ⟨-100, by norm_num, by linarith, hs.trans_le (by norm_num)⟩
    · have hs := not_lt.mp hs
      have h0 : 0 < |x| := lt_of_lt_of_le (by positivity) hs
      have l1 : -77 ≤ Int.log 2 |x| := by
        rw [← Int.zpow_le_iff_le_log (by norm_num) h0]; exact_mod_cast hs
      have l2 : Int.log 2 |x| < 101 := by
        rw [← Int.lt_zpow_iff_log_lt (by norm_num) h0]
        refine hx.trans_lt ?_
        norm_num
      have b1 : (2 : ℝ) ^ (Int.log 2 |x|) ≤ |x| := by exact_mod_cast Int.zpow_log_le_self (b := 2) (by norm_num) h0
      have b2 : |x| < (2 : ℝ) ^ (Int.log 2 |x| + 1) := by exact_mod_cast Int.lt_zpow_succ_log_self (b := 2) (by norm_num) |x|
      refine ⟨Int.log 2 |x| - 22, by rw [abs_le]; omega, ?_, ?_⟩
      · rw [zpow_sub₀ (by norm_num)]
        have : (2 : ℝ) ^ (Int.log 2 |x|) / 2 ^ (22 : ℤ) ≤ 2 ^ (-20 : ℤ) * |x| := by
          rw [div_le_iff₀ (by positivity)]
          calc (2 : ℝ) ^ (Int.log 2 |x|) ≤ |x| := b1
            _ ≤ 4 * |x| := by linarith
            _ = _ := by norm_num; ring
        have : (0 : ℝ) ≤ 2 ^ (-100 : ℤ) := by positivity
        linarith
      · refine b2.trans_le (le_of_eq ?_)
        rw [zpow_add₀ (by norm_num), zpow_sub₀ (by norm_num)]
        norm_num
        ring
  have p0 : (0 : ℝ) < 2 ^ k := by positivity
  have hq : |x / 2 ^ k| < 2 ^ 23 := by rw [abs_div, abs_of_pos p0, div_lt_iff₀ p0]; exact hcount
  obtain ⟨q1, q2⟩ := abs_lt.mp hq
  have n1 : (⌊x / 2 ^ k⌋ : ℝ) ≤ x / 2 ^ k := Int.floor_le _
  have n2 : x / 2 ^ k < ⌊x / 2 ^ k⌋ + 1 := Int.lt_floor_add_one _
  have m1 : (-2 ^ 23 : ℤ) ≤ ⌊x / 2 ^ k⌋ := by rw [Int.le_floor]; push_cast; linarith
  have m2 : ⌊x / 2 ^ k⌋ < (2 ^ 23 : ℤ) := by rw [Int.floor_lt]; push_cast; linarith
  generalize ⌊x / 2 ^ k⌋ = n at *
  have lo : (n : ℝ) * 2 ^ k ≤ x := by rwa [le_div_iff₀ p0] at n1
  have hi : x ≤ ((n + 1 : ℤ) : ℝ) * 2 ^ k := by rw [div_lt_iff₀ p0] at n2; push_cast; exact n2.le
  have f1 := mono _ _ (show XR.le (.fin ((n : ℝ) * 2 ^ k)) (.fin x) = true by rw [le_fin]; exact lo)
  have f2 := mono _ _ (show XR.le (.fin x) (.fin (((n + 1 : ℤ) : ℝ) * 2 ^ k)) = true by rw [le_fin]; exact hi)
  rw [exact n k (by rw [abs_le]; omega) hk] at f1
  rw [exact (n + 1) k (by rw [abs_le]; omega) hk] at f2
  obtain ⟨r, hr, r1, r2⟩ := between f1 f2
  refine ⟨r, hr, ?_⟩
  push_cast at hi r2
  rw [abs_le]
  constructor <;> nlinarith

/-- rounding a real of moderate size changes it by less than a millionth, or by less than `2^-100` -/
theorem rnd_near {x : ℝ} (hx : |x| ≤ 2 ^ (100 : ℤ)) :
    ∃ r : ℝ, rnd α (.fin x) = .fin r ∧ |r - x| ≤ 2 ^ (-20 : ℤ) * |x| + 2 ^ (-100 : ℤ) :=
  near_of_mono rnd_mono rnd_exact hx

end
end Ieee
end Csu
