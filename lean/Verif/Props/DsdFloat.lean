import Verif.Props.Dsd
import Verif.Lemmas.RainFloat
import Verif.Lemmas.Fund
import Verif.Binary
import Mathlib.Analysis.SpecialFunctions.Log.Basic
import Mathlib.Analysis.SpecialFunctions.Pow.Real
import Mathlib.Analysis.Complex.ExponentialBounds
/-!
# Property C158: accuracy of the drop size retrievals in floating point

In any precision, with every operation rounded, D0 and Nw of the S-band 2013 and C-band 2009 retrievals stay close to the values of the published
formulas in exact arithmetic.
-/
namespace Csu.Dsd
open PyFloat IeeeFloat Csu.Rain
variable {α : Type} [IeeeFloat α]

/-! ## Absolute errors relative to a bound -/

/-- the unit of error -/
noncomputable def ε : ℝ := 2 ^ (-20 : ℤ)

/-- the value `v` is the real `x`, of size at most `A`, up to `m` units of error times `A` -/
def Ap (m : ℝ) (v : XR) (x A : ℝ) : Prop := |x| ≤ A ∧ 2 ^ (-40 : ℤ) ≤ A ∧ ∃ r : ℝ, v = .fin r ∧ |r - x| ≤ m * ε * A

theorem ε_pos : 0 < ε := by unfold ε; positivity

/-- rounding something close -/
theorem rnd_ap {m x A r : ℝ} (hx : |x| ≤ A) (hA : 2 ^ (-40 : ℤ) ≤ A) (hA' : A ≤ 2 ^ (90 : ℤ)) (hr : |r - x| ≤ m * ε * A) (hm : m ≤ 100) :
    Ap (m + 2) (rnd α (.fin r)) x A := by
  have hε : ε = 2 ^ (-20 : ℤ) := rfl
  have e0 := ε_pos
  have A0 : 0 < A := lt_of_lt_of_le (by positivity) hA
  have hsize : |r| ≤ 3 / 2 * A := by
    have h1 : m * ε * A ≤ 1 / 2 * A := by
      gcongr
      calc m * ε ≤ 100 * ε := by gcongr
        _ ≤ 1 / 2 := by rw [hε]; norm_num
    calc |r| = |(r - x) + x| := by ring_nf
      _ ≤ |r - x| + |x| := abs_add_le _ _
      _ ≤ _ := by linarith
  obtain ⟨q, hq, hq'⟩ := Ieee.rnd_near (α := α) (x := r) (by
    refine hsize.trans ?_
    calc 3 / 2 * A ≤ 3 / 2 * 2 ^ (90 : ℤ) := by gcongr
      _ ≤ _ := by norm_num)
  refine ⟨hx, hA, q, hq, ?_⟩
  have h2 : (2 : ℝ) ^ (-100 : ℤ) ≤ 1 / 2 * ε * A := by
    calc (2 : ℝ) ^ (-100 : ℤ) ≤ 1 / 2 * ε * 2 ^ (-40 : ℤ) := by rw [hε]; norm_num
      _ ≤ _ := by gcongr
  have h3 : (2 : ℝ) ^ (-20 : ℤ) * |r| ≤ ε * (3 / 2 * A) := by rw [hε]; gcongr
  calc |q - x| = |(q - r) + (r - x)| := by ring_nf
    _ ≤ |q - r| + |r - x| := abs_add_le _ _
    _ ≤ (ε * (3 / 2 * A) + 1 / 2 * ε * A) + m * ε * A := add_le_add (hq'.trans (add_le_add h3 h2)) hr
    _ = _ := by ring

theorem Ap.add {m : ℝ} {a b : α} {x y A B : ℝ} (ha : Ap m (val a) x A) (hb : Ap m (val b) y B) (hm : m ≤ 100)
    (hA : A + B ≤ 2 ^ (90 : ℤ)) : Ap (m + 2) (val (a + b)) (x + y) (A + B) := by
  obtain ⟨a1, a2, r, hr, a3⟩ := ha
  obtain ⟨b1, b2, s, hs, b3⟩ := hb
  rw [Ieee.vadd, hr, hs, XR.fadd]
  have : (0 : ℝ) < 2 ^ (-40 : ℤ) := by positivity
  refine rnd_ap ((abs_add_le _ _).trans (by linarith)) (by linarith) hA ?_ hm
  calc |r + s - (x + y)| = |(r - x) + (s - y)| := by ring_nf
    _ ≤ |r - x| + |s - y| := abs_add_le _ _
    _ ≤ m * ε * A + m * ε * B := by linarith
    _ = _ := by ring

theorem Ap.mul {a b : α} {x y A B : ℝ} (ha : Ap 2 (val a) x A) (hb : Ap 2 (val b) y B) (hl : 2 ^ (-40 : ℤ) ≤ A * B)
    (hA : A * B ≤ 2 ^ (90 : ℤ)) : Ap 7 (val (a * b)) (x * y) (A * B) := by
  obtain ⟨a1, a2, r, hr, a3⟩ := ha
  obtain ⟨b1, b2, s, hs, b3⟩ := hb
  rw [Ieee.vmul, hr, hs, XR.fmul]
  have e0 := ε_pos
  have A0 : 0 < A := lt_of_lt_of_le (by positivity) a2
  have B0 : 0 < B := lt_of_lt_of_le (by positivity) b2
  have key : |r * s - x * y| ≤ 5 * ε * (A * B) := by
    have hr' : |r| ≤ A * (1 + 2 * ε) := by
      calc |r| = |(r - x) + x| := by ring_nf
        _ ≤ |r - x| + |x| := abs_add_le _ _
        _ ≤ _ := by linarith
    have he : 4 * ε * ε ≤ ε := by
      have : ε ≤ 1 / 4 := by unfold ε; norm_num
      nlinarith
    have h1 : |r * (s - y)| ≤ A * (1 + 2 * ε) * (2 * ε * B) := by
      rw [abs_mul]; gcongr
    have h2 : |(r - x) * y| ≤ (2 * ε * A) * B := by rw [abs_mul]; gcongr
    calc |r * s - x * y| = |r * (s - y) + (r - x) * y| := by ring_nf
      _ ≤ |r * (s - y)| + |(r - x) * y| := abs_add_le _ _
      _ ≤ A * (1 + 2 * ε) * (2 * ε * B) + (2 * ε * A) * B := by linarith
      _ = (4 * ε + 4 * ε * ε) * (A * B) := by ring
      _ ≤ (4 * ε + ε) * (A * B) := by gcongr
      _ = _ := by ring
  have := rnd_ap (α := α) (m := 5) (A := A * B) (x := x * y) (by rw [abs_mul]; gcongr) hl hA key (by norm_num)
  norm_num at this
  exact this

theorem Ap.mono {m m' : ℝ} {v : XR} {x A : ℝ} (h : Ap m v x A) (hm : m ≤ m') : Ap m' v x A := by
  obtain ⟨a1, a2, r, hr, a3⟩ := h
  have A0 : 0 < A := lt_of_lt_of_le (by positivity) a2
  have := ε_pos
  exact ⟨a1, a2, r, hr, a3.trans (by gcongr)⟩

/-- a literal -/
theorem ap_sci (k : ℕ) (s : Bool) (e : ℕ) (h1 : 2 ^ (-40 : ℤ) ≤ |(OfScientific.ofScientific k s e : ℝ)|)
    (h2 : |(OfScientific.ofScientific k s e : ℝ)| ≤ 2 ^ (90 : ℤ)) :
    Ap 2 (val (OfScientific.ofScientific k s e : α)) (OfScientific.ofScientific k s e) |(OfScientific.ofScientific k s e : ℝ)| := by
  rw [Ieee.vsci]
  have := rnd_ap (α := α) (m := 0) (r := OfScientific.ofScientific k s e) (le_refl _) h1 h2 (by simp) (by norm_num)
  simpa using this

theorem Ap.neg {m : ℝ} {a : α} {x A : ℝ} (h : Ap m (val a) x A) : Ap m (val (-a)) (-x) A := by
  obtain ⟨a1, a2, r, hr, a3⟩ := h
  refine ⟨by rwa [abs_neg], a2, -r, by rw [Ieee.vneg, hr]; rfl, ?_⟩
  rw [← abs_neg]
  convert a3 using 2
  ring

/-- a whole power -/
theorem ap_pow {z n : α} {x : ℝ} {k : ℕ} (hk : 0 < k) (hz : val z = .fin x) (hn : val n = .fin (k : ℝ)) (hx : |x| ^ k ≤ 2 ^ (80 : ℤ)) :
    Ap 2 (val (z ^ n)) (x ^ k) (|x| ^ k + 2 ^ (-30 : ℤ)) := by
  have he : XR.pow (val z) (val n) = .fin (x ^ k) := by
    rw [hz, hn]; exact Fund.powFin_nat x k hk
  obtain ⟨r, hr, h⟩ := val_pow_near z n (x ^ k) he (by
    rw [abs_pow]; exact hx.trans (by norm_num))
  rw [abs_pow] at h
  have h0 : 0 ≤ |x| ^ k := by positivity
  refine ⟨by rw [abs_pow]; have : (0 : ℝ) ≤ 2 ^ (-30 : ℤ) := by positivity
             linarith, ?_, r, hr, h.trans ?_⟩
  · have : (2 : ℝ) ^ (-40 : ℤ) ≤ 2 ^ (-30 : ℤ) := by norm_num
    linarith
  · have e1 : (2 : ℝ) ^ (-100 : ℤ) ≤ 2 * ε * 2 ^ (-30 : ℤ) := by unfold ε; norm_num
    have e2 : (2 : ℝ) ^ (-20 : ℤ) * |x| ^ k ≤ 2 * ε * |x| ^ k := by
      have : (2 : ℝ) ^ (-20 : ℤ) ≤ 2 * ε := by unfold ε; norm_num
      gcongr
    linarith

/-! ## The two polynomials -/

theorem bounds_pow {x : ℝ} (hx : |x| ≤ 20) (k : ℕ) (hk : k ≤ 4) : |x| ^ k ≤ 2 ^ (18 : ℤ) := by
  calc |x| ^ k ≤ 20 ^ k := by gcongr
    _ ≤ 20 ^ 4 := pow_le_pow_right₀ (by norm_num) hk
    _ ≤ _ := by norm_num

/-- one term of a polynomial -/
theorem term_ap {c z n : α} {x q : ℝ} {k : ℕ} (hk : 0 < k) (hk4 : k ≤ 4) (hc : Ap 2 (val c) q |q|) (hq : 2 ^ (-10 : ℤ) ≤ |q|) (hq' : |q| ≤ 2)
    (hz : val z = .fin x) (hx : |x| ≤ 20) (hn : val n = .fin (k : ℝ)) :
    Ap 7 (val (c * z ^ n)) (q * x ^ k) (|q| * (|x| ^ k + 2 ^ (-30 : ℤ))) := by
  have hp := bounds_pow hx k hk4
  have h0 : 0 ≤ |x| ^ k := by positivity
  refine hc.mul (ap_pow hk hz hn (hp.trans (by norm_num))) ?_ ?_
  · calc (2 : ℝ) ^ (-40 : ℤ) = 2 ^ (-10 : ℤ) * 2 ^ (-30 : ℤ) := by norm_num
      _ ≤ |q| * (|x| ^ k + 2 ^ (-30 : ℤ)) := by
        gcongr
        exact le_add_of_nonneg_left h0
  · calc |q| * (|x| ^ k + 2 ^ (-30 : ℤ)) ≤ 2 * (2 ^ (18 : ℤ) + 2 ^ (-30 : ℤ)) := by gcongr
      _ ≤ _ := by norm_num

theorem val_lit_nat (n : ℕ) [n.AtLeastTwo] (h : |(n : ℤ)| ≤ 2 ^ 24) : val (OfNat.ofNat n : α) = .fin (n : ℝ) := Ieee.voflit n h

/-- the sizes of the four or five terms -/
noncomputable def size4 (a b c d x : ℝ) : ℝ :=
  |a| * (|x| ^ 3 + 2 ^ (-30 : ℤ)) + |b| * (|x| ^ 2 + 2 ^ (-30 : ℤ)) + |c| * (|x| ^ 1 + 2 ^ (-30 : ℤ)) + |d|

noncomputable def size5 (a b c d e x : ℝ) : ℝ :=
  |a| * (|x| ^ 4 + 2 ^ (-30 : ℤ)) + |b| * (|x| ^ 3 + 2 ^ (-30 : ℤ)) + |c| * (|x| ^ 2 + 2 ^ (-30 : ℤ)) + |d| * (|x| ^ 1 + 2 ^ (-30 : ℤ)) + |e|

/-- a usable coefficient -/
def Coef (c : α) (q : ℝ) : Prop := Ap 2 (val c) q |q| ∧ 2 ^ (-10 : ℤ) ≤ |q| ∧ |q| ≤ 2

theorem Coef.size {c : α} {q : ℝ} (h : Coef c q) {x : ℝ} (hx : |x| ≤ 20) (k : ℕ) (hk : k ≤ 4) :
    0 ≤ |q| * (|x| ^ k + 2 ^ (-30 : ℤ)) ∧ |q| * (|x| ^ k + 2 ^ (-30 : ℤ)) ≤ 2 ^ (20 : ℤ) := by
  refine ⟨by positivity, ?_⟩
  have := bounds_pow hx k hk
  calc |q| * (|x| ^ k + 2 ^ (-30 : ℤ)) ≤ 2 * (2 ^ (18 : ℤ) + 2 ^ (-30 : ℤ)) := by gcongr; exact h.2.2
    _ ≤ _ := by norm_num

theorem poly4_ap {a b c d z : α} {qa qb qc qd x : ℝ} (ha : Coef a qa) (hb : Coef b qb) (hc : Coef c qc) (hd : Coef d qd)
    (hz : val z = .fin x) (hx : |x| ≤ 20) :
    Ap 15 (val (a * z ^ (3 : α) + b * z ^ (2 : α) + c * z ^ (1 : α) + d)) (qa * x ^ 3 + qb * x ^ 2 + qc * x ^ 1 + qd)
      (size4 qa qb qc qd x) := by
  have t3 := term_ap (k := 3) (by norm_num) (by norm_num) ha.1 ha.2.1 ha.2.2 hz hx (val_lit_nat 3 (by norm_num))
  have t2 := term_ap (k := 2) (by norm_num) (by norm_num) hb.1 hb.2.1 hb.2.2 hz hx (val_lit_nat 2 (by norm_num))
  have t1 := term_ap (n := (1 : α)) (k := 1) (by norm_num) (by norm_num) hc.1 hc.2.1 hc.2.2 hz hx (by rw [Ieee.vone]; norm_num)
  have s3 := ha.size hx 3 (by norm_num)
  have s2 := hb.size hx 2 (by norm_num)
  have s1 := hc.size hx 1 (by norm_num)
  have s0 := hd.2.2
  have big : (3 : ℝ) * 2 ^ (20 : ℤ) + 2 ≤ 2 ^ (90 : ℤ) := by norm_num
  have u1 := t3.add t2 (by norm_num) (by linarith [s3.2, s2.2, s1.1, abs_nonneg qd])
  have u2 := (u1.mono (m' := 9) (by norm_num)).add (t1.mono (by norm_num)) (by norm_num) (by linarith [s3.2, s2.2, s1.2])
  have u3 := (u2.mono (m' := 11) (by norm_num)).add (hd.1.mono (by norm_num)) (by norm_num) (by linarith [s3.2, s2.2, s1.2])
  exact u3.mono (by norm_num)

theorem poly5_ap {a b c d e z : α} {qa qb qc qd qe x : ℝ} (ha : Coef a qa) (hb : Coef b qb) (hc : Coef c qc) (hd : Coef d qd)
    (he : Coef e qe) (hz : val z = .fin x) (hx : |x| ≤ 20) :
    Ap 15 (val (a * z ^ (4 : α) + b * z ^ (3 : α) + c * z ^ (2 : α) + d * z ^ (1 : α) + e))
      (qa * x ^ 4 + qb * x ^ 3 + qc * x ^ 2 + qd * x ^ 1 + qe) (size5 qa qb qc qd qe x) := by
  have t4 := term_ap (k := 4) (by norm_num) (by norm_num) ha.1 ha.2.1 ha.2.2 hz hx (val_lit_nat 4 (by norm_num))
  have t3 := term_ap (k := 3) (by norm_num) (by norm_num) hb.1 hb.2.1 hb.2.2 hz hx (val_lit_nat 3 (by norm_num))
  have t2 := term_ap (k := 2) (by norm_num) (by norm_num) hc.1 hc.2.1 hc.2.2 hz hx (val_lit_nat 2 (by norm_num))
  have t1 := term_ap (n := (1 : α)) (k := 1) (by norm_num) (by norm_num) hd.1 hd.2.1 hd.2.2 hz hx (by rw [Ieee.vone]; norm_num)
  have s4 := ha.size hx 4 (by norm_num)
  have s3 := hb.size hx 3 (by norm_num)
  have s2 := hc.size hx 2 (by norm_num)
  have s1 := hd.size hx 1 (by norm_num)
  have s0 := he.2.2
  have big : (4 : ℝ) * 2 ^ (20 : ℤ) + 2 ≤ 2 ^ (90 : ℤ) := by norm_num
  have u1 := t4.add t3 (by norm_num) (by linarith [s4.2, s3.2, s2.1, s1.1, abs_nonneg qe])
  have u2 := (u1.mono (m' := 9) (by norm_num)).add (t2.mono (by norm_num)) (by norm_num) (by linarith [s4.2, s3.2, s2.2])
  have u3 := (u2.mono (m' := 11) (by norm_num)).add (t1.mono (by norm_num)) (by norm_num) (by linarith [s4.2, s3.2, s2.2, s1.2])
  have u4 := (u3.mono (m' := 13) (by norm_num)).add (he.1.mono (by norm_num)) (by norm_num) (by linarith [s4.2, s3.2, s2.2, s1.2])
  exact u4.mono (by norm_num)

/-- close, relatively: by at most `2^-12` -/
def Close (v : XR) (x : ℝ) : Prop := ∃ r : ℝ, v = .fin r ∧ |r - x| ≤ 2 ^ (-12 : ℤ) * x

theorem Ap.close {v : XR} {x A : ℝ} (h : Ap 15 v x A) (hA : A ≤ 10 * x) : Close v x := by
  obtain ⟨-, a2, r, hr, h⟩ := h
  have e0 := ε_pos
  refine ⟨r, hr, h.trans ?_⟩
  have x0 : 0 < x := by
    have : (0 : ℝ) < 2 ^ (-40 : ℤ) := by positivity
    linarith
  calc 15 * ε * A ≤ 15 * ε * (10 * x) := by gcongr
    _ = (150 * ε) * x := by ring
    _ ≤ 2 ^ (-12 : ℤ) * x := by
      gcongr
      unfold ε; norm_num

/-! ## The published formulas, over the real numbers -/

/-- D0 of Bringi et al. (2013), S band, in mm -/
noncomputable def sD0 (z : ℝ) : ℝ :=
  if 1 ≤ z then 0.0536 * z ^ 3 - 0.1971 * z ^ 2 + 0.6261 * z + 1.0815
  else 0.0424 * z ^ 4 - 0.4571 * z ^ 3 + 0.6125 * z ^ 2 + 0.457 * z + 0.8808

/-- D0 of Bringi et al. (2009), C band (from -0.5 dB), in mm -/
noncomputable def cD0 (z : ℝ) : ℝ :=
  if 1.25 < z then 0.0355 * z ^ 3 - 0.3021 * z ^ 2 + 1.0556 * z + 0.6844
  else 0.0203 * z ^ 4 - 0.1488 * z ^ 3 + 0.2209 * z ^ 2 + 0.5571 * z + 0.801

/-- Nw of Bringi et al. (2013), S band -/
noncomputable def sNw (d z : ℝ) : ℝ := 19.76 * 10 ^ (d / 10) / sD0 z ^ (7.46 : ℝ)

/-- Nw of Bringi et al. (2009), C band -/
noncomputable def cNw (d z : ℝ) : ℝ := 10 ^ (d / 10) / (0.056 * cD0 z ^ (7.319 : ℝ))

theorem pow_bounds {z L : ℝ} (h1 : 0 ≤ z) (h2 : z ≤ L) (k : ℕ) : 0 ≤ z ^ k ∧ z ^ k ≤ L ^ k := ⟨by positivity, by gcongr⟩

theorem sD0_bounds {z : ℝ} (h1 : -8 ≤ z) (h2 : z ≤ 20) : 0.5 ≤ sD0 z ∧ sD0 z ≤ 450 := by
  unfold sD0
  split_ifs with h
  · have a := mul_nonneg (show (0 : ℝ) ≤ z by linarith) (sq_nonneg (0.0536 * z - 0.09855))
    have h3 := (pow_bounds (by linarith) h2 3).2
    have h4 : 1 ≤ z ^ 2 := by nlinarith
    constructor <;> norm_num at * <;> nlinarith
  · rcases le_total z 0 with h0 | h0
    · have p3 : 0 ≤ (-z) ^ 3 := by have : 0 ≤ -z := by linarith
                                   positivity
      have q4 := (pow_bounds (show 0 ≤ -z by linarith) (show -z ≤ 8 by linarith) 4)
      have q3 := (pow_bounds (show 0 ≤ -z by linarith) (show -z ≤ 8 by linarith) 3)
      have q2 := (pow_bounds (show 0 ≤ -z by linarith) (show -z ≤ 8 by linarith) 2)
      have e4 : (-z) ^ 4 = z ^ 4 := by ring
      have e3 : (-z) ^ 3 = -z ^ 3 := by ring
      have e2 : (-z) ^ 2 = z ^ 2 := by ring
      rw [e4] at q4; rw [e3] at q3; rw [e2] at q2
      constructor
      · nlinarith [sq_nonneg (z + 0.4)]
      · norm_num at *; nlinarith
    · have q4 := (pow_bounds h0 (show z ≤ 1 by linarith) 4)
      have q3 := (pow_bounds h0 (show z ≤ 1 by linarith) 3)
      have q2 := (pow_bounds h0 (show z ≤ 1 by linarith) 2)
      norm_num at *
      constructor <;> nlinarith

theorem cD0_bounds {z : ℝ} (h1 : -0.5 ≤ z) (h2 : z ≤ 20) : 0.5 ≤ cD0 z ∧ cD0 z ≤ 256 := by
  unfold cD0
  split_ifs with h
  · have a := mul_nonneg (show (0 : ℝ) ≤ z by linarith) (sq_nonneg (z - 4.25))
    have h3 := (pow_bounds (by linarith) h2 3).2
    have h4 : 1 ≤ z ^ 2 := by nlinarith
    constructor <;> norm_num at * <;> nlinarith
  · rcases le_total z 0 with h0 | h0
    · have q4 := (pow_bounds (show 0 ≤ -z by linarith) (show -z ≤ 0.5 by linarith) 4)
      have q3 := (pow_bounds (show 0 ≤ -z by linarith) (show -z ≤ 0.5 by linarith) 3)
      have q2 := (pow_bounds (show 0 ≤ -z by linarith) (show -z ≤ 0.5 by linarith) 2)
      have e4 : (-z) ^ 4 = z ^ 4 := by ring
      have e3 : (-z) ^ 3 = -z ^ 3 := by ring
      have e2 : (-z) ^ 2 = z ^ 2 := by ring
      rw [e4] at q4; rw [e3] at q3; rw [e2] at q2
      norm_num at *
      constructor <;> nlinarith
    · have q4 := (pow_bounds h0 (show z ≤ 1.25 by linarith) 4)
      have q3 := (pow_bounds h0 (show z ≤ 1.25 by linarith) 3)
      have q2 := (pow_bounds h0 (show z ≤ 1.25 by linarith) 2)
      norm_num at *
      constructor <;> nlinarith

/-- the terms together are at most ten times the sum -/
theorem s_high_size {x : ℝ} (h : 1 ≤ x) : size4 0.0536 (-0.1971) 0.6261 1.0815 x ≤
    10 * (0.0536 * x ^ 3 + -0.1971 * x ^ 2 + 0.6261 * x ^ 1 + 1.0815) := by
  unfold size4
  rw [abs_of_nonneg (show (0 : ℝ) ≤ x by linarith)]
  have a := mul_nonneg (show (0 : ℝ) ≤ x by linarith) (sq_nonneg (x - 3))
  norm_num [abs_of_pos, abs_of_neg]
  nlinarith

theorem s_low_size {x : ℝ} (h : x < 1) : size5 0.0424 (-0.4571) 0.6125 0.457 0.8808 x ≤
    10 * (0.0424 * x ^ 4 + -0.4571 * x ^ 3 + 0.6125 * x ^ 2 + 0.457 * x ^ 1 + 0.8808) := by
  unfold size5
  have x4 : 0 ≤ x ^ 4 := by positivity
  rcases le_total x 0 with h0 | h0
  · have e3 : |x| ^ 3 = -x ^ 3 := by rw [abs_of_nonpos h0]; ring
    have e4 : |x| ^ 4 = x ^ 4 := by rw [abs_of_nonpos h0]; ring
    have e2 : |x| ^ 2 = x ^ 2 := sq_abs x
    have p3 : 0 ≤ -x ^ 3 := by rw [← e3]; positivity
    rw [e3, e4, e2, pow_one, abs_of_nonpos h0]
    norm_num [abs_of_pos, abs_of_neg]
    nlinarith [sq_nonneg (x + 0.6)]
  · have q3 := (pow_bounds h0 h.le 3)
    rw [abs_of_nonneg h0]
    norm_num [abs_of_pos, abs_of_neg] at *
    nlinarith [sq_nonneg x]

theorem c_high_size {x : ℝ} (h : 1.25 < x) : size4 0.0355 (-0.3021) 1.0556 0.6844 x ≤
    10 * (0.0355 * x ^ 3 + -0.3021 * x ^ 2 + 1.0556 * x ^ 1 + 0.6844) := by
  unfold size4
  rw [abs_of_nonneg (show (0 : ℝ) ≤ x by linarith)]
  have a := mul_nonneg (show (0 : ℝ) ≤ x by linarith) (sq_nonneg (x - 5.2))
  norm_num [abs_of_pos, abs_of_neg]
  nlinarith

theorem c_low_size {x : ℝ} (h : x ≤ 1.25) (h5 : -0.5 ≤ x) : size5 0.0203 (-0.1488) 0.2209 0.5571 0.801 x ≤
    10 * (0.0203 * x ^ 4 + -0.1488 * x ^ 3 + 0.2209 * x ^ 2 + 0.5571 * x ^ 1 + 0.801) := by
  unfold size5
  have x4 : 0 ≤ x ^ 4 := by positivity
  rcases le_total x 0 with h0 | h0
  · have e3 : |x| ^ 3 = -x ^ 3 := by rw [abs_of_nonpos h0]; ring
    have e4 : |x| ^ 4 = x ^ 4 := by rw [abs_of_nonpos h0]; ring
    have e2 : |x| ^ 2 = x ^ 2 := sq_abs x
    have p3 : 0 ≤ -x ^ 3 := by rw [← e3]; positivity
    rw [e3, e4, e2, pow_one, abs_of_nonpos h0]
    norm_num [abs_of_pos, abs_of_neg]
    norm_num at h5
    nlinarith [sq_nonneg (x + 0.6)]
  · have q3 := (pow_bounds h0 h 3)
    rw [abs_of_nonneg h0]
    norm_num [abs_of_pos, abs_of_neg] at *
    nlinarith [sq_nonneg x]

/-! ## Relative errors as differences of logarithms -/

theorem log_near {q r η : ℝ} (hr : 0 < r) (h : |q - r| ≤ η * r) (hη : η ≤ 1 / 2) : 0 < q ∧ |Real.log q - Real.log r| ≤ 2 * η := by
  obtain ⟨h1, h2⟩ := abs_le.mp h
  have η0 : 0 ≤ η := by
    by_contra hc
    have : η * r < 0 := mul_neg_of_neg_of_pos (by linarith) hr
    linarith [abs_nonneg (q - r)]
  have hhalf : η * r ≤ 1 / 2 * r := by gcongr
  have q0 : 0 < q := by linarith
  refine ⟨q0, ?_⟩
  rw [← Real.log_div q0.ne' hr.ne', abs_le]
  constructor
  · have := Real.one_sub_inv_le_log_of_pos (div_pos q0 hr)
    rw [inv_div] at this
    have h3 : r / q ≤ 1 + 2 * η := by
      rw [div_le_iff₀ q0]
      nlinarith
    linarith
  · have := Real.log_le_sub_one_of_pos (div_pos q0 hr)
    have h3 : q / r ≤ 1 + η := by
      rw [div_le_iff₀ hr]; linarith
    linarith

/-- the value `v` is positive and its logarithm is that of `x` up to `m` -/
def Lc (m : ℝ) (v : XR) (x : ℝ) : Prop := 0 < x ∧ ∃ r : ℝ, v = .fin r ∧ 0 < r ∧ |Real.log r - Real.log x| ≤ m

theorem Lc.mono {m m' : ℝ} {v : XR} {x : ℝ} (h : Lc m v x) (hm : m ≤ m') : Lc m' v x := by
  obtain ⟨x0, r, h1, h2, h3⟩ := h
  exact ⟨x0, r, h1, h2, h3.trans hm⟩

/-- the true size of something close, at most double or half -/
theorem Lc.range {m : ℝ} {r x : ℝ} (x0 : 0 < x) (r0 : 0 < r) (h : |Real.log r - Real.log x| ≤ m) (hm : m ≤ 1 / 2) : x / 2 ≤ r ∧ r ≤ 2 * x := by
  obtain ⟨h1, h2⟩ := abs_le.mp h
  have l2 : (1 / 2 : ℝ) ≤ Real.log 2 := by
    have := Real.one_sub_inv_le_log_of_pos (show (0 : ℝ) < 2 by norm_num)
    norm_num at this ⊢; linarith
  constructor
  · rw [← Real.log_le_log_iff (by positivity) r0, Real.log_div x0.ne' (by norm_num)]; linarith
  · rw [← Real.log_le_log_iff r0 (by positivity), Real.log_mul (by norm_num) x0.ne']; linarith

theorem rnd_lc {m x r : ℝ} (x0 : 0 < x) (r0 : 0 < r) (h : |Real.log r - Real.log x| ≤ m) (hm : m ≤ 1 / 2) (h1 : 2 ^ (-77 : ℤ) ≤ x)
    (h2 : x ≤ 2 ^ (90 : ℤ)) : Lc (m + 4 * ε) (rnd α (.fin r)) x := by
  obtain ⟨a1, a2⟩ := Lc.range x0 r0 h hm
  obtain ⟨q, hq, hq'⟩ := Ieee.rnd_near (α := α) (x := r) (by
    rw [abs_of_pos r0]
    calc r ≤ 2 * 2 ^ (90 : ℤ) := a2.trans (by gcongr)
      _ ≤ _ := by norm_num)
  rw [abs_of_pos r0] at hq'
  have e0 := ε_pos
  have hs : (2 : ℝ) ^ (-100 : ℤ) ≤ ε * r := by
    calc (2 : ℝ) ^ (-100 : ℤ) ≤ ε * (2 ^ (-77 : ℤ) / 2) := by unfold ε; norm_num
      _ ≤ ε * (x / 2) := by gcongr
      _ ≤ ε * r := by gcongr
  have hrel : |q - r| ≤ (2 * ε) * r := by
    refine hq'.trans ?_
    show ε * r + _ ≤ _
    linarith
  obtain ⟨q0, hl⟩ := log_near r0 hrel (by unfold ε; norm_num)
  refine ⟨x0, q, hq, q0, ?_⟩
  calc |Real.log q - Real.log x| = |(Real.log q - Real.log r) + (Real.log r - Real.log x)| := by ring_nf
    _ ≤ |Real.log q - Real.log r| + |Real.log r - Real.log x| := abs_add_le _ _
    _ ≤ _ := by linarith

theorem Lc.mul {m m' : ℝ} {a b : α} {x y : ℝ} (ha : Lc m (val a) x) (hb : Lc m' (val b) y) (hm : m + m' ≤ 1 / 2) (h1 : 2 ^ (-77 : ℤ) ≤ x * y)
    (h2 : x * y ≤ 2 ^ (90 : ℤ)) : Lc (m + m' + 4 * ε) (val (a * b)) (x * y) := by
  obtain ⟨x0, r, hr, r0, h3⟩ := ha
  obtain ⟨y0, s, hs, s0, h4⟩ := hb
  rw [Ieee.vmul, hr, hs, XR.fmul]
  refine rnd_lc (by positivity) (by positivity) ?_ hm h1 h2
  rw [Real.log_mul x0.ne' y0.ne', Real.log_mul r0.ne' s0.ne']
  calc |Real.log r + Real.log s - (Real.log x + Real.log y)| = |(Real.log r - Real.log x) + (Real.log s - Real.log y)| := by ring_nf
    _ ≤ |Real.log r - Real.log x| + |Real.log s - Real.log y| := abs_add_le _ _
    _ ≤ _ := by linarith

theorem Lc.div {m m' : ℝ} {a b : α} {x y : ℝ} (ha : Lc m (val a) x) (hb : Lc m' (val b) y) (hm : m + m' ≤ 1 / 2) (h1 : 2 ^ (-77 : ℤ) ≤ x / y)
    (h2 : x / y ≤ 2 ^ (90 : ℤ)) : Lc (m + m' + 4 * ε) (val (a / b)) (x / y) := by
  obtain ⟨x0, r, hr, r0, h3⟩ := ha
  obtain ⟨y0, s, hs, s0, h4⟩ := hb
  rw [Ieee.vdiv _ _ (by rw [hs]; simpa using s0.ne'), hr, hs, XR.fdiv s0.ne']
  refine rnd_lc (by positivity) (by positivity) ?_ hm h1 h2
  rw [Real.log_div x0.ne' y0.ne', Real.log_div r0.ne' s0.ne']
  calc |Real.log r - Real.log s - (Real.log x - Real.log y)| = |(Real.log r - Real.log x) - (Real.log s - Real.log y)| := by ring_nf
    _ ≤ |Real.log r - Real.log x| + |Real.log s - Real.log y| := abs_sub _ _
    _ ≤ _ := by linarith

/-- powers: base and exponent both with errors -/
theorem lc_pow {a b : α} {m x y r t : ℝ} (x0 : 0 < x) (r0 : 0 < r) (hr : val a = .fin r) (ht : val b = .fin t)
    (h : |t * Real.log r - y * Real.log x| ≤ m) (hm : m ≤ 1 / 2) (h1 : 2 ^ (-77 : ℤ) ≤ x ^ y) (h2 : x ^ y ≤ 2 ^ (90 : ℤ)) :
    Lc (m + 4 * ε) (val (a ^ b)) (x ^ y) := by
  have p0 : 0 < x ^ y := Real.rpow_pos_of_pos x0 y
  have q0 : 0 < r ^ t := Real.rpow_pos_of_pos r0 t
  have hl : |Real.log (r ^ t) - Real.log (x ^ y)| ≤ m := by rwa [Real.log_rpow r0, Real.log_rpow x0]
  obtain ⟨a1, a2⟩ := Lc.range p0 q0 hl hm
  have he : XR.pow (val a) (val b) = .fin (r ^ t) := by rw [hr, ht]; simp [XR.pow, XR.powFin, r0]
  obtain ⟨q, hq, hq'⟩ := val_pow_near a b _ he (by
    rw [abs_of_pos q0]
    calc r ^ t ≤ 2 * 2 ^ (90 : ℤ) := a2.trans (by gcongr)
      _ ≤ _ := by norm_num)
  rw [abs_of_pos q0] at hq'
  have e0 := ε_pos
  have hs : (2 : ℝ) ^ (-100 : ℤ) ≤ ε * r ^ t := by
    calc (2 : ℝ) ^ (-100 : ℤ) ≤ ε * (2 ^ (-77 : ℤ) / 2) := by unfold ε; norm_num
      _ ≤ ε * (x ^ y / 2) := by gcongr
      _ ≤ ε * r ^ t := by gcongr
  have hrel : |q - r ^ t| ≤ (2 * ε) * r ^ t := by
    refine hq'.trans ?_
    show ε * r ^ t + _ ≤ _
    linarith
  obtain ⟨s0, hl'⟩ := log_near q0 hrel (by unfold ε; norm_num)
  refine ⟨p0, q, hq, s0, ?_⟩
  calc |Real.log q - Real.log (x ^ y)| = |(Real.log q - Real.log (r ^ t)) + (Real.log (r ^ t) - Real.log (x ^ y))| := by ring_nf
    _ ≤ |Real.log q - Real.log (r ^ t)| + |Real.log (r ^ t) - Real.log (x ^ y)| := abs_add_le _ _
    _ ≤ _ := by linarith

/-- a positive literal -/
theorem lc_sci (k : ℕ) (s : Bool) (e : ℕ) (h0 : 0 < (OfScientific.ofScientific k s e : ℝ)) (h1 : 2 ^ (-40 : ℤ) ≤ (OfScientific.ofScientific k s e : ℝ))
    (h2 : (OfScientific.ofScientific k s e : ℝ) ≤ 2 ^ (90 : ℤ)) :
    Lc (4 * ε) (val (OfScientific.ofScientific k s e : α)) (OfScientific.ofScientific k s e) := by
  rw [Ieee.vsci]
  have := rnd_lc (α := α) (m := 0) h0 h0 (by simp) (by norm_num) (_root_.le_trans (by norm_num) h1) h2
  rwa [zero_add] at this

/-- from logarithms back to one per cent -/
theorem Lc.percent {v : XR} {x : ℝ} (h : Lc 0.009 v x) : ∃ r : ℝ, v = .fin r ∧ 0 < r ∧ |r - x| ≤ x / 100 := by
  obtain ⟨x0, r, hr, r0, h⟩ := h
  refine ⟨r, hr, r0, ?_⟩
  rw [← Real.log_div r0.ne' x0.ne', abs_le] at h
  have q0 := div_pos r0 x0
  have lo := Real.log_le_sub_one_of_pos q0
  have hi := Real.one_sub_inv_le_log_of_pos q0
  rw [inv_div] at hi
  have l1 : 0.991 * x ≤ r := by
    have : 0.991 ≤ r / x := by linarith [h.1]
    rwa [le_div_iff₀ x0] at this
  have l2 : 0.991 * r ≤ x := by
    have : 0.991 ≤ x / r := by linarith [h.2]
    rwa [le_div_iff₀ r0] at this
  rw [abs_le]
  constructor <;> linarith

theorem log_ten_le : Real.log 10 ≤ 3 := by
  have h2 := Real.log_two_lt_d9
  have h : Real.log 10 = Real.log (10 / 8) + 3 * Real.log 2 := by
    rw [← Real.log_rpow (by norm_num), ← Real.log_mul (by norm_num) (by norm_num)]
    norm_num
  have h3 := Real.log_le_sub_one_of_pos (show (0 : ℝ) < 10 / 8 by norm_num)
  norm_num at h3 h
  linarith

theorem log_ten_nonneg : 0 ≤ Real.log 10 := Real.log_nonneg (by norm_num)

/-- reflectivity in linear units -/
theorem lin_lc {d : α} {x : ℝ} (hd : val d = .fin x) (h1 : -40 ≤ x) (h2 : x ≤ 100) :
    Lc (40 * ε) (val (DsdSpec.lin d)) (10 ^ (x / 10)) ∧ (10 : ℝ) ^ (-4 : ℤ) ≤ 10 ^ (x / 10) ∧ (10 : ℝ) ^ (x / 10) ≤ 10 ^ (10 : ℕ) := by
  have hx : |x / 10| ≤ 10 := by rw [abs_le]; constructor <;> linarith
  obtain ⟨y, hy, hy'⟩ := Ieee.rnd_near (α := α) (x := x / 10) (hx.trans (by norm_num))
  have hv : val (d / 10) = .fin y := by
    rw [Ieee.vdiv _ _ (by rw [val10]; simp), val10, hd, XR.fdiv (by norm_num), hy]
  have hyx : |y - x / 10| ≤ 11 * ε := by
    refine hy'.trans ?_
    calc (2 : ℝ) ^ (-20 : ℤ) * |x / 10| + 2 ^ (-100 : ℤ) ≤ 2 ^ (-20 : ℤ) * 10 + 2 ^ (-100 : ℤ) := by gcongr
      _ ≤ _ := by unfold ε; norm_num
  have l10 := log_ten_nonneg
  have l10' := log_ten_le
  have b1 : (10 : ℝ) ^ (-4 : ℤ) ≤ 10 ^ (x / 10) := by
    rw [← Real.rpow_intCast]
    refine Real.rpow_le_rpow_of_exponent_le (by norm_num) ?_
    push_cast; linarith
  have b2 : (10 : ℝ) ^ (x / 10) ≤ 10 ^ (10 : ℕ) := by
    rw [← Real.rpow_natCast]
    refine Real.rpow_le_rpow_of_exponent_le (by norm_num) ?_
    push_cast; linarith
  refine ⟨(lc_pow (m := 33 * ε) (by norm_num) (by norm_num) val10 hv ?_ (by unfold ε; norm_num) (_root_.le_trans (by norm_num) b1)
    (b2.trans (by norm_num))).mono (by unfold ε; norm_num), b1, b2⟩
  rw [← sub_mul, abs_mul, abs_of_nonneg l10]
  have e0 := ε_pos
  calc |y - x / 10| * Real.log 10 ≤ (11 * ε) * 3 := by gcongr
    _ = _ := by ring

/-- a power law of D0 -/
theorem d0_pow_lc {a b : α} {D q : ℝ} {n : ℕ} (hn : n ≤ 9) (hD : Close (val a) D) (h1 : 0.5 ≤ D) (h2 : D ≤ 2 ^ n) (q1 : 7 ≤ q) (q2 : q ≤ 7.5)
    (hb : val b = rnd α (.fin q)) :
    Lc 0.006 (val (a ^ b)) (D ^ q) ∧ 2 ^ (-8 : ℤ) ≤ D ^ q ∧ D ^ q ≤ 2 ^ (7.5 * n : ℝ) := by
  obtain ⟨r, hr, hr'⟩ := hD
  have D0 : 0 < D := by linarith
  obtain ⟨r0, hl⟩ := log_near D0 hr' (by norm_num)
  obtain ⟨t, ht, ht'⟩ := Ieee.rnd_near (α := α) (x := q) (by
    rw [abs_of_pos (by linarith)]
    exact _root_.le_trans q2 (by norm_num))
  rw [abs_of_pos (by linarith : (0:ℝ) < q)] at ht'
  have e0 := ε_pos
  have htq : |t - q| ≤ 9 * ε := by
    refine ht'.trans ?_
    calc (2 : ℝ) ^ (-20 : ℤ) * q + 2 ^ (-100 : ℤ) ≤ 2 ^ (-20 : ℤ) * 7.5 + 2 ^ (-100 : ℤ) := by gcongr
      _ ≤ _ := by unfold ε; norm_num
  have ht8 : |t| ≤ 8 := by
    have : 9 * ε ≤ 0.5 := by unfold ε; norm_num
    calc |t| = |(t - q) + q| := by ring_nf
      _ ≤ |t - q| + |q| := abs_add_le _ _
      _ ≤ _ := by rw [abs_of_pos (by linarith : (0:ℝ) < q)]; linarith
  have lD : |Real.log D| ≤ 9 := by
    rw [abs_le]
    constructor
    · have := Real.one_sub_inv_le_log_of_pos D0
      have h3 : D⁻¹ ≤ 2 := by
        rw [inv_le_comm₀ D0 (by norm_num)]; norm_num at h1 ⊢; linarith
      linarith
    · have h3 := Real.log_le_log D0 h2
      rw [Real.log_pow] at h3
      have l2 : Real.log 2 ≤ 1 := by
        have := Real.log_le_sub_one_of_pos (show (0 : ℝ) < 2 by norm_num)
        linarith
      have l2' : 0 ≤ Real.log 2 := Real.log_nonneg (by norm_num)
      have : (n : ℝ) ≤ 9 := by exact_mod_cast hn
      nlinarith
  have low : (2 : ℝ) ^ (-8 : ℤ) ≤ D ^ q := by
    calc (2 : ℝ) ^ (-8 : ℤ) = (0.5 : ℝ) ^ (8 : ℝ) := by
          rw [show (8 : ℝ) = ((8 : ℕ) : ℝ) by norm_num, Real.rpow_natCast]; norm_num
      _ ≤ 0.5 ^ q := Real.rpow_le_rpow_of_exponent_ge (by norm_num) (by norm_num) (by linarith)
      _ ≤ D ^ q := Real.rpow_le_rpow (by norm_num) h1 (by linarith)
  have high : D ^ q ≤ 2 ^ (7.5 * n : ℝ) := by
    calc D ^ q ≤ (2 ^ n : ℝ) ^ q := Real.rpow_le_rpow D0.le h2 (by linarith)
      _ ≤ (2 ^ n : ℝ) ^ (7.5 : ℝ) := Real.rpow_le_rpow_of_exponent_le (one_le_pow₀ (by norm_num)) q2
      _ = _ := by rw [← Real.rpow_natCast, ← Real.rpow_mul (by norm_num), mul_comm]
  refine ⟨(lc_pow (m := 0.005) D0 r0 hr (hb.trans ht) ?_ (by norm_num) (_root_.le_trans (by norm_num) low) (high.trans ?_)).mono
    (by unfold ε; norm_num), low, high⟩
  · calc |t * Real.log r - q * Real.log D| = |t * (Real.log r - Real.log D) + (t - q) * Real.log D| := by ring_nf
      _ ≤ |t * (Real.log r - Real.log D)| + |(t - q) * Real.log D| := abs_add_le _ _
      _ = |t| * |Real.log r - Real.log D| + |t - q| * |Real.log D| := by rw [abs_mul, abs_mul]
      _ ≤ 8 * (2 * 2 ^ (-12 : ℤ)) + 9 * ε * 9 := by gcongr
      _ ≤ _ := by unfold ε; norm_num
  · calc (2 : ℝ) ^ (7.5 * n : ℝ) ≤ 2 ^ (90 : ℝ) := by
          refine Real.rpow_le_rpow_of_exponent_le (by norm_num) ?_
          have : (n : ℝ) ≤ 9 := by exact_mod_cast hn
          linarith
      _ = _ := by rw [show (90 : ℝ) = ((90 : ℤ) : ℝ) by norm_num, Real.rpow_intCast]

/-! ## Gates -/

theorem coef (k : ℕ) (s : Bool) (e : ℕ) (h0 : 0 < (OfScientific.ofScientific k s e : ℝ)) (h1 : 2 ^ (-10 : ℤ) ≤ (OfScientific.ofScientific k s e : ℝ))
    (h2 : (OfScientific.ofScientific k s e : ℝ) ≤ 2) : Coef (OfScientific.ofScientific k s e : α) (OfScientific.ofScientific k s e) := by
  have ha : |(OfScientific.ofScientific k s e : ℝ)| = OfScientific.ofScientific k s e := abs_of_pos h0
  exact ⟨ap_sci k s e (by rw [ha]; exact _root_.le_trans (by norm_num) h1) (by rw [ha]; exact h2.trans (by norm_num)), by rwa [ha], by rwa [ha]⟩

theorem coefNeg (k : ℕ) (s : Bool) (e : ℕ) (h0 : 0 < (OfScientific.ofScientific k s e : ℝ)) (h1 : 2 ^ (-10 : ℤ) ≤ (OfScientific.ofScientific k s e : ℝ))
    (h2 : (OfScientific.ofScientific k s e : ℝ) ≤ 2) : Coef (-(OfScientific.ofScientific k s e : α)) (-(OfScientific.ofScientific k s e)) := by
  obtain ⟨c1, c2, c3⟩ := coef (α := α) k s e h0 h1 h2
  refine ⟨?_, by rwa [abs_neg], by rwa [abs_neg]⟩
  rw [abs_neg]; exact c1.neg

theorem s_d0_close {d z : α} {x : ℝ} (hz : val z = .fin x) (h1 : -8 ≤ x) (h2 : x ≤ 20) : Close (val (DsdSpec.s2013d0 d z)) (sD0 x) := by
  have hx : |x| ≤ 20 := by rw [abs_le]; constructor <;> linarith
  have c1 : (z >=. 1) = decide (1 ≤ x) := by
    show le (1 : α) z = _
    rw [val_le, Ieee.vone, hz]; rfl
  have c2 : (z <. 1) = decide (x < 1) := by
    show lt z (1 : α) = _
    rw [val_lt, Ieee.vone, hz]; rfl
  unfold DsdSpec.s2013d0 sD0
  rw [c1, c2]
  by_cases h : 1 ≤ x
  · rw [decide_eq_true h, if_pos rfl, if_pos h]
    convert (poly4_ap (coef 536 true 4 (by norm_num) (by norm_num) (by norm_num)) (coefNeg 1971 true 4 (by norm_num) (by norm_num) (by norm_num))
      (coef 6261 true 4 (by norm_num) (by norm_num) (by norm_num)) (coef 10815 true 4 (by norm_num) (by norm_num) (by norm_num)) hz hx).close
      (s_high_size h) using 1
    norm_num; ring
  · have h' := not_le.mp h
    rw [decide_eq_false h, if_neg (by simp), decide_eq_true h', if_pos rfl, if_neg h]
    convert (poly5_ap (coef 424 true 4 (by norm_num) (by norm_num) (by norm_num)) (coefNeg 4571 true 4 (by norm_num) (by norm_num) (by norm_num))
      (coef 6125 true 4 (by norm_num) (by norm_num) (by norm_num)) (coef 457 true 3 (by norm_num) (by norm_num) (by norm_num))
      (coef 8808 true 4 (by norm_num) (by norm_num) (by norm_num)) hz hx).close (s_low_size h') using 1
    norm_num; ring

theorem val_dec (k : ℕ) (s : Bool) (e : ℕ) (h : Ieee.Simple (OfScientific.ofScientific k s e : ℝ)) :
    val (OfScientific.ofScientific k s e : α) = .fin (OfScientific.ofScientific k s e) := by
  rw [Ieee.vsci, Ieee.rnd_simple h]

theorem c_d0_close {d z : α} {x : ℝ} (hz : val z = .fin x) (h1 : -0.5 ≤ x) (h2 : x ≤ 20) : Close (val (DsdSpec.c2009d0 d z)) (cD0 x) := by
  have hx : |x| ≤ 20 := by rw [abs_le]; constructor <;> linarith
  have v1 : val (1.25 : α) = .fin 1.25 := val_dec 125 true 2 ⟨5, -2, by norm_num, by norm_num, by norm_num⟩
  have v2 : val (-0.5 : α) = .fin (-0.5) := by
    rw [Ieee.vneg, val_dec 5 true 1 ⟨1, -1, by norm_num, by norm_num, by norm_num⟩]; rfl
  have c1 : (z >. 1.25) = decide (1.25 < x) := by
    show lt (1.25 : α) z = _
    rw [val_lt, v1, hz]; rfl
  have c2 : (z >=. -0.5) = decide (-0.5 ≤ x) := by
    show le (-0.5 : α) z = _
    rw [val_le, v2, hz]; rfl
  have c3 : (z <=. 1.25) = decide (x ≤ 1.25) := by
    show le z (1.25 : α) = _
    rw [val_le, v1, hz]; rfl
  unfold DsdSpec.c2009d0 cD0
  rw [c1, c2, c3]
  by_cases h : 1.25 < x
  · rw [decide_eq_true h, if_pos rfl, if_pos h]
    convert (poly4_ap (coef 355 true 4 (by norm_num) (by norm_num) (by norm_num)) (coefNeg 3021 true 4 (by norm_num) (by norm_num) (by norm_num))
      (coef 10556 true 4 (by norm_num) (by norm_num) (by norm_num)) (coef 6844 true 4 (by norm_num) (by norm_num) (by norm_num)) hz hx).close
      (c_high_size h) using 1
    norm_num; ring
  · have h' := not_lt.mp h
    rw [decide_eq_false h, if_neg (by simp), decide_eq_true h', decide_eq_true h1, if_pos (by rfl), if_neg h]
    convert (poly5_ap (coef 203 true 4 (by norm_num) (by norm_num) (by norm_num)) (coefNeg 1488 true 4 (by norm_num) (by norm_num) (by norm_num))
      (coef 2209 true 4 (by norm_num) (by norm_num) (by norm_num)) (coef 5571 true 4 (by norm_num) (by norm_num) (by norm_num))
      (coef 801 true 3 (by norm_num) (by norm_num) (by norm_num)) hz hx).close (c_low_size h' h1) using 1
    norm_num; ring

theorem mu_three {d : α} {x : ℝ} (hd : val d = .fin x) : val (0 * d + 3 : α) = .fin 3 := by
  have h0 : val (0 * d) = .fin 0 := by
    rw [Ieee.vmul, Ieee.vzero, hd, XR.fmul, zero_mul, Ieee.rnd_simple Ieee.simple_zero]
  have h3 : val (3 : α) = .fin 3 := val_lit_nat 3 (by norm_num)
  rw [Ieee.vadd, h0, h3, XR.fadd, zero_add, Ieee.rnd_simple (Ieee.simple_nat 3 (by norm_num))]

theorem two_rpow {x : ℝ} {n : ℤ} (h : x ≤ n) : (2 : ℝ) ^ x ≤ 2 ^ n := by
  rw [← Real.rpow_intCast]
  exact Real.rpow_le_rpow_of_exponent_le (by norm_num) h

theorem s_nw_lc {d z : α} {x y : ℝ} (hd : val d = .fin x) (hz : val z = .fin y) (h1 : -40 ≤ x) (h2 : x ≤ 100) (h3 : -8 ≤ y) (h4 : y ≤ 20) :
    Lc 0.009 (val (DsdSpec.s2013 d z).nw) (sNw x y) := by
  obtain ⟨l1, l2, l3⟩ := lin_lc hd h1 h2
  obtain ⟨b1, b2⟩ := sD0_bounds h3 h4
  obtain ⟨p1, p2, p3⟩ := d0_pow_lc (b := (7.46 : α)) (q := 7.46) (n := 9) (by norm_num) (s_d0_close (d := d) hz h3 h4) b1 (b2.trans (by norm_num))
    (by norm_num) (by norm_num) (by rw [Ieee.vsci])
  have p3' : sD0 y ^ (7.46 : ℝ) ≤ 2 ^ (68 : ℤ) := p3.trans (two_rpow (by norm_num))
  have one : Lc (4 * ε) (val (1 : α)) 1 := ⟨by norm_num, 1, Ieee.vone, by norm_num, by simp [ε_pos.le]⟩
  have den := one.mul p1 (by unfold ε; norm_num) (by rw [one_mul]; exact _root_.le_trans (by norm_num) p2)
    (by rw [one_mul]; exact p3'.trans (by norm_num))
  rw [one_mul] at den
  have num := (lc_sci (α := α) 1976 true 2 (by norm_num) (by norm_num) (by norm_num)).mul l1 (by unfold ε; norm_num)
    (by calc (2 : ℝ) ^ (-77 : ℤ) ≤ 19.76 * 10 ^ (-4 : ℤ) := by norm_num
          _ ≤ _ := by gcongr)
    (by calc (19.76 : ℝ) * 10 ^ (x / 10) ≤ 19.76 * 10 ^ (10 : ℕ) := by gcongr
          _ ≤ _ := by norm_num)
  have p0 : 0 < sD0 y ^ (7.46 : ℝ) := p1.1
  refine (num.div den (by unfold ε; norm_num) ?_ ?_).mono (by unfold ε; norm_num)
  · rw [le_div_iff₀ p0]
    calc (2 : ℝ) ^ (-77 : ℤ) * sD0 y ^ (7.46 : ℝ) ≤ 2 ^ (-77 : ℤ) * 2 ^ (68 : ℤ) := by gcongr
      _ ≤ 19.76 * 10 ^ (-4 : ℤ) := by norm_num
      _ ≤ _ := by gcongr
  · rw [div_le_iff₀ p0]
    calc (19.76 : ℝ) * 10 ^ (x / 10) ≤ 19.76 * 10 ^ (10 : ℕ) := by gcongr
      _ ≤ 2 ^ (90 : ℤ) * 2 ^ (-8 : ℤ) := by norm_num
      _ ≤ _ := by gcongr

theorem c_nw_lc {d z : α} {x y : ℝ} (hd : val d = .fin x) (hz : val z = .fin y) (h1 : -40 ≤ x) (h2 : x ≤ 100) (h3 : -0.5 ≤ y) (h4 : y ≤ 20) :
    Lc 0.009 (val (DsdSpec.c2009 d z).nw) (cNw x y) := by
  obtain ⟨l1, l2, l3⟩ := lin_lc hd h1 h2
  obtain ⟨b1, b2⟩ := cD0_bounds h3 h4
  obtain ⟨p1, p2, p3⟩ := d0_pow_lc (b := (7.319 : α)) (q := 7.319) (n := 8) (by norm_num) (c_d0_close (d := d) hz h3 h4) b1 (b2.trans (by norm_num))
    (by norm_num) (by norm_num) (by rw [Ieee.vsci])
  have p3' : cD0 y ^ (7.319 : ℝ) ≤ 2 ^ (60 : ℤ) := p3.trans (two_rpow (by norm_num))
  have den := (lc_sci (α := α) 56 true 3 (by norm_num) (by norm_num) (by norm_num)).mul p1 (by unfold ε; norm_num)
    (by calc (2 : ℝ) ^ (-77 : ℤ) ≤ 0.056 * 2 ^ (-8 : ℤ) := by norm_num
          _ ≤ _ := by gcongr)
    (by calc (0.056 : ℝ) * cD0 y ^ (7.319 : ℝ) ≤ 0.056 * 2 ^ (60 : ℤ) := by gcongr
          _ ≤ _ := by norm_num)
  have p0 : 0 < (0.056 : ℝ) * cD0 y ^ (7.319 : ℝ) := den.1
  refine (l1.div den (by unfold ε; norm_num) ?_ ?_).mono (by unfold ε; norm_num)
  · rw [le_div_iff₀ p0]
    calc (2 : ℝ) ^ (-77 : ℤ) * (0.056 * cD0 y ^ (7.319 : ℝ)) ≤ 2 ^ (-77 : ℤ) * (0.056 * 2 ^ (60 : ℤ)) := by gcongr
      _ ≤ 10 ^ (-4 : ℤ) := by norm_num
      _ ≤ _ := l2
  · rw [div_le_iff₀ p0]
    calc (10 : ℝ) ^ (x / 10) ≤ 10 ^ (10 : ℕ) := l3
      _ ≤ 2 ^ (90 : ℤ) * (0.056 * 2 ^ (-8 : ℤ)) := by norm_num
      _ ≤ _ := by gcongr

/-! ## Calls -/

/-- **C158**, S band 2013: in any precision, with every operation rounded, at every gate with a reflectivity from -40 to 100 dBZ and a differential
reflectivity from -8 to 20 dB (whatever the other gates hold, and whatever Kdp is), D0 is within 0.1 % and Nw within 1 % of the published formulas in exact
arithmetic, both are positive, and mu is exactly 3. -/
theorem C158_sband (d z k : NdArray α) (hs : RainSpec.SameShape d z k) :
    ∃ a b c : NdArray α, calcDsd "S" "2013" (some (.arr d)) (some (.arr z)) (some (.arr k)) = .ok (some (.arr a b c)) ∧
      a.shape = d.shape ∧ b.shape = d.shape ∧ c.shape = d.shape ∧
      ∀ (i : Nat) (dv zv : α) (x y : ℝ), d.data[i]? = some dv → val dv = .fin x → -40 ≤ x → x ≤ 100 →
        z.data[i]? = some zv → val zv = .fin y → -8 ≤ y → y ≤ 20 →
        (∃ (v : α) (r : ℝ), a.data[i]? = some v ∧ val v = .fin r ∧ 0 < r ∧ |r - sD0 y| ≤ sD0 y / 1000) ∧
        (∃ (v : α) (r : ℝ), b.data[i]? = some v ∧ val v = .fin r ∧ 0 < r ∧ |r - sNw x y| ≤ sNw x y / 100) ∧
        ∃ v : α, c.data[i]? = some v ∧ val v = .fin 3 := by
  obtain ⟨a, b, c, e, h1, h2, h3, -, -, -, hv⟩ := C55_arrays_gatewise "S" "2013" (by simp) d z k hs
  refine ⟨a, b, c, e, h1, h2, h3, ?_⟩
  intro i dv zv x y e1 vd x1 x2 e2 vz y1 y2
  obtain ⟨hl1, hl2⟩ := Rain.SameShape.lengths hs
  have hi : i < d.data.length := by
    by_contra hc; rw [List.getElem?_eq_none_iff.mpr (by omega)] at e1; simp at e1
  have := hv i _ _ _ e1 e2 (List.getElem?_eq_getElem (by omega))
  simp only [DsdSpec.gate, if_true] at this
  obtain ⟨r, hr, hc⟩ := s_d0_close (d := dv) vz y1 y2
  have lo := (sD0_bounds y1 y2).1
  have b1 : |r - sD0 y| ≤ sD0 y / 1000 := hc.trans (by
    have : (2 : ℝ) ^ (-12 : ℤ) ≤ 1 / 1000 := by norm_num
    have D0 : 0 ≤ sD0 y := by linarith
    calc (2 : ℝ) ^ (-12 : ℤ) * sD0 y ≤ 1 / 1000 * sD0 y := by gcongr
      _ = _ := by ring)
  refine ⟨⟨_, r, this.1, hr, ?_, b1⟩, ?_, _, this.2.2, mu_three vd⟩
  · have := (abs_le.mp b1).1
    linarith
  · obtain ⟨q, hq, q0, hq'⟩ := (s_nw_lc vd vz x1 x2 y1 y2).percent
    exact ⟨_, q, this.2.1, hq, q0, hq'⟩

/-- **C158**, C band: the same with the formulas of 2009, for a differential reflectivity from -0.5 to 20 dB. -/
theorem C158_cband (method : String) (d z k : NdArray α) (hs : RainSpec.SameShape d z k) :
    ∃ a b c : NdArray α, calcDsd "C" method (some (.arr d)) (some (.arr z)) (some (.arr k)) = .ok (some (.arr a b c)) ∧
      a.shape = d.shape ∧ b.shape = d.shape ∧ c.shape = d.shape ∧
      ∀ (i : Nat) (dv zv : α) (x y : ℝ), d.data[i]? = some dv → val dv = .fin x → -40 ≤ x → x ≤ 100 →
        z.data[i]? = some zv → val zv = .fin y → -0.5 ≤ y → y ≤ 20 →
        (∃ (v : α) (r : ℝ), a.data[i]? = some v ∧ val v = .fin r ∧ 0 < r ∧ |r - cD0 y| ≤ cD0 y / 1000) ∧
        (∃ (v : α) (r : ℝ), b.data[i]? = some v ∧ val v = .fin r ∧ 0 < r ∧ |r - cNw x y| ≤ cNw x y / 100) ∧
        ∃ v : α, c.data[i]? = some v ∧ val v = .fin 3 := by
  obtain ⟨a, b, c, e, h1, h2, h3, -, -, -, hv⟩ := C55_arrays_gatewise "C" method (by simp) d z k hs
  refine ⟨a, b, c, e, h1, h2, h3, ?_⟩
  intro i dv zv x y e1 vd x1 x2 e2 vz y1 y2
  obtain ⟨hl1, hl2⟩ := Rain.SameShape.lengths hs
  have hi : i < d.data.length := by
    by_contra hc; rw [List.getElem?_eq_none_iff.mpr (by omega)] at e1; simp at e1
  have := hv i _ _ _ e1 e2 (List.getElem?_eq_getElem (by omega))
  simp only [DsdSpec.gate, show ¬ ("C" = "S") by decide, if_false] at this
  obtain ⟨r, hr, hc⟩ := c_d0_close (d := dv) vz y1 y2
  have lo := (cD0_bounds y1 y2).1
  have b1 : |r - cD0 y| ≤ cD0 y / 1000 := hc.trans (by
    have : (2 : ℝ) ^ (-12 : ℤ) ≤ 1 / 1000 := by norm_num
    have D0 : 0 ≤ cD0 y := by linarith
    calc (2 : ℝ) ^ (-12 : ℤ) * cD0 y ≤ 1 / 1000 * cD0 y := by gcongr
      _ = _ := by ring)
  refine ⟨⟨_, r, this.1, hr, ?_, b1⟩, ?_, _, this.2.2, mu_three vd⟩
  · have := (abs_le.mp b1).1
    linarith
  · obtain ⟨q, hq, q0, hq'⟩ := (c_nw_lc vd vz x1 x2 y1 y2).percent
    exact ⟨_, q, this.2.1, hq, q0, hq'⟩

/-- The hypotheses of `C158_sband` and `C158_cband` are met in single precision: 40 dBZ and 1 dB beside a NaN gate. -/
example : RainSpec.SameShape (⟨.float, [2], [40, nan]⟩ : NdArray Binary32) (⟨.float, [2], [1, nan]⟩ : NdArray Binary32)
    (⟨.float, [2], [nan, 0]⟩ : NdArray Binary32) ∧ val (40 : Binary32) = .fin 40 ∧ val (1 : Binary32) = .fin 1 ∧
    sD0 1 = 1.5641 ∧ cD0 1 = 1.4505 := by
  refine ⟨⟨rfl, rfl, rfl, rfl, rfl⟩, Ieee.voflit 40 (by norm_num), Ieee.vone, ?_, ?_⟩
  · norm_num [sD0]
  · norm_num [cD0]

end Csu.Dsd
