import Verif.Ieee
import Verif.Props.Rain
import Verif.Props.Rain2
import Verif.Props.Rain3
/-! # Rain rates in floating point -/
namespace Csu.Rain
open Csu PyFloat RainSpec IeeeFloat
variable {α : Type} [IeeeFloat α]

/-- a number from 0 to `2^i` -/
def Upto (i : ℤ) (x : XR) : Prop := XR.le (.fin 0) x = true ∧ XR.le x (.fin ((2 : ℝ) ^ i)) = true

theorem Upto.real {i : ℤ} {x : XR} (h : Upto i x) : ∃ r : ℝ, x = .fin r ∧ 0 ≤ r ∧ r ≤ 2 ^ i := Ieee.between h.1 h.2
theorem Upto.fin {i : ℤ} {r : ℝ} (h0 : 0 ≤ r) (h1 : r ≤ 2 ^ i) : Upto i (.fin r) := ⟨by simpa using h0, by simpa using h1⟩
theorem Upto.rnd {i : ℤ} {x : XR} (hi : |i| ≤ 100) (h : Upto i x) : Upto i (rnd α x) :=
  ⟨Ieee.rnd_ge Ieee.simple_zero h.1, Ieee.rnd_le (Ieee.simple_two_zpow i hi) h.2⟩
theorem Upto.mono {i j : ℤ} {x : XR} (h : Upto i x) (hij : i ≤ j) : Upto j x :=
  ⟨h.1, Ieee.le_trans h.2 (by rw [Ieee.le_fin]; exact zpow_le_zpow_right₀ (by norm_num) hij)⟩
theorem Upto.mul {i j : ℤ} {a b : α} (ha : Upto i (val a)) (hb : Upto j (val b)) (hij : |i + j| ≤ 100) : Upto (i + j) (val (a * b)) := by
  obtain ⟨x, hx, x0, x1⟩ := ha.real
  obtain ⟨y, hy, y0, y1⟩ := hb.real
  rw [Ieee.vmul, hx, hy, XR.fmul]
  refine Upto.rnd hij (Upto.fin (mul_nonneg x0 y0) ?_)
  rw [zpow_add₀ (by norm_num)]
  exact mul_le_mul x1 y1 y0 (by positivity)
theorem Upto.div {i : ℤ} {a b : α} (ha : Upto i (val a)) (hb : ∃ r : ℝ, val b = .fin r ∧ 1 ≤ r) (hi : |i| ≤ 100) : Upto i (val (a / b)) := by
  obtain ⟨x, hx, x0, x1⟩ := ha.real
  obtain ⟨y, hy, y1⟩ := hb
  have y0 : 0 < y := by linarith
  rw [Ieee.vdiv _ _ (by rw [hy]; simpa using y0.ne'), hx, hy, XR.fdiv y0.ne']
  refine Upto.rnd hi (Upto.fin (by positivity) ((div_le_self x0 y1).trans x1))

/-- a power with exponent from 0 to 1 -/
theorem Upto.pow {i : ℤ} {a b : α} (ha : Upto i (val a)) (hb : Upto 0 (val b)) (h0 : 0 ≤ i) (hi : i ≤ 99) :
    Upto (i + 1) (val (a ^ b)) := by
  obtain ⟨x, hx, x0, x1⟩ := ha.real
  obtain ⟨y, hy, y0, y1⟩ := hb.real
  rw [zpow_zero] at y1
  have rs := val_pow a b (.inr (by rw [hy]; simpa using y0))
  rw [hx, hy] at rs
  have one_le : (1 : ℝ) ≤ 2 ^ (i + 1) := one_le_zpow₀ (by norm_num) (by omega)
  have small : XR.le (val (a ^ b)) (.fin 1) = true → XR.le (val (a ^ b)) (.fin ((2 : ℝ) ^ (i + 1))) = true :=
    fun h => Ieee.le_trans h (by rw [Ieee.le_fin]; exact one_le)
  rcases x0.lt_or_eq with hp | hz
  · have e : XR.pow (.fin x) (.fin y) = .fin (x ^ y) := by simp [XR.pow, XR.powFin, hp]
    rw [e] at rs
    have pos := Real.rpow_pos_of_pos hp y
    refine ⟨rs.ge0 (by rw [Ieee.le_fin]; exact pos.le), ?_⟩
    rcases le_total (x ^ y) 1 with h | h
    · exact small (rs.le1 (by rw [Ieee.le_fin]; exact h))
    · have hM : (1 : ℝ) ≤ 2 ^ i := one_le_zpow₀ (by norm_num) h0
      have hle : x ^ y ≤ 2 ^ i :=
        calc x ^ y ≤ (2 ^ i) ^ y := Real.rpow_le_rpow x0 x1 y0
          _ ≤ (2 ^ i) ^ (1 : ℝ) := Real.rpow_le_rpow_of_exponent_le hM y1
          _ = 2 ^ i := Real.rpow_one _
      have hacc := (val_pow_acc a b x y hx hy hp
        (le_trans (zpow_le_one_of_nonpos₀ (by norm_num) (by norm_num)) h) (hle.trans (zpow_le_zpow_right₀ (by norm_num) (by omega)))).2
      refine Ieee.le_trans hacc ?_
      rw [Ieee.le_fin, zpow_add₀ (by norm_num), zpow_one]
      linarith
  · subst hz
    have e : XR.pow (.fin 0) (.fin y) = .fin 0 ∨ XR.pow (.fin 0) (.fin y) = .fin 1 := by
      rcases y0.lt_or_eq with h | h
      · left; simp [XR.pow, XR.powFin, h]
      · right; simp [XR.pow, XR.powFin, ← h]
    rcases e with e | e <;> rw [e] at rs
    · exact ⟨rs.ge0 (by simp), small (rs.le1 (by simp))⟩
    · exact ⟨rs.ge0 (by simp), small (rs.le1 (by simp))⟩

theorem val10 : val (10 : α) = .fin 10 := Ieee.voflit 10 (by norm_num)

/-- powers of ten with a nonpositive exponent -/
theorem ten_pow_small {b : α} (h : XR.le (val b) (.fin 0) = true) : Upto 0 (val ((10 : α) ^ b)) := by
  have rs := val_pow (10 : α) b (.inl (by rw [val10]; simp))
  rw [val10] at rs
  have e : XR.le (.fin 0) (XR.pow (.fin 10) (val b)) = true ∧ XR.le (XR.pow (.fin 10) (val b)) (.fin 1) = true := by
    cases hb : val b with
    | nan => rw [hb] at h; simp [XR.le] at h
    | pinf => rw [hb] at h; simp [XR.le] at h
    | ninf => norm_num [XR.pow, abs_of_pos]
    | fin y =>
      rw [hb, Ieee.le_fin] at h
      have : XR.pow (.fin 10) (.fin y) = .fin ((10 : ℝ) ^ y) := by simp [XR.pow, XR.powFin]
      rw [this, Ieee.le_fin, Ieee.le_fin]
      exact ⟨by positivity, Real.rpow_le_one_of_one_le_of_nonpos (by norm_num) h⟩
  exact ⟨rs.ge0 e.1, by rw [zpow_zero]; exact rs.le1 e.2⟩

/-- powers of ten with an exponent up to 20 -/
theorem ten_pow_upto {b : α} (h : XR.le (val b) (.fin 20) = true) : Upto 68 (val ((10 : α) ^ b)) := by
  by_cases h0 : XR.le (val b) (.fin 0) = true
  · exact (ten_pow_small h0).mono (by norm_num)
  · have : ∃ y : ℝ, val b = .fin y ∧ 0 < y ∧ y ≤ 20 := by
      cases hb : val b with
      | nan => rw [hb] at h; simp [XR.le] at h
      | pinf => rw [hb] at h; simp [XR.le] at h
      | ninf => rw [hb] at h0; simp [XR.le] at h0
      | fin y =>
        rw [hb, Ieee.le_fin] at h h0
        exact ⟨y, rfl, not_le.mp h0, h⟩
    obtain ⟨y, hy, y0, y1⟩ := this
    have one : (1 : ℝ) ≤ 10 ^ y := Real.one_le_rpow (by norm_num) y0.le
    have top : (10 : ℝ) ^ y ≤ 2 ^ (67 : ℤ) :=
      calc (10 : ℝ) ^ y ≤ 10 ^ (20 : ℝ) := Real.rpow_le_rpow_of_exponent_le (by norm_num) y1
        _ = 10 ^ (20 : ℕ) := by rw [← Real.rpow_natCast]; norm_num
        _ ≤ _ := by norm_num
    have acc := val_pow_acc (10 : α) b 10 y val10 hy (by norm_num)
      (le_trans (zpow_le_one_of_nonpos₀ (by norm_num) (by norm_num)) one) (top.trans (by norm_num))
    refine ⟨Ieee.le_trans (by rw [Ieee.le_fin]; positivity) acc.1, Ieee.le_trans acc.2 ?_⟩
    rw [Ieee.le_fin]
    calc 2 * (10 : ℝ) ^ y ≤ 2 * 2 ^ (67 : ℤ) := by linarith
      _ = 2 ^ (68 : ℤ) := by norm_num

/-- at most 200 dB (`-inf` allowed) -/
def Db200 (d : α) : Prop := XR.le (val d) (.fin 200) = true

theorem div10 {d : α} (h : Db200 d) : XR.le (val (d / 10)) (.fin 20) = true := by
  unfold Db200 at h
  rw [Ieee.vdiv _ _ (by rw [val10]; simp), val10]
  refine Ieee.rnd_le (Ieee.simple_nat 20 (by norm_num)) ?_
  cases hd : val d with
  | nan => rw [hd] at h; simp [XR.le] at h
  | pinf => rw [hd] at h; simp [XR.le] at h
  | ninf => show XR.le (XR.div .ninf (.fin 10)) _ = true; norm_num [XR.div, XR.le]
  | fin x =>
    rw [hd, Ieee.le_fin] at h
    rw [XR.fdiv (by norm_num), Ieee.le_fin]; linarith

theorem lin_upto {d : α} (h : Db200 d) : Upto 68 (val (lin d)) := ten_pow_upto (div10 h)

/-- `1/b` for `b` at least 1 -/
theorem inv_upto {b : α} (hb : ∃ r : ℝ, val b = .fin r ∧ 1 ≤ r) : Upto 0 (val (1 / b)) :=
  Upto.div (by rw [Ieee.vone]; exact Upto.fin (by norm_num) (by norm_num)) hb (by norm_num)

theorem rZR_upto {a b d : α} (ha : ∃ r : ℝ, val a = .fin r ∧ 1 ≤ r) (hb : ∃ r : ℝ, val b = .fin r ∧ 1 ≤ r) (hd : Db200 d) :
    Upto 69 (val (rZR a b d)) :=
  Upto.pow ((lin_upto hd).div ha (by norm_num)) (inv_upto hb) (by norm_num) (by norm_num)

/-- the capped relation, for any reflectivity that is not NaN -/
theorem rZRcap_upto {cap a b d : α} (ha : ∃ r : ℝ, val a = .fin r ∧ 1 ≤ r) (hb : ∃ r : ℝ, val b = .fin r ∧ 1 ≤ r) (hc : Db200 cap)
    (hd : val d ≠ .nan) : Upto 69 (val (rZRcap cap a b d)) := by
  unfold rZRcap
  split_ifs with h
  · exact rZR_upto ha hb hc
  · refine rZR_upto ha hb ?_
    have hl : XR.lt (val cap) (val d) = false := by
      have := val_lt cap d
      rw [← this]; simpa using h
    have : XR.le (val d) (val cap) = true := by
      have hcn := (Ieee.ne_nan_of_le hc).1
      revert hl hd hcn
      cases val cap <;> cases val d <;> simp [XR.lt, XR.le]
    exact Ieee.le_trans this hc

/-! ## Never NaN -/

theorem mul_ne_nan {a b : α} {x : ℝ} (ha : val a = .fin x) (hx : x ≠ 0) (hb : val b ≠ .nan) : val (a * b) ≠ .nan := by
  rw [Ieee.vmul, ha]
  refine Ieee.rnd_ne_nan ?_
  show XR.mul _ _ ≠ _
  revert hb
  cases val b <;> simp [XR.mul, XR.infOfSign] <;> split_ifs <;> simp_all
  · rcases lt_trichotomy x 0 with h | h | h <;> first | exact absurd h hx | linarith
  · rcases lt_trichotomy x 0 with h | h | h <;> first | exact absurd h hx | linarith
theorem add_ne_nan {a b : α} {y : ℝ} (ha : val a ≠ .nan) (hb : val b = .fin y) : val (a + b) ≠ .nan := by
  rw [Ieee.vadd, hb]
  refine Ieee.rnd_ne_nan ?_
  show XR.add _ _ ≠ _
  revert ha
  cases val a <;> simp [XR.add]
theorem sub_ne_nan {a b : α} {x : ℝ} (ha : val a = .fin x) (hb : val b ≠ .nan) : val (a - b) ≠ .nan := by
  rw [Ieee.vsub, ha]
  refine Ieee.rnd_ne_nan ?_
  show XR.sub _ _ ≠ _
  revert hb
  cases val b <;> simp [XR.sub, XR.add, XR.neg]
theorem div_ne_nan {a b : α} {y : ℝ} (ha : val a ≠ .nan) (hb : val b = .fin y) (hy : y ≠ 0) : val (a / b) ≠ .nan := by
  rw [Ieee.vdiv _ _ (by rw [hb]; simpa using hy), hb]
  refine Ieee.rnd_ne_nan ?_
  show XR.div _ _ ≠ _
  revert ha
  cases val a <;> simp [XR.div] <;> split_ifs <;> simp_all
theorem ten_pow_nonneg {b : α} (h : val b ≠ .nan) : XR.le (.fin 0) (val ((10 : α) ^ b)) = true := by
  have rs := val_pow (10 : α) b (.inl (by rw [val10]; simp))
  rw [val10] at rs
  refine rs.ge0 ?_
  revert h
  cases val b with
  | nan => intro h; exact absurd rfl h
  | pinf => intro _; norm_num [XR.pow]; simp [XR.le]
  | ninf => intro _; norm_num [XR.pow]
  | fin y =>
    intro _
    have : XR.pow (.fin 10) (.fin y) = .fin ((10 : ℝ) ^ y) := by simp [XR.pow, XR.powFin]
    rw [this, Ieee.le_fin]; positivity

/-- a finite number of at most 200 in size -/
def Within200 (d : α) : Prop := ∃ r : ℝ, val d = .fin r ∧ -200 ≤ r ∧ r ≤ 200

theorem Within200.db {d : α} (h : Within200 d) : Db200 d := by
  obtain ⟨r, hr, -, h2⟩ := h
  unfold Db200; rw [hr, Ieee.le_fin]; exact h2

theorem lin_low {d : α} (h : Within200 d) : ∃ r : ℝ, val (lin d) = .fin r ∧ (2 : ℝ) ^ (-69 : ℤ) ≤ r := by
  obtain ⟨x, hx, h1, h2⟩ := h
  have hq : ∃ y : ℝ, val (d / 10) = .fin y ∧ -20 ≤ y ∧ y ≤ 20 := by
    rw [Ieee.vdiv _ _ (by rw [val10]; simp), val10, hx, XR.fdiv (by norm_num)]
    exact Ieee.between (Ieee.rnd_ge (Ieee.simple_nat 20 (by norm_num)).neg (by rw [Ieee.le_fin]; linarith))
      (Ieee.rnd_le (Ieee.simple_nat 20 (by norm_num)) (by rw [Ieee.le_fin]; linarith))
  obtain ⟨y, hy, y0, y1⟩ := hq
  have top : (10 : ℝ) ^ y ≤ 2 ^ (67 : ℤ) :=
    calc (10 : ℝ) ^ y ≤ 10 ^ (20 : ℝ) := Real.rpow_le_rpow_of_exponent_le (by norm_num) y1
      _ = 10 ^ (20 : ℕ) := by rw [← Real.rpow_natCast]; norm_num
      _ ≤ _ := by norm_num
  have bot : (2 : ℝ) ^ (-67 : ℤ) ≤ 10 ^ y :=
    calc (2 : ℝ) ^ (-67 : ℤ) ≤ ((10 : ℝ) ^ (20 : ℕ))⁻¹ := by norm_num
      _ = 10 ^ (-20 : ℝ) := by rw [Real.rpow_neg (by norm_num), ← Real.rpow_natCast]; norm_num
      _ ≤ _ := Real.rpow_le_rpow_of_exponent_le (by norm_num) y0
  have acc := val_pow_acc (10 : α) (d / 10) 10 y val10 hy (by norm_num)
    (le_trans (zpow_le_zpow_right₀ (by norm_num) (by norm_num)) bot) (top.trans (zpow_le_zpow_right₀ (by norm_num) (by norm_num)))
  obtain ⟨r, hr, r0, -⟩ := Ieee.between acc.1 acc.2
  refine ⟨r, hr, ?_⟩
  calc (2 : ℝ) ^ (-69 : ℤ) ≤ 2 ^ (-67 : ℤ) / 2 := by norm_num
    _ ≤ 10 ^ y / 2 := by gcongr
    _ ≤ r := r0

theorem lin_pos' {d : α} (h : Within200 d) : ∃ r : ℝ, val (lin d) = .fin r ∧ 0 < r := by
  obtain ⟨r, hr, r0⟩ := lin_low h
  exact ⟨r, hr, lt_of_lt_of_le (by positivity) r0⟩

theorem zdpDb_ne_nan {d z : α} (hd : Within200 d) (hz : Within200 z) : val (zdpDb d z) ≠ .nan := by
  obtain ⟨x, hx, -⟩ := lin_pos' hd
  obtain ⟨y, hy, y0⟩ := lin_pos' hz
  have hdiff : val (lin d - lin d / lin z) ≠ .nan :=
    sub_ne_nan hx (div_ne_nan (by rw [hx]; simp) hy y0.ne')
  unfold zdpDb
  refine mul_ne_nan val10 (by norm_num) (val_log10 _ ?_)
  split_ifs with h
  · rw [Ieee.vsci]
    exact Ieee.rnd_ge Ieee.simple_zero (by rw [Ieee.le_fin]; norm_num)
  · have hv : XR.le (val (lin d - lin d / lin z)) (.fin 0) = false := by
      have := val_le (lin d - lin d / lin z) (0 : α)
      rw [Ieee.vzero] at this
      rw [← this]; simpa using h
    revert hdiff hv
    cases val (lin d - lin d / lin z) <;> simp [XR.le]
    exact fun h => h.le

theorem dzrain_ne_nan {fa fb d z : α} (hfa : ∃ r : ℝ, val fa = .fin r ∧ r ≠ 0) (hfb : ∃ r : ℝ, val fb = .fin r) (hd : Within200 d)
    (hz : Within200 z) : val (10 * log10 (zRain fa fb d z)) ≠ .nan := by
  obtain ⟨a, ha, a0⟩ := hfa
  obtain ⟨b, hb⟩ := hfb
  refine mul_ne_nan val10 (by norm_num) (val_log10 _ (ten_pow_nonneg ?_))
  exact div_ne_nan (add_ne_nan (mul_ne_nan ha a0 (zdpDb_ne_nan hd hz)) hb) val10 (by norm_num)

/-! ## Rates -/

/-- `a * x**b` -/
theorem power_law {a b x : α} {i : ℤ} (ha : Upto 20 (val a)) (hb : Upto 0 (val b)) (hx : Upto i (val x)) (h0 : 0 ≤ i) (hi : i ≤ 70) :
    Upto (20 + (i + 1)) (val (a * x ^ b)) :=
  ha.mul (hx.pow hb h0 (by omega)) (by rw [abs_le]; omega)

/-- `a * x**b * 10**(c*z)` with `c ≤ 0 ≤ z` -/
theorem power_law_zdr {a b c x z : α} {i : ℤ} (ha : Upto 20 (val a)) (hb : Upto 0 (val b)) (hx : Upto i (val x)) (h0 : 0 ≤ i) (hi : i ≤ 70)
    (hc : ∃ r : ℝ, val c = .fin r ∧ r ≤ 0) (hz : ∃ r : ℝ, val z = .fin r ∧ 0 ≤ r) :
    Upto (20 + (i + 1) + 0) (val (a * x ^ b * 10 ^ (c * z))) := by
  refine (power_law ha hb hx h0 hi).mul (ten_pow_small ?_) (by rw [abs_le]; omega)
  obtain ⟨r, hr, r0⟩ := hc
  obtain ⟨y, hy, y0⟩ := hz
  rw [Ieee.vmul, hr, hy, XR.fmul]
  exact Ieee.rnd_le Ieee.simple_zero (by rw [Ieee.le_fin]; exact mul_nonpos_of_nonpos_of_nonneg r0 y0)

/-- Kdp at or above a nonnegative threshold, and not above `2^60` -/
theorem kdp_upto {t k : α} (ht : ∃ r : ℝ, val t = .fin r ∧ 0 ≤ r) (hk : XR.lt (.fin (2 ^ 60)) (val k) = false) (h : (t <=. k) = true) :
    Upto 60 (val k) := by
  obtain ⟨r, hr, r0⟩ := ht
  rw [show (t <=. k) = XR.le (val t) (val k) from val_le t k, hr] at h
  revert hk h
  cases val k with
  | nan => simp [XR.le]
  | ninf => simp [XR.le]
  | pinf => simp [XR.lt]
  | fin y =>
    intro h1 h2
    rw [Ieee.le_fin] at h2
    simp only [XR.lt, decide_eq_false_iff_not, not_lt] at h1
    refine Upto.fin (r0.trans h2) (h1.trans (le_of_eq (by norm_num)))

/-- Zdr at or above a nonnegative threshold -/
theorem zdr_nonneg {t z : α} (ht : ∃ r : ℝ, val t = .fin r ∧ 0 ≤ r) (hz : Within200 z) (h : (t <=. z) = true) :
    ∃ r : ℝ, val z = .fin r ∧ 0 ≤ r := by
  obtain ⟨r, hr, r0⟩ := ht
  obtain ⟨y, hy, -⟩ := hz
  rw [show (t <=. z) = XR.le (val t) (val z) from val_le t z, hr, hy, Ieee.le_fin] at h
  exact ⟨y, hy, r0.trans h⟩

end Csu.Rain
