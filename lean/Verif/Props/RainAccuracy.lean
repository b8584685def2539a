import Verif.Props.DsdFloat
import Verif.Props.Rain
import Verif.Props.Rain2
import Verif.Props.RainFloat
/-!
# Property C159: accuracy of the rain rates in floating point

In any precision, with every operation rounded, the rain rates of the power laws stay close to the published formulas in exact arithmetic.
-/
namespace Csu.Rain
open PyFloat IeeeFloat Csu.Dsd
open Csu.RainSpec (lin rZR rZRcap rate methodS hidroMethodS hidroRuleOther SameShape IsRainLine)
variable {α : Type} [IeeeFloat α]

/-- the published rain rates in mm/h, from `x` dBZ, `y` dB and `k` degrees per km: 1 is R(Kdp, Zdr), 2 is R(Kdp), 3 is R(Z, Zdr), 4 is R(Z) with the
reflectivity capped at 53 dBZ -/
noncomputable def published (x y k : ℝ) (m : Int) : ℝ :=
  if m = 1 then 90.8 * k ^ (0.93 : ℝ) * 10 ^ (-0.169 * y)
  else if m = 2 then 40.5 * k ^ (0.85 : ℝ)
  else if m = 3 then 0.0067 * (10 ^ (x / 10)) ^ (0.927 : ℝ) * 10 ^ (-0.343 * y)
  else (10 ^ (min x 53 / 10) / 300) ^ (1 / 1.4 : ℝ)

/-- from logarithms to relative errors -/
theorem lc_near {m : ℝ} {v : XR} {x : ℝ} (h : Lc m v x) (hm : m ≤ 1 / 4) : ∃ r : ℝ, v = .fin r ∧ 0 < r ∧ |r - x| ≤ 2 * m * x := by
  obtain ⟨x0, r, hr, r0, h⟩ := h
  refine ⟨r, hr, r0, ?_⟩
  have m0 : 0 ≤ m := (abs_nonneg _).trans h
  rw [← Real.log_div r0.ne' x0.ne', abs_le] at h
  have q0 := div_pos r0 x0
  have lo := Real.log_le_sub_one_of_pos q0
  have hi := Real.one_sub_inv_le_log_of_pos q0
  rw [inv_div] at hi
  have l1 : (1 - m) * x ≤ r := by
    have : 1 - m ≤ r / x := by linarith [h.1]
    rwa [le_div_iff₀ x0] at this
  have l2 : (1 - m) * r ≤ x := by
    have : 1 - m ≤ x / r := by linarith [h.2]
    rwa [le_div_iff₀ r0] at this
  rw [abs_le]
  constructor <;> nlinarith

theorem _root_.Csu.Dsd.Ap.neg' {m : ℝ} {a : α} {x A : ℝ} (h : Ap m (val a) x |A|) : Ap m (val (-a)) (-x) |-A| := by
  rw [abs_neg]; exact h.neg

/-- a power of something close, with an exponent that is close -/
theorem lc_rpow {m L η : ℝ} {a b : α} {x y t : ℝ} (ha : Lc m (val a) x) (hL : |Real.log x| ≤ L) (ht : val b = .fin t) (hty : |t - y| ≤ η)
    (hy : |y| ≤ 1) (hη : η ≤ 1) {M : ℝ} (hM : (1 + η) * m + η * L ≤ M) (hM' : M ≤ 1 / 2) (h1 : 2 ^ (-77 : ℤ) ≤ x ^ y)
    (h2 : x ^ y ≤ 2 ^ (90 : ℤ)) : Lc (M + 4 * ε) (val (a ^ b)) (x ^ y) := by
  obtain ⟨x0, r, hr, r0, h⟩ := ha
  refine lc_pow x0 r0 hr ht (_root_.le_trans ?_ hM) hM' h1 h2
  have η0 : 0 ≤ η := (abs_nonneg _).trans hty
  have m0 : 0 ≤ m := (abs_nonneg _).trans h
  have ht1 : |t| ≤ 1 + η := by
    calc |t| = |(t - y) + y| := by ring_nf
      _ ≤ |t - y| + |y| := abs_add_le _ _
      _ ≤ _ := by linarith
  calc |t * Real.log r - y * Real.log x| = |t * (Real.log r - Real.log x) + (t - y) * Real.log x| := by ring_nf
    _ ≤ |t * (Real.log r - Real.log x)| + |(t - y) * Real.log x| := abs_add_le _ _
    _ = |t| * |Real.log r - Real.log x| + |t - y| * |Real.log x| := by rw [abs_mul, abs_mul]
    _ ≤ _ := by gcongr

/-- a literal exponent from 0 to 1 -/
theorem exp_lit (k : ℕ) (s : Bool) (e : ℕ) (h0 : 0 ≤ (OfScientific.ofScientific k s e : ℝ)) (h1 : (OfScientific.ofScientific k s e : ℝ) ≤ 1) :
    ∃ t : ℝ, val (OfScientific.ofScientific k s e : α) = .fin t ∧ |t - OfScientific.ofScientific k s e| ≤ 2 * ε := by
  obtain ⟨t, ht, h⟩ := Ieee.rnd_near (α := α) (x := OfScientific.ofScientific k s e) (by rw [abs_of_nonneg h0]; exact h1.trans (by norm_num))
  refine ⟨t, by rw [Ieee.vsci, ht], h.trans ?_⟩
  rw [abs_of_nonneg h0]
  calc (2 : ℝ) ^ (-20 : ℤ) * OfScientific.ofScientific k s e + 2 ^ (-100 : ℤ) ≤ 2 ^ (-20 : ℤ) * 1 + 2 ^ (-100 : ℤ) := by gcongr
    _ ≤ _ := by unfold ε; norm_num

/-- `10 ** (c * z)` -/
theorem ten_cz {c z : α} {q y : ℝ} (hc : Ap 2 (val c) q |q|) (q1 : 2 ^ (-10 : ℤ) ≤ |q|) (q2 : |q| ≤ 0.343) (hz : val z = .fin y) (h1 : -8 ≤ y) (h2 : y ≤ 20) :
    Lc (150 * ε) (val ((10 : α) ^ (c * z))) (10 ^ (q * y)) ∧ (10 : ℝ) ^ (-7 : ℤ) ≤ 10 ^ (q * y) ∧ (10 : ℝ) ^ (q * y) ≤ 10 ^ (7 : ℤ) := by
  have hz' : Ap 2 (val z) y 20 := ⟨by rw [abs_le]; constructor <;> linarith, by norm_num, y, hz, by rw [sub_self, abs_zero]; have := ε_pos; positivity⟩
  obtain ⟨a1, -, t, ht, h⟩ := hc.mul hz' (by
      calc (2 : ℝ) ^ (-40 : ℤ) ≤ 2 ^ (-10 : ℤ) * 20 := by norm_num
        _ ≤ _ := by gcongr)
    (by calc |q| * 20 ≤ 0.343 * 20 := by gcongr
          _ ≤ _ := by norm_num)
  have hp : |q * y| ≤ 7 := a1.trans (by linarith)
  obtain ⟨p1, p2⟩ := abs_le.mp hp
  have b1 : (10 : ℝ) ^ (-7 : ℤ) ≤ 10 ^ (q * y) := by
    rw [← Real.rpow_intCast]
    exact Real.rpow_le_rpow_of_exponent_le (by norm_num) (by push_cast; linarith)
  have b2 : (10 : ℝ) ^ (q * y) ≤ 10 ^ (7 : ℤ) := by
    rw [← Real.rpow_intCast]
    exact Real.rpow_le_rpow_of_exponent_le (by norm_num) (by push_cast; linarith)
  refine ⟨(lc_pow (m := 145 * ε) (by norm_num) (by norm_num) val10 ht ?_ (by unfold ε; norm_num) (_root_.le_trans (by norm_num) b1)
    (b2.trans (by norm_num))).mono (by have := ε_pos; linarith), b1, b2⟩
  rw [← sub_mul, abs_mul, abs_of_nonneg log_ten_nonneg]
  have e0 := ε_pos
  have := log_ten_le
  calc |t - q * y| * Real.log 10 ≤ (7 * ε * (|q| * 20)) * 3 := by gcongr
    _ ≤ (7 * ε * (0.343 * 20)) * 3 := by gcongr
    _ ≤ _ := by linarith

/-- the logarithm of a reflectivity -/
theorem log_lin {x : ℝ} (h1 : -40 ≤ x) (h2 : x ≤ 100) : |Real.log ((10 : ℝ) ^ (x / 10))| ≤ 30 := by
  rw [Real.log_rpow (by norm_num), abs_mul, abs_of_nonneg log_ten_nonneg]
  have := log_ten_le
  have : |x / 10| ≤ 10 := by rw [abs_le]; constructor <;> linarith
  nlinarith [log_ten_nonneg, abs_nonneg (x / 10)]

theorem log_kdp {k : ℝ} (h1 : 1 / 4 ≤ k) (h2 : k ≤ 1000) : |Real.log k| ≤ 10 := by
  have k0 : 0 < k := by linarith
  rw [abs_le]
  constructor
  · have := Real.one_sub_inv_le_log_of_pos k0
    have h3 : k⁻¹ ≤ 4 := by rw [inv_le_comm₀ k0 (by norm_num)]; linarith
    linarith
  · have h3 := Real.log_le_log k0 (h2.trans (show (1000 : ℝ) ≤ 2 ^ 10 by norm_num))
    rw [Real.log_pow] at h3
    have := Real.log_two_lt_d9
    push_cast at h3
    linarith

/-- bounds of a power with exponent from 0 to 1 -/
theorem rpow_le_self' {x y B : ℝ} (hB : 1 ≤ B) (x0 : 0 < x) (y0 : 0 ≤ y) (y1 : y ≤ 1) (h1 : B⁻¹ ≤ x) (h2 : x ≤ B) : B⁻¹ ≤ x ^ y ∧ x ^ y ≤ B := by
  have B0 : 0 < B := by linarith
  constructor
  · calc B⁻¹ = (B⁻¹) ^ (1 : ℝ) := (Real.rpow_one _).symm
      _ ≤ (B⁻¹) ^ y := Real.rpow_le_rpow_of_exponent_ge (by positivity) (inv_le_one_of_one_le₀ hB) y1
      _ ≤ x ^ y := Real.rpow_le_rpow (by positivity) h1 y0
  · calc x ^ y ≤ B ^ y := Real.rpow_le_rpow x0.le h2 y0
      _ ≤ B ^ (1 : ℝ) := Real.rpow_le_rpow_of_exponent_le hB y1
      _ = B := Real.rpow_one _

/-- `k ** b` -/
theorem kdp_pow {k b : α} {x y t : ℝ} (hk : val k = .fin x) (h1 : 1 / 4 ≤ x) (h2 : x ≤ 1000) (hb : val b = .fin t) (ht : |t - y| ≤ 2 * ε) (y0 : 0 ≤ y)
    (y1 : y ≤ 1) : Lc (25 * ε) (val (k ^ b)) (x ^ y) ∧ (1000 : ℝ)⁻¹ ≤ x ^ y ∧ x ^ y ≤ 1000 := by
  have x0 : 0 < x := by linarith
  obtain ⟨b1, b2⟩ := rpow_le_self' (B := 1000) (by norm_num) x0 y0 y1 (_root_.le_trans (by norm_num) h1) h2
  have hl : Lc 0 (val k) x := ⟨x0, x, hk, x0, by simp⟩
  refine ⟨(lc_rpow hl (M := 20 * ε) (log_kdp h1 h2) hb ht (by rw [abs_of_nonneg y0]; exact y1) (by unfold ε; norm_num) (by linarith)
    (by unfold ε; norm_num) (_root_.le_trans (by norm_num) b1) (b2.trans (by norm_num))).mono (by have := ε_pos; linarith), b1, b2⟩

theorem lc_nat (n : ℕ) [n.AtLeastTwo] (h : |(n : ℤ)| ≤ 2 ^ 24) : Lc 0 (val (OfNat.ofNat n : α)) (n : ℝ) := by
  have n0 : (0 : ℝ) < n := by have := Nat.AtLeastTwo.prop (n := n); exact_mod_cast (by omega : 0 < n)
  exact ⟨n0, n, val_lit_nat n h, n0, by simp⟩

/-! ## The four rates -/

theorem rate1 {z k : α} {y kk : ℝ} (hz : val z = .fin y) (h1 : -8 ≤ y) (h2 : y ≤ 20) (hk : val k = .fin kk) (k1 : 1 / 4 ≤ kk) (k2 : kk ≤ 1000) :
    Lc 0.0005 (val (90.8 * k ^ (0.93 : α) * (10 : α) ^ (-0.169 * z))) (90.8 * kk ^ (0.93 : ℝ) * 10 ^ (-0.169 * y)) := by
  obtain ⟨t, ht, ht'⟩ := exp_lit (α := α) 93 true 2 (by norm_num) (by norm_num)
  obtain ⟨p, p1, p2⟩ := kdp_pow hk k1 k2 ht ht' (by norm_num) (by norm_num)
  obtain ⟨w, w1, w2⟩ := ten_cz (ap_sci (α := α) 169 true 3 (by norm_num) (by norm_num)).neg' (by norm_num) (by norm_num) hz h1 h2
  have u := (lc_sci (α := α) 908 true 1 (by norm_num) (by norm_num) (by norm_num)).mul p (by unfold ε; norm_num)
    (by calc (2 : ℝ) ^ (-77 : ℤ) ≤ 90.8 * (1000 : ℝ)⁻¹ := by norm_num
          _ ≤ _ := by gcongr)
    (by calc (90.8 : ℝ) * kk ^ (0.93 : ℝ) ≤ 90.8 * 1000 := by gcongr
          _ ≤ _ := by norm_num)
  have lo : (90.8 : ℝ) * (1000 : ℝ)⁻¹ ≤ 90.8 * kk ^ (0.93 : ℝ) := by gcongr
  have hi : (90.8 : ℝ) * kk ^ (0.93 : ℝ) ≤ 90.8 * 1000 := by gcongr
  have u0 := u.1
  exact (u.mul w (by unfold ε; norm_num)
    (by calc (2 : ℝ) ^ (-77 : ℤ) ≤ (90.8 * (1000 : ℝ)⁻¹) * 10 ^ (-7 : ℤ) := by norm_num
          _ ≤ _ := by gcongr)
    (by calc ((90.8 : ℝ) * kk ^ (0.93 : ℝ)) * 10 ^ (-0.169 * y) ≤ (90.8 * 1000) * 10 ^ (7 : ℤ) := by gcongr
          _ ≤ _ := by norm_num)).mono (by unfold ε; norm_num)

theorem rate2 {k : α} {kk : ℝ} (hk : val k = .fin kk) (k1 : 1 / 4 ≤ kk) (k2 : kk ≤ 1000) :
    Lc 0.0005 (val (40.5 * k ^ (0.85 : α))) (40.5 * kk ^ (0.85 : ℝ)) := by
  obtain ⟨t, ht, ht'⟩ := exp_lit (α := α) 85 true 2 (by norm_num) (by norm_num)
  obtain ⟨p, p1, p2⟩ := kdp_pow hk k1 k2 ht ht' (by norm_num) (by norm_num)
  exact ((lc_sci (α := α) 405 true 1 (by norm_num) (by norm_num) (by norm_num)).mul p (by unfold ε; norm_num)
    (by calc (2 : ℝ) ^ (-77 : ℤ) ≤ 40.5 * (1000 : ℝ)⁻¹ := by norm_num
          _ ≤ _ := by gcongr)
    (by calc (40.5 : ℝ) * kk ^ (0.85 : ℝ) ≤ 40.5 * 1000 := by gcongr
          _ ≤ _ := by norm_num)).mono (by unfold ε; norm_num)

theorem rate3 {d z : α} {x y : ℝ} (hd : val d = .fin x) (x1 : -40 ≤ x) (x2 : x ≤ 100) (hz : val z = .fin y) (h1 : -8 ≤ y) (h2 : y ≤ 20) :
    Lc 0.0005 (val (0.0067 * lin d ^ (0.927 : α) * (10 : α) ^ (-0.343 * z))) (0.0067 * (10 ^ (x / 10)) ^ (0.927 : ℝ) * 10 ^ (-0.343 * y)) := by
  obtain ⟨t, ht, ht'⟩ := exp_lit (α := α) 927 true 3 (by norm_num) (by norm_num)
  obtain ⟨l, l1, l2⟩ := lin_lc hd x1 x2
  have l0 := l.1
  obtain ⟨b1, b2⟩ := rpow_le_self' (y := (0.927 : ℝ)) (B := 10 ^ (10 : ℕ)) (by norm_num) l0 (by norm_num) (by norm_num)
    (_root_.le_trans (by norm_num) l1) l2
  have p := lc_rpow (M := 320 * ε) l (log_lin x1 x2) ht ht' (by norm_num) (by unfold ε; norm_num) (by unfold ε; norm_num) (by unfold ε; norm_num)
    (_root_.le_trans (by norm_num) b1) (b2.trans (by norm_num))
  obtain ⟨w, w1, w2⟩ := ten_cz (ap_sci (α := α) 343 true 3 (by norm_num) (by norm_num)).neg' (by norm_num) (by norm_num) hz h1 h2
  have lo : (0.0067 : ℝ) * ((10 : ℝ) ^ (10 : ℕ))⁻¹ ≤ 0.0067 * (10 ^ (x / 10)) ^ (0.927 : ℝ) := by gcongr
  have hi : (0.0067 : ℝ) * (10 ^ (x / 10)) ^ (0.927 : ℝ) ≤ 0.0067 * 10 ^ (10 : ℕ) := by gcongr
  have u := (lc_sci (α := α) 67 true 4 (by norm_num) (by norm_num) (by norm_num)).mul p (by unfold ε; norm_num)
    (_root_.le_trans (by norm_num) lo) (hi.trans (by norm_num))
  have u0 := u.1
  exact (u.mul w (by unfold ε; norm_num)
    (by calc (2 : ℝ) ^ (-77 : ℤ) ≤ (0.0067 * ((10 : ℝ) ^ (10 : ℕ))⁻¹) * 10 ^ (-7 : ℤ) := by norm_num
          _ ≤ _ := by gcongr)
    (by calc ((0.0067 : ℝ) * (10 ^ (x / 10)) ^ (0.927 : ℝ)) * 10 ^ (-0.343 * y) ≤ (0.0067 * 10 ^ (10 : ℕ)) * 10 ^ (7 : ℤ) := by gcongr
          _ ≤ _ := by norm_num)).mono (by unfold ε; norm_num)

theorem rZR_lc {d : α} {x : ℝ} (hd : val d = .fin x) (x1 : -40 ≤ x) (x2 : x ≤ 100) :
    Lc 0.0005 (val (rZR (300 : α) 1.4 d)) ((10 ^ (x / 10) / 300) ^ (1 / 1.4 : ℝ)) := by
  obtain ⟨l, l1, l2⟩ := lin_lc hd x1 x2
  have l0 := l.1
  have q := l.div (lc_nat (α := α) 300 (by norm_num)) (by unfold ε; norm_num)
    (by rw [le_div_iff₀ (by norm_num)]; exact _root_.le_trans (by norm_num) l1)
    (by rw [div_le_iff₀ (by norm_num)]; exact l2.trans (by norm_num))
  have one : Lc 0 (val (1 : α)) 1 := ⟨by norm_num, 1, Ieee.vone, by norm_num, by simp⟩
  have e := one.div (lc_sci (α := α) 14 true 1 (by norm_num) (by norm_num) (by norm_num)) (by unfold ε; norm_num) (by norm_num) (by norm_num)
  obtain ⟨t, ht, -, ht'⟩ := lc_near e (by unfold ε; norm_num)
  have hq : |Real.log (10 ^ (x / 10) / 300)| ≤ 30 := by
    rw [Real.log_div l0.ne' (by norm_num)]
    have a := abs_le.mp (log_lin x1 x2)
    have b : 0 ≤ Real.log 300 := Real.log_nonneg (by norm_num)
    have c : Real.log 300 ≤ 10 := by
      have h := Real.log_le_log (show (0 : ℝ) < 300 by norm_num) (show (300 : ℝ) ≤ 2 ^ 10 by norm_num)
      rw [Real.log_pow] at h
      have := Real.log_two_lt_d9
      push_cast at h
      linarith
    have f : -12 ≤ Real.log ((10 : ℝ) ^ (x / 10)) := by
      rw [Real.log_rpow (by norm_num)]
      have := log_ten_le
      have := log_ten_nonneg
      nlinarith
    rw [abs_le]; constructor <;> linarith [a.1, a.2]
  have lo : ((10 : ℝ) ^ (10 : ℕ))⁻¹ ≤ 10 ^ (x / 10) / 300 := by
    rw [le_div_iff₀ (by norm_num)]; exact _root_.le_trans (by norm_num) l1
  have hi : (10 : ℝ) ^ (x / 10) / 300 ≤ 10 ^ (10 : ℕ) := by
    rw [div_le_iff₀ (by norm_num)]; exact l2.trans (by norm_num)
  obtain ⟨b1, b2⟩ := rpow_le_self' (y := (1 / 1.4 : ℝ)) (B := 10 ^ (10 : ℕ)) (by norm_num) (by positivity) (by norm_num) (by norm_num) lo hi
  have e0 := ε_pos
  have ht2 : |t - 1 / 1.4| ≤ 12 * ε := ht'.trans (by
    have : (1 / 1.4 : ℝ) ≤ 0.75 := by norm_num
    calc 2 * (0 + 4 * ε + 4 * ε) * (1 / 1.4) ≤ 2 * (0 + 4 * ε + 4 * ε) * 0.75 := by gcongr
      _ = _ := by ring)
  exact (lc_rpow (η := 12 * ε) (M := 420 * ε) q hq ht ht2 (by norm_num [abs_of_pos]) (by unfold ε; norm_num) (by unfold ε; norm_num)
    (by unfold ε; norm_num) (_root_.le_trans (by norm_num) b1) (b2.trans (by norm_num))).mono (by unfold ε; norm_num)

theorem rZRcap_lc {cap d : α} {x : ℝ} (hc : val cap = .fin 53) (hd : val d = .fin x) (x1 : -40 ≤ x) (x2 : x ≤ 100) :
    Lc 0.0005 (val (rZRcap cap (300 : α) 1.4 d)) ((10 ^ (min x 53 / 10) / 300) ^ (1 / 1.4 : ℝ)) := by
  unfold rZRcap
  by_cases h : (cap <. d) = true
  · rw [if_pos h]
    rw [val_lt, hc, hd] at h
    have h : (53 : ℝ) < x := by simpa [XR.lt] using h
    rw [min_eq_right h.le]
    exact rZR_lc hc (by norm_num) (by norm_num)
  · rw [if_neg h]
    rw [val_lt, hc, hd] at h
    have h : x ≤ (53 : ℝ) := by simpa [XR.lt] using h
    rw [min_eq_left h]
    exact rZR_lc hd x1 x2

/-- a specific differential phase that reaches the threshold is at least a quarter of a degree per km -/
theorem kdp_ge {k : α} {kk : ℝ} (hk : val k = .fin kk) (h : ((0.3 : α) <=. k) = true) : 1 / 4 ≤ kk := by
  rw [val_le, hk] at h
  obtain ⟨t, ht, h1, h2⟩ := fin_sci (α := α) 3 true 1 (a := 1 / 4) (b := 1)
    (by have := Ieee.simple_two_zpow (k := -2) (by norm_num); convert this using 1; norm_num) Ieee.simple_one (by norm_num) (by norm_num)
  rw [ht] at h
  have h : t ≤ kk := by simpa [XR.le] using h
  linarith

/-- the rate of the methods 1 to 4 with the default coefficients -/
theorem rate_lc {cap fa fb d z k : α} {x y kk : ℝ} (hc : val cap = .fin 53) (hd : val d = .fin x) (x1 : -40 ≤ x) (x2 : x ≤ 100)
    (hz : val z = .fin y) (y1 : -8 ≤ y) (y2 : y ≤ 20) (hk : val k = .fin kk) (k2 : kk ≤ 1000) (m : Int)
    (hm : m = 1 ∨ m = 2 ∨ m = 3 ∨ m = 4) (hmk : m = 1 ∨ m = 2 → ((0.3 : α) <=. k) = true) :
    Lc 0.0005 (val (rate (Params.default : Params α) cap fa fb d z k m)) (published x y kk m) := by
  rcases hm with rfl | rfl | rfl | rfl
  · exact rate1 hz y1 y2 hk (kdp_ge hk (hmk (.inl rfl))) k2
  · exact rate2 hk (kdp_ge hk (hmk (.inr rfl))) k2
  · exact rate3 hd x1 x2 hz y1 y2
  · exact rZRcap_lc hc hd x1 x2

/-- `v` is finite, positive and within 0.1 % of `x` -/
def Accurate (v : α) (x : ℝ) : Prop := ∃ q : ℝ, val v = .fin q ∧ 0 < q ∧ |q - x| ≤ x / 1000

theorem accurate_of {v : α} {x : ℝ} (h : Lc 0.0005 (val v) x) : Accurate v x := by
  obtain ⟨q, hq, q0, h⟩ := lc_near h (by norm_num)
  exact ⟨q, hq, q0, h.trans (by norm_num; linarith)⟩

/-- a gate with finite reflectivity `x` dBZ, differential reflectivity `y` dB and specific differential phase `kk` degrees per km, in the range of
weather radar data -/
structure Weather (d z k : α) (x y kk : ℝ) : Prop where
  dz : val d = .fin x
  dz_lo : -40 ≤ x
  dz_hi : x ≤ 100
  zdr : val z = .fin y
  zdr_lo : -8 ≤ y
  zdr_hi : y ≤ 20
  kdp : val k = .fin kk
  kdp_hi : kk ≤ 1000

theorem v53 : val (53 : α) = .fin 53 := Ieee.voflit 53 (by norm_num)

/-- **C159**, S band: wherever `calc_blended_rain` with its default coefficients reports one of the methods 1 to 4, its rate is finite, positive and within
0.1 % of the published formula of that method. -/
theorem C159_blended_S (d z k : NdArray α) (hs : SameShape d z k) (hdt : d.dtype = .float) :
    ∃ r m, calcBlendedRain (Params.default : Params α) "S" false (some (.arr d)) (some (.arr z)) (some (.arr k)) = .ok (some (.arr r m none)) ∧
      r.shape = d.shape ∧ m.shape = d.shape ∧
      ∀ (i : Nat) (dv zv kv : α) (x y kk : ℝ), d.data[i]? = some dv → z.data[i]? = some zv → k.data[i]? = some kv → Weather dv zv kv x y kk →
        ∃ rv mv, r.data[i]? = some rv ∧ m.data[i]? = some mv ∧ mv ∈ ([1, 2, 3, 4, 5] : List Int) ∧ (mv ≠ 5 → Accurate rv (published x y kk mv)) := by
  obtain ⟨r, m, e1, e2, e3, -, -, e6⟩ := C38_blended_S_exact (Params.default : Params α) 0.9091 8.5091 (.inr (.inr (.inl ⟨rfl, rfl, rfl, rfl⟩))) d z k hs
  refine ⟨r, m, e1, e2, e3, ?_⟩
  intro i dv zv kv x y kk h1 h2 h3 w
  have hr := C38_method_range (Params.default : Params α) 0.9091 8.5091 dv zv kv
  obtain ⟨g1, g2⟩ := e6 i _ _ _ h1 h2 h3
  rw [hdt] at g2
  refine ⟨_, _, g2, g1, hr, fun h5 => accurate_of ?_⟩
  refine rate_lc v53 w.dz w.dz_lo w.dz_hi w.zdr w.zdr_lo w.zdr_hi w.kdp w.kdp_hi _ ?_ ?_
  · simp only [List.mem_cons, List.not_mem_nil, or_false] at hr
    tauto
  · simp only [methodS]
    split_ifs with g1 g2 g3 g4 g5 <;> intro h <;> first | omega | (rw [Bool.and_eq_true] at *; simp_all [Params.default])

/-- **C159**, other bands: every rate of `calc_blended_rain` is finite, positive and within 0.1 % of the published formula of the reported method. -/
theorem C159_blended_other (band : String) (hb : band ≠ "S") (ice : Bool) (d z k : NdArray α) (hs : SameShape d z k) (hdt : d.dtype = .float) :
    ∃ r m, calcBlendedRain (Params.default : Params α) band ice (some (.arr d)) (some (.arr z)) (some (.arr k)) = .ok (some (.arr r m none)) ∧
      r.shape = d.shape ∧ m.shape = d.shape ∧
      ∀ (i : Nat) (dv zv kv : α) (x y kk : ℝ), d.data[i]? = some dv → z.data[i]? = some zv → k.data[i]? = some kv → Weather dv zv kv x y kk →
        ∃ rv mv, r.data[i]? = some rv ∧ m.data[i]? = some mv ∧ (mv = 2 ∨ mv = 4) ∧ Accurate rv (published x y kk mv) := by
  obtain ⟨r, m, e1, e2, e3, -, -, e6⟩ := C39_blended_other_exact (Params.default : Params α) band hb ice d z k hs
  refine ⟨r, m, e1, e2, e3, ?_⟩
  intro i dv zv kv x y kk h1 h2 h3 w
  obtain ⟨g1, g2⟩ := e6 i _ _ h1 h3
  rw [hdt] at g2
  refine ⟨_, _, g2, g1, ?_, accurate_of ?_⟩
  · split_ifs <;> simp
  · simp only [Common.store]
    split_ifs with h
    · rw [Bool.and_eq_true] at h
      exact rate_lc (cap := (53 : α)) (fa := (0 : α)) (fb := (0 : α)) v53 w.dz w.dz_lo w.dz_hi w.zdr w.zdr_lo w.zdr_hi w.kdp w.kdp_hi 2 (by simp) (fun _ => h.2)
    · exact rate_lc (cap := (53 : α)) (fa := (0 : α)) (fb := (0 : α)) v53 w.dz w.dz_lo w.dz_hi w.zdr w.zdr_lo w.zdr_hi w.kdp w.kdp_hi 4 (by simp) (by simp)

/-- **C159**, with hydrometeor classes at S band: method 0 gives no rain, the methods 1 to 4 a rate within 0.1 % of their published formula. -/
theorem C159_hidro_S (d z k : NdArray α) (c : NdArray Int) (hs : SameShape d z k) (hc : c.WF) (hcs : d.shape = c.shape) (hdt : d.dtype = .float) :
    ∃ r m, csuHidroRain (Params.default : Params α) "S" (some (.arr d)) (some (.arr z)) (some (.arr k)) (some (.arr c)) = .ok (some (.arr r m none)) ∧
      r.shape = d.shape ∧ m.shape = d.shape ∧
      ∀ (i : Nat) (dv zv kv : α) (cv : Int) (x y kk : ℝ), d.data[i]? = some dv → z.data[i]? = some zv → k.data[i]? = some kv → c.data[i]? = some cv →
        Weather dv zv kv x y kk → ∃ rv mv, r.data[i]? = some rv ∧ m.data[i]? = some mv ∧ mv ∈ ([0, 1, 2, 3, 4] : List Int) ∧
          (mv = 0 → rv = 0) ∧ (mv ≠ 0 → Accurate rv (published x y kk mv)) := by
  obtain ⟨r, m, e1, e2, e3, -, -, e6⟩ := C44_hidro_S_exact (Params.default : Params α) d z k c hs hc hcs 0 0
  refine ⟨r, m, e1, e2, e3, ?_⟩
  intro i dv zv kv cv x y kk h1 h2 h3 h4 w
  obtain ⟨g1, g2, g3⟩ := e6 i _ _ _ _ h1 h2 h3 h4
  have hr : hidroMethodS (Params.default : Params α) dv zv kv cv ∈ ([0, 1, 2, 3, 4] : List Int) := by
    simp only [hidroMethodS]; split_ifs <;> simp
  by_cases h0 : hidroMethodS (Params.default : Params α) dv zv kv cv = 0
  · exact ⟨_, _, g2 h0, g1, hr, fun _ => rfl, fun h => absurd h0 h⟩
  have g3 := g3 h0
  rw [hdt] at g3
  refine ⟨_, _, g3, g1, hr, fun h => absurd h h0, fun _ => accurate_of ?_⟩
  refine rate_lc v53 w.dz w.dz_lo w.dz_hi w.zdr w.zdr_lo w.zdr_hi w.kdp w.kdp_hi _ ?_ ?_
  · simp only [List.mem_cons, List.not_mem_nil, or_false] at hr
    tauto
  · simp only [hidroMethodS]
    split_ifs with g1 g2 g3 g4 g5 <;> intro h <;> first | omega | (simp only [Bool.and_eq_true] at *; simp_all [Params.default])

/-- **C159**, with hydrometeor classes at other bands: the rate is 0 or within 0.1 % of the published formula of the reported method. -/
theorem C159_hidro_other (band : String) (hb : band ≠ "S") (d z k : NdArray α) (c : NdArray Int) (hs : SameShape d z k) (hc : c.WF)
    (hcs : d.shape = c.shape) (hdt : d.dtype = .float) :
    ∃ r m, csuHidroRain (Params.default : Params α) band (some (.arr d)) (some (.arr z)) (some (.arr k)) (some (.arr c)) = .ok (some (.arr r m none)) ∧
      r.shape = d.shape ∧ m.shape = d.shape ∧
      ∀ (i : Nat) (dv zv kv : α) (cv : Int) (x y kk : ℝ), d.data[i]? = some dv → z.data[i]? = some zv → k.data[i]? = some kv → c.data[i]? = some cv →
        Weather dv zv kv x y kk → ∃ rv mv, r.data[i]? = some rv ∧ m.data[i]? = some mv ∧ (mv = 2 ∨ mv = 4) ∧
          ((cv = 1 ∨ cv = 2 ∨ cv = 10) ∨ mv = 2) ∧ (rv = 0 ∨ Accurate rv (published x y kk mv)) ∧
          ((cv = 1 ∨ cv = 2 ∨ cv = 10) → Accurate rv (published x y kk mv)) := by
  obtain ⟨r, m, e1, e2, e3, -, -, e6⟩ := C44_hidro_other_exact (Params.default : Params α) band hb d z k c hs hc hcs 0 0
  refine ⟨r, m, e1, e2, e3, ?_⟩
  intro i dv zv kv cv x y kk h1 h2 h3 h4 w
  obtain ⟨g1, g2, g3, g4⟩ := e6 i _ _ _ h1 h3 h4
  rw [hdt] at g2 g3
  by_cases h : ((Params.default : Params α).threshDz <=. dv && ((Params.default : Params α).threshKdp <=. kv)) = true
  · have e : hidroRuleOther (Params.default : Params α) dv kv cv = 2 := by simp only [hidroRuleOther, if_pos h]
    rw [e] at g1
    rw [Bool.and_eq_true] at h
    have a : Accurate ((Params.default : Params α).rKdpA * kv ^ (Params.default : Params α).rKdpB) (published x y kk 2) :=
      accurate_of (rate_lc (cap := (53 : α)) (fa := (0 : α)) (fb := (0 : α)) v53 w.dz w.dz_lo w.dz_hi w.zdr w.zdr_lo w.zdr_hi w.kdp w.kdp_hi 2
        (by simp) (fun _ => h.2))
    exact ⟨_, _, g2 e, g1, .inl rfl, .inr rfl, .inr a, fun _ => a⟩
  · by_cases hcv : cv = 1 ∨ cv = 2 ∨ cv = 10
    · have e : hidroRuleOther (Params.default : Params α) dv kv cv = 4 := by simp only [hidroRuleOther, if_neg h, if_pos hcv]
      rw [e] at g1
      have a : Accurate (rZRcap (53 : α) (Params.default : Params α).rZA (Params.default : Params α).rZB dv) (published x y kk 4) :=
        accurate_of (rate_lc (cap := (53 : α)) (fa := (0 : α)) (fb := (0 : α)) (z := zv) (k := kv) v53 w.dz w.dz_lo w.dz_hi w.zdr w.zdr_lo w.zdr_hi w.kdp
          w.kdp_hi 4 (by simp) (by simp))
      exact ⟨_, _, g3 e, g1, .inr rfl, .inl hcv, .inr a, fun _ => a⟩
    · have e : hidroRuleOther (Params.default : Params α) dv kv cv = 0 := by simp only [hidroRuleOther, if_neg h, if_neg hcv]
      rw [e] at g1
      exact ⟨_, _, g4 e, g1, .inl rfl, .inr rfl, .inl rfl, fun h => absurd h hcv⟩

/-- The hypotheses are met in single precision: a gate of 45 dBZ, 1 dB and 2 degrees per km, beside a NaN gate. -/
example : SameShape (⟨.float, [2], [45, nan]⟩ : NdArray Binary32) (⟨.float, [2], [1, nan]⟩ : NdArray Binary32)
    (⟨.float, [2], [2, 0]⟩ : NdArray Binary32) ∧ Weather (45 : Binary32) 1 2 45 1 2 ∧ published 45 1 1 2 = 40.5 := by
  refine ⟨⟨rfl, rfl, rfl, rfl, rfl⟩, ⟨Ieee.voflit 45 (by norm_num), by norm_num, by norm_num, Ieee.vone, by norm_num, by norm_num,
    Ieee.voflit 2 (by norm_num), by norm_num⟩, ?_⟩
  norm_num [published]

end Csu.Rain
