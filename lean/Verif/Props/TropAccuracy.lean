import Verif.Props.RainAccuracy
/-!
# Property C160: accuracy of the tropical rain rates in floating point

In any precision, with every operation rounded, the tropical rain rates with the published coefficients (`predef='True'`) stay close to the published
relations in exact arithmetic.
-/
namespace Csu.Rain
open PyFloat IeeeFloat Csu.Dsd
open Csu.RainSpec (lin rZR tropMethod tropRate SameShape)
variable {α : Type} [IeeeFloat α]

/-- the published tropical rain rates in mm/h, from `x` dBZ, `y` dB and `k` degrees per km (`Published` is the paper's table of coefficients) -/
noncomputable def tropPublished (T : Published) (x y k : ℝ) (m : Int) : ℝ :=
  if m = 1 then rl T.kdpZdr.1 * k ^ rl T.kdpZdr.2.1 * (10 ^ (y / 10)) ^ rl T.kdpZdr.2.2
  else if m = 2 then rl T.kdp.1 * k ^ rl T.kdp.2
  else if m = 3 then rl T.zZdr.1 * (10 ^ (x / 10)) ^ rl T.zZdr.2.1 * (10 ^ (y / 10)) ^ rl T.zZdr.2.2
  else if m = 4 then (10 ^ (x / 10) / 216) ^ (1 / 1.39 : ℝ)
  else if m = 5 then (10 ^ (x / 10) / 126) ^ (1 / 1.39 : ℝ)
  else (10 ^ (x / 10) / 291) ^ (1 / 1.55 : ℝ)

/-- a number close to a real -/
def Nr (a : α) (q : ℝ) : Prop := ∃ s : ℝ, val a = .fin s ∧ |s - q| ≤ 2 * ε

/-- `10 ** (c * z)` -/
theorem ten_nr {c z : α} {q y : ℝ} (hc : Nr c q) (hq : |q| ≤ 0.55) (hz : val z = .fin y) (h1 : -8 ≤ y) (h2 : y ≤ 20) :
    Lc (230 * ε) (val ((10 : α) ^ (c * z))) (10 ^ (q * y)) ∧ (10 : ℝ) ^ (-11 : ℤ) ≤ 10 ^ (q * y) ∧ (10 : ℝ) ^ (q * y) ≤ 10 ^ (11 : ℤ) := by
  obtain ⟨s, hs, hsq⟩ := hc
  have e0 := ε_pos
  have e1 : ε ≤ 1 / 100 := by unfold ε; norm_num
  have hy : |y| ≤ 20 := by rw [abs_le]; constructor <;> linarith
  have hs' : |s| ≤ 0.6 := by
    calc |s| = |(s - q) + q| := by ring_nf
      _ ≤ |s - q| + |q| := abs_add_le _ _
      _ ≤ _ := by linarith
  have hsy : |s * y| ≤ 12 := by
    rw [abs_mul]
    calc |s| * |y| ≤ 0.6 * 20 := by gcongr
      _ ≤ _ := by norm_num
  obtain ⟨t, ht, h⟩ := Ieee.rnd_near (α := α) (x := s * y) (hsy.trans (by norm_num))
  have hv : val (c * z) = .fin t := by rw [Ieee.vmul, hs, hz, XR.fmul, ht]
  have ht1 : |t - s * y| ≤ 13 * ε := h.trans (by
    calc (2 : ℝ) ^ (-20 : ℤ) * |s * y| + 2 ^ (-100 : ℤ) ≤ 2 ^ (-20 : ℤ) * 12 + 2 ^ (-100 : ℤ) := by gcongr
      _ ≤ _ := by unfold ε; norm_num)
  have ht2 : |t - q * y| ≤ 53 * ε := by
    calc |t - q * y| = |(t - s * y) + (s - q) * y| := by ring_nf
      _ ≤ |t - s * y| + |(s - q) * y| := abs_add_le _ _
      _ = |t - s * y| + |s - q| * |y| := by rw [abs_mul]
      _ ≤ 13 * ε + 2 * ε * 20 := by gcongr
      _ = _ := by ring
  have hp : |q * y| ≤ 11 := by
    rw [abs_mul]
    calc |q| * |y| ≤ 0.55 * 20 := by gcongr
      _ ≤ _ := by norm_num
  obtain ⟨p1, p2⟩ := abs_le.mp hp
  have b1 : (10 : ℝ) ^ (-11 : ℤ) ≤ 10 ^ (q * y) := by
    rw [← Real.rpow_intCast]
    exact Real.rpow_le_rpow_of_exponent_le (by norm_num) (by push_cast; linarith)
  have b2 : (10 : ℝ) ^ (q * y) ≤ 10 ^ (11 : ℤ) := by
    rw [← Real.rpow_intCast]
    exact Real.rpow_le_rpow_of_exponent_le (by norm_num) (by push_cast; linarith)
  refine ⟨(lc_pow (m := 159 * ε) (by norm_num) (by norm_num) val10 hv ?_ (by unfold ε; norm_num) (_root_.le_trans (by norm_num) b1)
    (b2.trans (by norm_num))).mono (by linarith), b1, b2⟩
  rw [← sub_mul, abs_mul, abs_of_nonneg log_ten_nonneg]
  have := log_ten_le
  calc |t - q * y| * Real.log 10 ≤ (53 * ε) * 3 := by gcongr
    _ = _ := by ring

theorem gen1 {A b c z k : α} {A' b' q y kk : ℝ} (hA : Lc (4 * ε) (val A) A') (A1 : 1 ≤ A') (A2 : A' ≤ 100) (hb : Nr b b') (b0 : 0 ≤ b') (b1 : b' ≤ 1)
    (hc : Nr c q) (hq : |q| ≤ 0.55) (hz : val z = .fin y) (h1 : -8 ≤ y) (h2 : y ≤ 20) (hk : val k = .fin kk) (k1 : 1 / 4 ≤ kk) (k2 : kk ≤ 1000) :
    Lc 0.0005 (val (A * k ^ b * (10 : α) ^ (c * z))) (A' * kk ^ b' * 10 ^ (q * y)) := by
  obtain ⟨t, ht, ht'⟩ := hb
  obtain ⟨p, p1, p2⟩ := kdp_pow hk k1 k2 ht ht' b0 b1
  obtain ⟨w, w1, w2⟩ := ten_nr hc hq hz h1 h2
  have lo : (1000 : ℝ)⁻¹ ≤ A' * kk ^ b' := by
    calc (1000 : ℝ)⁻¹ = 1 * 1000⁻¹ := by ring
      _ ≤ _ := by gcongr
  have hi : A' * kk ^ b' ≤ 100 * 1000 := by gcongr
  have u := hA.mul p (by unfold ε; norm_num) (_root_.le_trans (by norm_num) lo) (hi.trans (by norm_num))
  have u0 := u.1
  exact (u.mul w (by unfold ε; norm_num)
    (by calc (2 : ℝ) ^ (-77 : ℤ) ≤ (1000 : ℝ)⁻¹ * 10 ^ (-11 : ℤ) := by norm_num
          _ ≤ _ := by gcongr)
    (by calc (A' * kk ^ b') * 10 ^ (q * y) ≤ (100 * 1000) * 10 ^ (11 : ℤ) := by gcongr
          _ ≤ _ := by norm_num)).mono (by unfold ε; norm_num)

theorem gen2 {A b k : α} {A' b' kk : ℝ} (hA : Lc (4 * ε) (val A) A') (A1 : 1 ≤ A') (A2 : A' ≤ 100) (hb : Nr b b') (b0 : 0 ≤ b') (b1 : b' ≤ 1)
    (hk : val k = .fin kk) (k1 : 1 / 4 ≤ kk) (k2 : kk ≤ 1000) : Lc 0.0005 (val (A * k ^ b)) (A' * kk ^ b') := by
  obtain ⟨t, ht, ht'⟩ := hb
  obtain ⟨p, p1, p2⟩ := kdp_pow hk k1 k2 ht ht' b0 b1
  have lo : (1000 : ℝ)⁻¹ ≤ A' * kk ^ b' := by
    calc (1000 : ℝ)⁻¹ = 1 * 1000⁻¹ := by ring
      _ ≤ _ := by gcongr
  have hi : A' * kk ^ b' ≤ 100 * 1000 := by gcongr
  exact (hA.mul p (by unfold ε; norm_num) (_root_.le_trans (by norm_num) lo) (hi.trans (by norm_num))).mono (by unfold ε; norm_num)

theorem gen3 {A b c d z : α} {A' b' q x y : ℝ} (hA : Lc (4 * ε) (val A) A') (A1 : 0.008 ≤ A') (A2 : A' ≤ 1) (hb : Nr b b') (b0 : 0 ≤ b') (b1 : b' ≤ 1)
    (hc : Nr c q) (hq : |q| ≤ 0.55) (hd : val d = .fin x) (x1 : -40 ≤ x) (x2 : x ≤ 100) (hz : val z = .fin y) (h1 : -8 ≤ y) (h2 : y ≤ 20) :
    Lc 0.0005 (val (A * lin d ^ b * (10 : α) ^ (c * z))) (A' * (10 ^ (x / 10)) ^ b' * 10 ^ (q * y)) := by
  obtain ⟨t, ht, ht'⟩ := hb
  obtain ⟨l, l1, l2⟩ := lin_lc hd x1 x2
  have l0 := l.1
  obtain ⟨d1, d2⟩ := rpow_le_self' (y := b') (B := 10 ^ (10 : ℕ)) (by norm_num) l0 b0 b1 (_root_.le_trans (by norm_num) l1) l2
  have p := lc_rpow (M := 110 * ε) l (log_lin x1 x2) ht ht' (by rw [abs_of_nonneg b0]; exact b1) (by unfold ε; norm_num) (by unfold ε; norm_num)
    (by unfold ε; norm_num) (_root_.le_trans (by norm_num) d1) (d2.trans (by norm_num))
  obtain ⟨w, w1, w2⟩ := ten_nr hc hq hz h1 h2
  have lo : (0.008 : ℝ) * ((10 : ℝ) ^ (10 : ℕ))⁻¹ ≤ A' * (10 ^ (x / 10)) ^ b' := by gcongr
  have hi : A' * (10 ^ (x / 10)) ^ b' ≤ 1 * 10 ^ (10 : ℕ) := by gcongr
  have u := hA.mul p (by unfold ε; norm_num) (_root_.le_trans (by norm_num) lo) (hi.trans (by norm_num))
  have u0 := u.1
  exact (u.mul w (by unfold ε; norm_num)
    (by calc (2 : ℝ) ^ (-77 : ℤ) ≤ (0.008 * ((10 : ℝ) ^ (10 : ℕ))⁻¹) * 10 ^ (-11 : ℤ) := by norm_num
          _ ≤ _ := by gcongr)
    (by calc (A' * (10 ^ (x / 10)) ^ b') * 10 ^ (q * y) ≤ (1 * 10 ^ (10 : ℕ)) * 10 ^ (11 : ℤ) := by gcongr
          _ ≤ _ := by norm_num)).mono (by unfold ε; norm_num)

theorem gen_zr {A b d : α} {A' b' x : ℝ} (hA : Lc 0 (val A) A') (A1 : 100 ≤ A') (A2 : A' ≤ 300) (hb : Lc (4 * ε) (val b) b') (b1 : 1.3 ≤ b') (b2 : b' ≤ 1.6)
    (hd : val d = .fin x) (x1 : -40 ≤ x) (x2 : x ≤ 100) : Lc 0.0005 (val (rZR A b d)) ((10 ^ (x / 10) / A') ^ (1 / b' : ℝ)) := by
  obtain ⟨l, l1, l2⟩ := lin_lc hd x1 x2
  have l0 := l.1
  have A0 : 0 < A' := by linarith
  have b0 : 0 < b' := by linarith
  have e0 := ε_pos
  have lo : ((10 : ℝ) ^ (10 : ℕ))⁻¹ ≤ 10 ^ (x / 10) / A' := by
    rw [le_div_iff₀ A0]
    calc ((10 : ℝ) ^ (10 : ℕ))⁻¹ * A' ≤ (10 ^ (10 : ℕ))⁻¹ * 300 := by gcongr
      _ ≤ _ := _root_.le_trans (by norm_num) l1
  have hi : (10 : ℝ) ^ (x / 10) / A' ≤ 10 ^ (10 : ℕ) := by
    rw [div_le_iff₀ A0]
    calc (10 : ℝ) ^ (x / 10) ≤ 10 ^ (10 : ℕ) * 1 := by rw [mul_one]; exact l2
      _ ≤ 10 ^ (10 : ℕ) * A' := by gcongr; linarith
  have q := l.div hA (by unfold ε; norm_num) (_root_.le_trans (by norm_num) lo) (hi.trans (by norm_num))
  have one : Lc 0 (val (1 : α)) 1 := ⟨by norm_num, 1, Ieee.vone, by norm_num, by simp⟩
  have i1 : 1 / b' ≤ 0.77 := by rw [div_le_iff₀ b0]; linarith
  have i2 : 0.6 ≤ 1 / b' := by rw [le_div_iff₀ b0]; linarith
  have e := one.div hb (by unfold ε; norm_num) (_root_.le_trans (by norm_num) i2) (i1.trans (by norm_num))
  obtain ⟨t, ht, -, ht'⟩ := lc_near e (by unfold ε; norm_num)
  have hq : |Real.log (10 ^ (x / 10) / A')| ≤ 30 := by
    rw [Real.log_div l0.ne' A0.ne']
    have a := abs_le.mp (log_lin x1 x2)
    have b : 0 ≤ Real.log A' := Real.log_nonneg (by linarith)
    have c : Real.log A' ≤ 10 := by
      have h := Real.log_le_log A0 (show A' ≤ 2 ^ 10 by linarith)
      rw [Real.log_pow] at h
      have := Real.log_two_lt_d9
      push_cast at h
      linarith
    have f : -12 ≤ Real.log ((10 : ℝ) ^ (x / 10)) := by
      rw [Real.log_rpow (by norm_num)]
      have := log_ten_le
      have := log_ten_nonneg
      nlinarith
    rw [abs_le]; constructor <;> linarith [a.1, a.2]
  obtain ⟨d1, d2⟩ := rpow_le_self' (y := 1 / b') (B := 10 ^ (10 : ℕ)) (by norm_num) (by positivity) (by linarith) (by linarith) lo hi
  have ht2 : |t - 1 / b'| ≤ 13 * ε := ht'.trans (by
    calc 2 * (0 + 4 * ε + 4 * ε) * (1 / b') ≤ 2 * (0 + 4 * ε + 4 * ε) * 0.77 := by gcongr
      _ ≤ _ := by linarith)
  exact (lc_rpow (η := 13 * ε) (M := 440 * ε) q hq ht ht2 (by rw [abs_of_nonneg (by linarith)]; linarith) (by unfold ε; norm_num) (by unfold ε; norm_num)
    (by unfold ε; norm_num) (_root_.le_trans (by norm_num) d1) (d2.trans (by norm_num))).mono (by unfold ε; norm_num)

/-- the coefficients of the code: `-c / 10` -/
theorem nr_negdiv (k : ℕ) (s : Bool) (e : ℕ) (h0 : 0 ≤ (OfScientific.ofScientific k s e : ℝ)) (h1 : (OfScientific.ofScientific k s e : ℝ) ≤ 6) :
    Nr (-(OfScientific.ofScientific k s e : α) / 10) (-(OfScientific.ofScientific k s e : ℝ) / 10) := by
  have hv := Ieee.vsci (α := α) k s e
  generalize (OfScientific.ofScientific k s e : ℝ) = X at *
  obtain ⟨t, ht, h⟩ := Ieee.rnd_near (α := α) (x := X) (by rw [abs_of_nonneg h0]; exact h1.trans (by norm_num))
  rw [ht] at hv
  have e0 := ε_pos
  have e1 : ε ≤ 1 / 100 := by unfold ε; norm_num
  have ht1 : |t - X| ≤ 7 * ε := h.trans (by
    rw [abs_of_nonneg h0]
    calc (2 : ℝ) ^ (-20 : ℤ) * X + 2 ^ (-100 : ℤ) ≤ 2 ^ (-20 : ℤ) * 6 + 2 ^ (-100 : ℤ) := by gcongr
      _ ≤ _ := by unfold ε; norm_num)
  have b := abs_le.mp ht1
  have ht2 : |-t / 10| ≤ 0.7 := by rw [abs_le]; constructor <;> linarith [b.1, b.2]
  obtain ⟨r, hr, h'⟩ := Ieee.rnd_near (α := α) (x := -t / 10) (ht2.trans (by norm_num))
  refine ⟨r, by rw [Ieee.vdiv _ _ (by rw [val10]; simp), val10, Ieee.vneg, hv, XR.fneg, XR.fdiv (by norm_num), hr], ?_⟩
  have h2 : |r - -t / 10| ≤ ε := h'.trans (by
    calc (2 : ℝ) ^ (-20 : ℤ) * |-t / 10| + 2 ^ (-100 : ℤ) ≤ 2 ^ (-20 : ℤ) * 0.7 + 2 ^ (-100 : ℤ) := by gcongr
      _ ≤ _ := by unfold ε; norm_num)
  have c := abs_le.mp h2
  rw [abs_le]; constructor <;> linarith [b.1, b.2, c.1, c.2]

theorem nr_sci (k : ℕ) (s : Bool) (e : ℕ) (h0 : 0 ≤ (OfScientific.ofScientific k s e : ℝ)) (h1 : (OfScientific.ofScientific k s e : ℝ) ≤ 1) :
    Nr (OfScientific.ofScientific k s e : α) (OfScientific.ofScientific k s e) := exp_lit k s e h0 h1

/-- the rate of every method with the published coefficients -/
theorem trop_lc {band : String} {T : Published} (hT : Published.Of band T) (P0 : TropParams α) (hk0 : P0.threshKdp = 0.3) {d z k : α} {x y kk : ℝ}
    (w : Weather d z k x y kk) (m : Int) (hm : m = 1 ∨ m = 2 ∨ m = 3 ∨ m = 4 ∨ m = 5 ∨ m = 6)
    (hmk : m = 1 ∨ m = 2 → ((tropPredef "True" band P0).threshKdp <=. k) = true) :
    Lc 0.0005 (val (tropRate (tropPredef "True" band P0) d z k m)) (tropPublished T x y kk m) := by
  have hthr : (tropPredef "True" band P0).threshKdp = 0.3 := by
    cases hT <;> simp [tropPredef, hk0]
  rw [hthr] at hmk
  have hz : ∀ c : ℝ, ((10 : ℝ) ^ (y / 10)) ^ c = (10 : ℝ) ^ (c / 10 * y) := by
    intro c
    rw [← Real.rpow_mul (by norm_num)]
    congr 1; ring
  have z4 : Lc 0.0005 (val (rZR (216 : α) 1.39 d)) ((10 ^ (x / 10) / 216) ^ (1 / 1.39 : ℝ)) :=
    gen_zr (lc_nat 216 (by norm_num)) (by norm_num) (by norm_num) (lc_sci 139 true 2 (by norm_num) (by norm_num) (by norm_num)) (by norm_num) (by norm_num)
      w.dz w.dz_lo w.dz_hi
  have z5 : Lc 0.0005 (val (rZR (126 : α) 1.39 d)) ((10 ^ (x / 10) / 126) ^ (1 / 1.39 : ℝ)) :=
    gen_zr (lc_nat 126 (by norm_num)) (by norm_num) (by norm_num) (lc_sci 139 true 2 (by norm_num) (by norm_num) (by norm_num)) (by norm_num) (by norm_num)
      w.dz w.dz_lo w.dz_hi
  have z6 : Lc 0.0005 (val (rZR (291 : α) 1.55 d)) ((10 ^ (x / 10) / 291) ^ (1 / 1.55 : ℝ)) :=
    gen_zr (lc_nat 291 (by norm_num)) (by norm_num) (by norm_num) (lc_sci 155 true 2 (by norm_num) (by norm_num) (by norm_num)) (by norm_num) (by norm_num)
      w.dz w.dz_lo w.dz_hi
  rcases hm with rfl | rfl | rfl | rfl | rfl | rfl
  · have k1 := kdp_ge w.kdp (hmk (.inl rfl))
    cases hT
    · have h := gen1 (lc_sci (α := α) 965726 true 4 (by norm_num) (by norm_num) (by norm_num)) (by norm_num) (by norm_num)
        (nr_sci 9315 true 4 (by norm_num) (by norm_num)) (by norm_num) (by norm_num) (nr_negdiv 21140 true 4 (by norm_num) (by norm_num))
        (by norm_num [abs_of_neg]) w.zdr w.zdr_lo w.zdr_hi w.kdp k1 w.kdp_hi
      convert h using 2 <;> first | rfl | norm_num [tropPublished, hz, rl]
    · have h := gen1 (lc_sci (α := α) 456976 true 4 (by norm_num) (by norm_num) (by norm_num)) (by norm_num) (by norm_num)
        (nr_sci 8763 true 4 (by norm_num) (by norm_num)) (by norm_num) (by norm_num) (nr_negdiv 16718 true 4 (by norm_num) (by norm_num))
        (by norm_num [abs_of_neg]) w.zdr w.zdr_lo w.zdr_hi w.kdp k1 w.kdp_hi
      convert h using 2 <;> first | rfl | norm_num [tropPublished, hz, rl]
    · have h := gen1 (lc_sci (α := α) 281289 true 4 (by norm_num) (by norm_num) (by norm_num)) (by norm_num) (by norm_num)
        (nr_sci 9194 true 4 (by norm_num) (by norm_num)) (by norm_num) (by norm_num) (nr_negdiv 16876 true 4 (by norm_num) (by norm_num))
        (by norm_num [abs_of_neg]) w.zdr w.zdr_lo w.zdr_hi w.kdp k1 w.kdp_hi
      convert h using 2 <;> first | rfl | norm_num [tropPublished, hz, rl]
  · have k1 := kdp_ge w.kdp (hmk (.inr rfl))
    cases hT
    · have h := gen2 (lc_sci (α := α) 595202 true 4 (by norm_num) (by norm_num) (by norm_num)) (by norm_num) (by norm_num)
        (nr_sci 7451 true 4 (by norm_num) (by norm_num)) (by norm_num) (by norm_num) w.kdp k1 w.kdp_hi
      convert h using 2 <;> first | rfl | norm_num [tropPublished, rl]
    · have h := gen2 (lc_sci (α := α) 345703 true 4 (by norm_num) (by norm_num) (by norm_num)) (by norm_num) (by norm_num)
        (nr_sci 7331 true 4 (by norm_num) (by norm_num)) (by norm_num) (by norm_num) w.kdp k1 w.kdp_hi
      convert h using 2 <;> first | rfl | norm_num [tropPublished, rl]
    · have h := gen2 (lc_sci (α := α) 219729 true 4 (by norm_num) (by norm_num) (by norm_num)) (by norm_num) (by norm_num)
        (nr_sci 7221 true 4 (by norm_num) (by norm_num)) (by norm_num) (by norm_num) w.kdp k1 w.kdp_hi
      convert h using 2 <;> first | rfl | norm_num [tropPublished, rl]
  · cases hT
    · have h := gen3 (lc_sci (α := α) 85 true 4 (by norm_num) (by norm_num) (by norm_num)) (by norm_num) (by norm_num)
        (nr_sci 9237 true 4 (by norm_num) (by norm_num)) (by norm_num) (by norm_num) (nr_negdiv 52389 true 4 (by norm_num) (by norm_num))
        (by norm_num [abs_of_neg]) w.dz w.dz_lo w.dz_hi w.zdr w.zdr_lo w.zdr_hi
      convert h using 2 <;> first | rfl | norm_num [tropPublished, hz, rl]
    · have h := gen3 (lc_sci (α := α) 86 true 4 (by norm_num) (by norm_num) (by norm_num)) (by norm_num) (by norm_num)
        (nr_sci 9088 true 4 (by norm_num) (by norm_num)) (by norm_num) (by norm_num) (nr_negdiv 42059 true 4 (by norm_num) (by norm_num))
        (by norm_num [abs_of_neg]) w.dz w.dz_lo w.dz_hi w.zdr w.zdr_lo w.zdr_hi
      convert h using 2 <;> first | rfl | norm_num [tropPublished, hz, rl]
    · have h := gen3 (lc_sci (α := α) 85 true 4 (by norm_num) (by norm_num) (by norm_num)) (by norm_num) (by norm_num)
        (nr_sci 9294 true 4 (by norm_num) (by norm_num)) (by norm_num) (by norm_num) (nr_negdiv 44580 true 4 (by norm_num) (by norm_num))
        (by norm_num [abs_of_neg]) w.dz w.dz_lo w.dz_hi w.zdr w.zdr_lo w.zdr_hi
      convert h using 2 <;> first | rfl | norm_num [tropPublished, hz, rl]
  · cases hT <;> exact z4
  · cases hT <;> exact z5
  · cases hT <;> exact z6

/-- **C160.** With the published coefficients (`predef='True'`, S, C or X band), at every gate with values in the range of weather radar data: method -1
gives no rain; any other method gives a finite positive rate within 0.1 % of the published relation of that method, except that gates of an ice class
(3 to 9), which are reported as method 2, may have no rain. -/
theorem C160_tropical {band : String} {T : Published} (hT : Published.Of band T) (P0 : TropParams α) (hk0 : P0.threshKdp = 0.3) (d z k : NdArray α)
    (hs : SameShape d z k) (c f : Option (NdArray Int)) (hc : ClsFits d c) (hf : ClsFits d f) (hdt : d.dtype = .float) :
    ∃ r m, calcBlendedRainTropical P0 "True" band (some (.arr d)) (some (.arr z)) (some (.arr k)) (c.map .arr) (f.map .arr) =
        .ok (some (.arr r m none)) ∧ r.shape = d.shape ∧ m.shape = d.shape ∧
      ∀ (i : Nat) (dv zv kv : α) (x y kk : ℝ), d.data[i]? = some dv → z.data[i]? = some zv → k.data[i]? = some kv → Weather dv zv kv x y kk →
        ∃ rv mv, r.data[i]? = some rv ∧ m.data[i]? = some mv ∧ mv ∈ ([-1, 1, 2, 3, 4, 5, 6] : List Int) ∧ (mv = -1 → rv = 0) ∧
          (mv ≠ -1 → Accurate rv (tropPublished T x y kk mv) ∨ (rv = 0 ∧ mv = 2 ∧ ∃ n : Int, clsAt f i = some n ∧ 2 < n ∧ n < 10)) := by
  obtain ⟨r, m, e, h1, h2, -, -, -, h5⟩ := tropical_gates P0 "True" band d z k hs c f hc hf
  refine ⟨r, m, e, h1, h2, ?_⟩
  intro i dv zv kv x y kk g1 g2 g3 w
  obtain ⟨cv, fv, -, hfv, h6⟩ := h5 i _ _ _ g1 g2 g3
  rw [Prod.mk.injEq] at h6
  refine ⟨_, _, h6.1, h6.2, ?_⟩
  rw [hdt]
  have L := trop_lc hT P0 hk0 w
  generalize tropPredef "True" band P0 = P at *
  simp only [tropGate]
  split
  · exact ⟨by simp, fun _ => rfl, fun h => absurd rfl h⟩
  split
  · rename_i hice
    simp only [Bool.and_eq_true, decide_eq_true_eq] at hice
    rw [if_pos hice.1] at hfv
    refine ⟨by simp, fun h => by simp at h, fun _ => ?_⟩
    dsimp only
    split
    · rename_i hcond
      simp only [Bool.and_eq_true] at hcond
      exact .inl (accurate_of (L 2 (by simp) (fun _ => hcond.2.1)))
    · exact .inr ⟨rfl, rfl, fv, hfv, hice.2⟩
  · generalize (if c.isSome = true then some cv else none) = cc
    dsimp only
    have hr : tropMethod P dv zv kv cc ∈ ([-1, 1, 2, 3, 4, 5, 6] : List Int) := by
      simp only [tropMethod]
      cases cc <;> dsimp only <;> split_ifs <;> simp
    split
    · rename_i h
      exact ⟨hr, fun _ => rfl, fun h' => absurd h h'⟩
    · rename_i h
      refine ⟨hr, fun h' => absurd h' h, fun _ => .inl (accurate_of (L _ ?_ ?_))⟩
      · simp only [List.mem_cons, List.not_mem_nil, or_false] at hr
        tauto
      · intro hm
        by_contra hcon
        have hc2 : (P.threshKdp <=. kv) = false := by simpa using hcon
        simp only [tropMethod, hc2, Bool.and_false] at hm
        revert hm
        cases cc <;> dsimp only <;> split_ifs <;> simp_all

/-- The hypotheses are met in single precision: the S band table, the default thresholds, rain types and classes, a gate of 45 dBZ, 1 dB and 2 degrees per km. -/
example : Published.Of "S" ⟨(96.5726, 0.9315, -2.1140), (0.0085, 0.9237, -5.2389), (59.5202, 0.7451)⟩ ∧
    (TropParams.default : TropParams Binary32).threshKdp = 0.3 ∧
    SameShape (⟨.float, [2], [45, nan]⟩ : NdArray Binary32) (⟨.float, [2], [1, nan]⟩ : NdArray Binary32) (⟨.float, [2], [2, 0]⟩ : NdArray Binary32) ∧
    ClsFits (⟨.float, [2], [45, nan]⟩ : NdArray Binary32) (some ⟨.int, [2], [1, 2]⟩) ∧ Weather (45 : Binary32) 1 2 45 1 2 := by
  refine ⟨.S, rfl, ⟨rfl, rfl, rfl, rfl, rfl⟩, ?_, ⟨Ieee.voflit 45 (by norm_num), by norm_num, by norm_num, Ieee.vone, by norm_num, by norm_num,
    Ieee.voflit 2 (by norm_num), by norm_num⟩⟩
  simp [ClsFits, NdArray.WF]

end Csu.Rain
