import Verif.Props.RainFloat
import Verif.Props.LiquidIce2
import Verif.Lemmas.RainFloat
import Verif.Binary
/-!
# Property C157: the water and ice masses in floating point

Whatever the precision and however the operations round, both masses are finite and nonnegative for reflectivities of
moderate size.
-/
namespace Csu.LiquidIce
open PyFloat Csu.Common Csu.Rain IeeeFloat
open Csu.RainSpec (lin zdpDb)
variable {α : Type} [IeeeFloat α]

/-- a finite number from -200 to 50 -/
def Zdr50 (r : α) : Prop := ∃ x : ℝ, val r = .fin x ∧ -200 ≤ x ∧ x ≤ 50

theorem Zdr50.within {r : α} (h : Zdr50 r) : Within200 r := by
  obtain ⟨x, hx, h1, h2⟩ := h
  exact ⟨x, hx, h1, by linarith⟩

/-- the departure is a number, not negative (it may be infinite) -/
theorem deltaZ1_nonneg {fa fb d r : α} (hfa : ∃ r : ℝ, val fa = .fin r ∧ r ≠ 0) (hfb : ∃ r : ℝ, val fb = .fin r)
    (hd : Within200 d) (hr : Within200 r) : XR.le (.fin 0) (val (deltaZ1 fa fb d r)) = true := by
  obtain ⟨a, ha, a0⟩ := hfa
  obtain ⟨b, hb⟩ := hfb
  obtain ⟨x, hx, -⟩ := id hd
  have hn : val (d - (fa * zdpDb d r + fb)) ≠ .nan :=
    sub_ne_nan hx (add_ne_nan (mul_ne_nan ha a0 (zdpDb_ne_nan hd hr)) hb)
  show XR.le (.fin 0) (val (if d - (fa * zdpDb d r + fb) <. 0 then 0 else d - (fa * zdpDb d r + fb))) = true
  split_ifs with h
  · rw [Ieee.vzero]; simp
  · have hv : XR.lt (val (d - (fa * zdpDb d r + fb))) (.fin 0) = false := by
      have := val_lt (d - (fa * zdpDb d r + fb)) (0 : α)
      rw [Ieee.vzero] at this
      rw [← this]; simpa using h
    revert hn hv
    cases val (d - (fa * zdpDb d r + fb)) <;> simp [XR.le, XR.lt]

/-- the fraction of the reflectivity that is rain -/
theorem rainFrac_upto {x : α} (h : XR.le (.fin 0) (val x) = true) :
    Upto 0 (val (1 - (1 - (10 : α) ^ (-0.1 * x)))) := by
  have hneg : XR.le (val (-0.1 * x)) (.fin 0) = true := by
    obtain ⟨c, hc, c0⟩ : ∃ c : ℝ, val (-0.1 : α) = .fin c ∧ c < 0 := by
      have := fin_sci (α := α) 1 true 1 (a := 2 ^ (-4 : ℤ)) (b := 1) (Ieee.simple_two_zpow _ (by norm_num)) Ieee.simple_one
        (by norm_num) (by norm_num)
      obtain ⟨r, hr, h0, -⟩ := this
      refine ⟨-r, ?_, ?_⟩
      · rw [Ieee.vneg, hr]; rfl
      · have : (0 : ℝ) < 2 ^ (-4 : ℤ) := by positivity
        linarith
    rw [Ieee.vmul, hc]
    refine Ieee.rnd_le Ieee.simple_zero ?_
    rcases Ieee.nonneg_cases h with e | ⟨r, e, r0⟩
    · rw [e]
      show XR.le (XR.mul (.fin c) .pinf) (.fin 0) = true
      simp [XR.mul, XR.infOfSign, c0.ne, c0, not_lt.mpr c0.le, XR.le]
    · rw [e, XR.fmul, Ieee.le_fin]
      nlinarith
  obtain ⟨p, hp, p0, p1⟩ := (ten_pow_small hneg).real
  rw [zpow_zero] at p1
  have one_sub : ∀ {y : α} {p : ℝ}, val y = .fin p → 0 ≤ p → p ≤ 1 → Upto 0 (val (1 - y)) := by
    intro y p hp p0 p1
    rw [Ieee.vsub, Ieee.vone, hp, XR.fsub]
    exact Upto.rnd (by norm_num) (Upto.fin (by linarith) (by rw [zpow_zero]; linarith))
  obtain ⟨q, hq, q0, q1⟩ := (one_sub hp p0 p1).real
  rw [zpow_zero] at q1
  exact one_sub hq q0 q1

/-- the rain part of the reflectivity is between 0 and the whole -/
theorem zhRain1_between {fa fb d r : α} (hfa : ∃ r : ℝ, val fa = .fin r ∧ r ≠ 0) (hfb : ∃ r : ℝ, val fb = .fin r)
    (hd : Within200 d) (hr : Within200 r) :
    ∃ h p : ℝ, val (linearize d) = .fin h ∧ val (zhRain1 fa fb d r) = .fin p ∧ 0 ≤ p ∧ p ≤ h ∧ h ≤ 2 ^ (68 : ℤ) ∧ 0 < h := by
  obtain ⟨h, hh, h0⟩ := lin_pos' hd
  obtain ⟨h', hh', -, h1⟩ := (lin_upto hd.db).real
  rw [hh] at hh'; cases hh'
  obtain ⟨q, hq, q0, q1⟩ := (rainFrac_upto (deltaZ1_nonneg hfa hfb hd hr)).real
  rw [zpow_zero] at q1
  have hv : val (zhRain1 fa fb d r) = rnd α (.fin (h * q)) := by
    show val (lin d * _) = _
    rw [Ieee.vmul, hh]
    show rnd α (.fin h * val (1 - (1 - (10 : α) ^ (-0.1 * deltaZ1 fa fb d r)))) = _
    rw [hq, XR.fmul]
  have hle : XR.le (rnd α (.fin (h * q))) (val (lin d)) = true :=
    Ieee.rnd_le_val (by rw [hh, Ieee.le_fin]; nlinarith)
  rw [hh] at hle
  obtain ⟨p, hp, p0, p1⟩ := Ieee.between (Ieee.rnd_ge (α := α) Ieee.simple_zero
    (show XR.le (.fin 0) (.fin (h * q)) = true by rw [Ieee.le_fin]; positivity)) hle
  exact ⟨h, p, hh, by rw [hv, hp], p0, p1, h1, h0⟩

/-- `10 ** n` for a whole exponent of moderate size, within a factor of two -/
theorem ten_int {b : α} (n : ℤ) (hb : val b = .fin (n : ℝ)) {i : ℤ} (h1 : (2 : ℝ) ^ (-100 : ℤ) ≤ (10 : ℝ) ^ n)
    (h2 : (10 : ℝ) ^ n ≤ (2 : ℝ) ^ (100 : ℤ)) (hi : 2 * (10 : ℝ) ^ n ≤ 2 ^ i) : Upto i (val ((10 : α) ^ b)) := by
  have e : (10 : ℝ) ^ ((n : ℤ) : ℝ) = (10 : ℝ) ^ n := Real.rpow_intCast 10 n
  have acc := val_pow_acc (10 : α) b 10 n val10 hb (by norm_num) (by rw [e]; exact h1) (by rw [e]; exact h2)
  rw [e] at acc
  refine ⟨Ieee.le_trans ?_ acc.1, Ieee.le_trans acc.2 (by rw [Ieee.le_fin]; linarith)⟩
  rw [Ieee.le_fin]; positivity

theorem vneg_nat (n : ℕ) [n.AtLeastTwo] (h : |(n : ℤ)| ≤ 2 ^ 24) : val (-(OfNat.ofNat n : α)) = .fin ((-(n : ℤ) : ℤ) : ℝ) := by
  rw [Ieee.vneg, Ieee.voflit n h]
  show XR.fin _ = XR.fin _
  congr 1
  push_cast
  rfl

/-- an exponent `a / b` with `a ≤ b` -/
theorem frac_upto (n m : ℕ) [n.AtLeastTwo] [m.AtLeastTwo] (hn : |(n : ℤ)| ≤ 2 ^ 24) (hm : |(m : ℤ)| ≤ 2 ^ 24) (h : n ≤ m) :
    Upto 0 (val ((OfNat.ofNat n : α) / OfNat.ofNat m)) := by
  have m0 : (0 : ℝ) < m := by have := Nat.AtLeastTwo.prop (n := m); exact_mod_cast (by omega : 0 < m)
  have hv : val (OfNat.ofNat m : α) = .fin (m : ℝ) := Ieee.voflit m hm
  have hu : val (OfNat.ofNat n : α) = .fin (n : ℝ) := Ieee.voflit n hn
  rw [Ieee.vdiv _ _ (by rw [hv]; simpa using m0.ne'), hu, hv, XR.fdiv m0.ne']
  refine Upto.rnd (by norm_num) (Upto.fin (by positivity) ?_)
  rw [zpow_zero, div_le_one m0]
  exact_mod_cast h

theorem upto_nat (n : ℕ) [n.AtLeastTwo] (h : |(n : ℤ)| ≤ 2 ^ 24) {i : ℤ} (hi : (n : ℝ) ≤ 2 ^ i) :
    Upto i (val (OfNat.ofNat n : α)) := by
  have hu : val (OfNat.ofNat n : α) = .fin (n : ℝ) := Ieee.voflit n h
  rw [hu]; exact Upto.fin (by positivity) hi

theorem milli : Upto 0 (val ((10 : α) ^ (-3 : α))) :=
  ten_int (-3) (vneg_nat 3 (by norm_num)) (by norm_num) (by norm_num) (by norm_num)

/-- water where the departure is small -/
theorem waterRain_upto {d r : α} (hd : Within200 d) (hr : Zdr50 r) (h0 : XR.lt (val r) (.fin 0) = false) :
    Upto 71 (val (0.70 * (10 : α) ^ (-3 : α) * linearize d ^ (0.886 : α) *
      (linearize d / (linearize d / linearize r)) ^ (-4.159 : α))) := by
  obtain ⟨h, hh, hpos⟩ := lin_pos' hd
  have hup := lin_upto hd.db
  obtain ⟨x, hx, x0, x1⟩ := id hr
  have x0 : 0 ≤ x := by
    rw [hx] at h0
    simpa [XR.lt] using h0
  -- the linear ZDR is from 1 to 2^18
  have hz : ∃ z : ℝ, val (lin r) = .fin z ∧ 1 ≤ z ∧ z ≤ 2 ^ (18 : ℤ) := by
    have hq : ∃ y : ℝ, val (r / 10) = .fin y ∧ 0 ≤ y ∧ y ≤ 5 := by
      rw [Ieee.vdiv _ _ (by rw [val10]; simp), val10, hx, XR.fdiv (by norm_num)]
      exact Ieee.between (Ieee.rnd_ge Ieee.simple_zero (by rw [Ieee.le_fin]; positivity))
        (Ieee.rnd_le (Ieee.simple_nat 5 (by norm_num)) (by rw [Ieee.le_fin]; linarith))
    obtain ⟨y, hy, y0, y1⟩ := hq
    have one : (1 : ℝ) ≤ 10 ^ y := Real.one_le_rpow (by norm_num) y0
    have top : (10 : ℝ) ^ y ≤ 2 ^ (17 : ℤ) :=
      calc (10 : ℝ) ^ y ≤ 10 ^ (5 : ℝ) := Real.rpow_le_rpow_of_exponent_le (by norm_num) y1
        _ = 10 ^ (5 : ℕ) := by rw [← Real.rpow_natCast]; norm_num
        _ ≤ _ := by norm_num
    have acc := (val_pow_acc (10 : α) (r / 10) 10 y val10 hy (by norm_num)
      (_root_.le_trans (zpow_le_one_of_nonpos₀ (by norm_num) (by norm_num)) one)
      (top.trans (zpow_le_zpow_right₀ (by norm_num) (by norm_num)))).2
    have rs := val_pow (10 : α) (r / 10) (.inl (by rw [val10]; simp))
    rw [val10, hy] at rs
    have e : XR.pow (.fin 10) (.fin y) = .fin ((10 : ℝ) ^ y) := by simp [XR.pow, XR.powFin]
    rw [e] at rs
    have ge := rs.ge1 (by rw [Ieee.le_fin]; exact one)
    refine Ieee.between ge (Ieee.le_trans acc ?_)
    rw [Ieee.le_fin]
    calc 2 * (10 : ℝ) ^ y ≤ 2 * 2 ^ (17 : ℤ) := by linarith
      _ = _ := by norm_num
  obtain ⟨z, hz, z1, z2⟩ := hz
  have z0 : 0 < z := by linarith
  -- the vertical reflectivity is positive and at most the horizontal one
  obtain ⟨h', hh', hlow⟩ : ∃ h' : ℝ, val (lin d) = .fin h' ∧ (2 : ℝ) ^ (-69 : ℤ) ≤ h' := lin_low hd
  rw [hh] at hh'; cases hh'
  have hv : ∃ v : ℝ, val (lin d / lin r) = .fin v ∧ 0 < v ∧ v ≤ h := by
    rw [Ieee.vdiv _ _ (by rw [hz]; simpa using z0.ne'), hh, hz, XR.fdiv z0.ne']
    have b : (2 : ℝ) ^ (-87 : ℤ) ≤ h / z := by
      rw [le_div_iff₀ z0]
      calc (2 : ℝ) ^ (-87 : ℤ) * z ≤ 2 ^ (-87 : ℤ) * 2 ^ (18 : ℤ) := by gcongr
        _ = 2 ^ (-69 : ℤ) := by norm_num
        _ ≤ h := hlow
    have up : XR.le (rnd α (.fin (h / z))) (val (lin d)) = true :=
      Ieee.rnd_le_val (by rw [hh, Ieee.le_fin]; exact div_le_self hpos.le z1)
    rw [hh] at up
    obtain ⟨v, e, v0, v1⟩ := Ieee.between (Ieee.rnd_ge (α := α) (Ieee.simple_two_zpow (-87) (by norm_num))
      (by rw [Ieee.le_fin]; exact b)) up
    exact ⟨v, e, lt_of_lt_of_le (by positivity) v0, v1⟩
  obtain ⟨v, hv, v0, v1⟩ := hv
  -- so their ratio is at least 1
  have hq : XR.le (.fin 1) (val (lin d / (lin d / lin r))) = true := by
    rw [Ieee.vdiv _ _ (by rw [hv]; simpa using v0.ne'), hh, hv, XR.fdiv v0.ne']
    exact Ieee.rnd_ge Ieee.simple_one (by rw [Ieee.le_fin, le_div_iff₀ v0]; linarith)
  have hexp : ∃ c : ℝ, val (-4.159 : α) = .fin c ∧ c < 0 := by
    obtain ⟨r, hr, h0, -⟩ := fin_sci (α := α) 4159 true 3 (a := 1) (b := 8) Ieee.simple_one (Ieee.simple_nat 8 (by norm_num))
      (by norm_num) (by norm_num)
    refine ⟨-r, ?_, by linarith⟩
    rw [Ieee.vneg, hr]; rfl
  obtain ⟨c, hc, c0⟩ := hexp
  have hratio : Upto 0 (val ((lin d / (lin d / lin r)) ^ (-4.159 : α))) := by
    have ne0 : val (lin d / (lin d / lin r)) ≠ .fin 0 := by
      intro e; rw [e] at hq; norm_num at hq
    have rs := val_pow (lin d / (lin d / lin r)) (-4.159 : α) (.inl ne0)
    rw [hc] at rs
    have hp : XR.le (.fin 0) (XR.pow (val (lin d / (lin d / lin r))) (.fin c)) = true ∧
        XR.le (XR.pow (val (lin d / (lin d / lin r))) (.fin c)) (.fin 1) = true := by
      rcases Ieee.nonneg_cases hq with e | ⟨w, e, w1⟩
      · rw [e]
        simp [XR.pow, XR.le, c0, not_lt.mpr c0.le, c0.ne]
      · have w0 : 0 < w := by linarith
        have e' : XR.pow (.fin w) (.fin c) = .fin (w ^ c) := by simp [XR.pow, XR.powFin, w0]
        rw [e, e', Ieee.le_fin, Ieee.le_fin]
        exact ⟨by positivity, Real.rpow_le_one_of_one_le_of_nonpos w1 c0.le⟩
    exact ⟨rs.ge0 hp.1, by rw [zpow_zero]; exact rs.le1 hp.2⟩
  have h1 : Upto 0 (val (0.70 : α)) := upto_sci 70 true 2 (by norm_num) (by norm_num) (by norm_num)
  have h2 : Upto 0 (val (0.886 : α)) := upto_sci 886 true 3 (by norm_num) (by norm_num) (by norm_num)
  exact (((h1.mul milli (by norm_num)).mul (hup.pow h2 (by norm_num) (by norm_num)) (by norm_num)).mul hratio
    (by norm_num)).mono (by norm_num)

theorem finNonneg_of_upto {i : ℤ} {x : α} (h : Upto i (val x)) : FinNonneg x := h.finNonneg

theorem mul_zero_val {d : α} (h : Within200 d) : val (d * 0) = .fin 0 := by
  obtain ⟨x, hx, -⟩ := h
  rw [Ieee.vmul, hx, Ieee.vzero, XR.fmul, mul_zero, Ieee.rnd_simple Ieee.simple_zero]

/-- the water mass of one gate -/
theorem water1_float {fa fb d r : α} (t : α) (hfa : ∃ r : ℝ, val fa = .fin r ∧ r ≠ 0) (hfb : ∃ r : ℝ, val fb = .fin r)
    (hd : Within200 d) (hr : Zdr50 r) : FinNonneg (water1 fa fb d r t) := by
  unfold water1
  dsimp only
  split_ifs with h1 h2 h3
  · exact zero_finNonneg
  · obtain ⟨h, p, hh, hp, p0, p1, h68, -⟩ := zhRain1_between hfa hfb hd hr.within
    have hu : Upto 68 (val (zhRain1 fa fb d r)) := by rw [hp]; exact Upto.fin p0 (by linarith)
    have hc : Upto 2 (val (3.44 : α)) := upto_sci 344 true 2 (by norm_num) (by norm_num) (by norm_num)
    exact ((hc.mul milli (by norm_num)).mul (hu.pow (frac_upto 4 7 (by norm_num) (by norm_num) (by norm_num)) (by norm_num)
      (by norm_num)) (by norm_num)).finNonneg
  · refine (waterRain_upto hd hr ?_).finNonneg
    have := val_lt r (0 : α)
    rw [Ieee.vzero] at this
    rw [← this]; simpa using h1
  · exact ⟨0, mul_zero_val hd, le_refl _⟩

theorem pi_upto : Upto 2 (val (pi : α)) := by
  rw [val_pi]
  exact Upto.rnd (by norm_num) (Upto.fin Real.pi_pos.le (by have := Real.pi_le_four; norm_num; exact this))

/-- the ice mass of one gate -/
theorem ice1_float {fa fb d r : α} (t : α) (hfa : ∃ r : ℝ, val fa = .fin r ∧ r ≠ 0) (hfb : ∃ r : ℝ, val fb = .fin r)
    (hd : Within200 d) (hr : Zdr50 r) : FinNonneg (ice1 fa fb d r t) := by
  unfold ice1
  split_ifs with h1
  · obtain ⟨h, p, hh, hp, p0, p1, h68, -⟩ := zhRain1_between hfa hfb hd hr.within
    have hi : Upto 68 (val (linearize d - zhRain1 fa fb d r)) := by
      rw [Ieee.vsub, hh, hp, XR.fsub]
      exact Upto.rnd (by norm_num) (Upto.fin (by linarith) (by linarith))
    have c1 : Upto 22 (val (1000 * pi * 917 : α)) :=
      ((upto_nat 1000 (by norm_num) (by norm_num)).mul pi_upto (i := 10) (by norm_num)).mul
        (upto_nat (i := 10) 917 (by norm_num) (by norm_num)) (by norm_num)
    have c6 : Upto 21 (val ((10 : α) ^ (6 : α))) :=
      ten_int 6 (by rw [Ieee.voflit 6 (by norm_num)]; norm_num) (by norm_num) (by norm_num) (by norm_num)
    have c2 : Upto 24 (val ((4 * (10 : α) ^ (6 : α)) ^ (3 / 7 : α))) :=
      ((upto_nat (i := 2) 4 (by norm_num) (by norm_num)).mul c6 (by norm_num)).pow
        (frac_upto 3 7 (by norm_num) (by norm_num) (by norm_num)) (by norm_num) (by norm_num)
    have c18 : Upto (-58) (val ((10 : α) ^ (-18 : α))) :=
      ten_int (-18) (vneg_nat 18 (by norm_num)) (by norm_num) (by norm_num) (by norm_num)
    have c5 : Upto 3 (val (5.28 : α)) := upto_sci 528 true 2 (by norm_num) (by norm_num) (by norm_num)
    have c3 : Upto 14 (val (((5.28 * (10 : α) ^ (-18 : α) * (linearize d - zhRain1 fa fb d r)) / 720) ^ (4 / 7 : α))) :=
      (((c5.mul c18 (by norm_num)).mul hi (by norm_num)).div
        ⟨720, Ieee.voflit 720 (by norm_num), by norm_num⟩ (by norm_num)).pow
        (frac_upto 4 7 (by norm_num) (by norm_num) (by norm_num)) (by norm_num) (by norm_num)
    exact ((c1.mul c2 (by norm_num)).mul c3 (by norm_num)).finNonneg
  · exact ⟨0, mul_zero_val hd, le_refl _⟩

/-! ## Calls -/

/-- water is exactly 0 where `zdr` is negative -/
theorem water1_neg {fa fb d r : α} (t : α) (h : XR.lt (val r) (.fin 0) = true) : val (water1 fa fb d r t) = .fin 0 := by
  have e : (r <. 0) = true := by
    have := val_lt r (0 : α)
    rw [Ieee.vzero] at this
    rw [← h]; exact this
  unfold water1
  rw [if_pos e, Ieee.vzero]

/-- the rain line: the caller's two coefficients, or -- when the first is not given -- the published one -/
def LineOf (fitA fitB : Option α) (fa fb : α) : Prop :=
  (fitA = some fa ∧ fitB = some fb) ∨ (fitA = none ∧ fa = 0.8178 ∧ fb = 12.5088)

theorem fits_ofLine {fitA fitB : Option α} {fa fb : α} (h : LineOf fitA fitB fa fb) : fits fitA fitB = .ok (fa, fb) := by
  rcases h with ⟨rfl, rfl⟩ | ⟨rfl, rfl, rfl⟩
  · rfl
  · simp [fits, getLinearFits]

/-- the published rain line is usable in every precision -/
theorem published_line : (∃ r : ℝ, val (0.8178 : α) = .fin r ∧ r ≠ 0) ∧ ∃ r : ℝ, val (12.5088 : α) = .fin r := by
  obtain ⟨r, hr, h0, -⟩ := fin_sci (α := α) 8178 true 4 (a := 2 ^ (-1 : ℤ)) (b := 1) (Ieee.simple_two_zpow _ (by norm_num))
    Ieee.simple_one (by norm_num) (by norm_num)
  obtain ⟨q, hq, -⟩ := fin_sci (α := α) 125088 true 4 (a := 1) (b := 16) Ieee.simple_one (Ieee.simple_nat 16 (by norm_num))
    (by norm_num) (by norm_num)
  exact ⟨⟨r, hr, by have : (0 : ℝ) < 2 ^ (-1 : ℤ) := by positivity
                    linarith⟩, q, hq⟩

variable {argsort : List α → List Nat} {polyfit1 : List α → List α → α}

/-- **C157.** In any precision and however the operations round: arrays of one shape, reflectivities from -200 to 200 dBZ, differential reflectivities
from -200 to 50 dB, heights of any kind (NaN and infinities included), whatever the sounding (as long as a freezing level results, even a NaN one), a
finite rain line with a slope that is not 0: the call returns two arrays of that shape; every water and every ice mass in them is finite and not
negative, and the water mass is exactly 0 wherever the differential reflectivity is negative. -/
theorem C157_masses (d r z : NdArray α) (hs : RainSpec.SameShape d r z) (T : Option (NdArray α))
    (hT : ∀ t, T = some t → t.shape = d.shape) (hfrz : Option α) (method : String) (fitA fitB : Option α)
    (fa fb h : α) (hf : LineOf fitA fitB fa fb) (hfa : ∃ r : ℝ, val fa = .fin r ∧ r ≠ 0) (hfb : ∃ r : ℝ, val fb = .fin r)
    (hh : getHfrz argsort polyfit1 (T.map (·.data)) z.data hfrz = .ok (some h))
    (hd : ∀ x ∈ d.data, Within200 x) (hr : ∀ x ∈ r.data, Zdr50 x) :
    ∃ w i : NdArray α, calcLiquidIceMassVal argsort polyfit1 (.arr d) (.arr r) (.arr z) (T.map .arr) hfrz method
        fitA fitB = .ok (some (.arr w, .arr i)) ∧ w.shape = d.shape ∧ i.shape = d.shape ∧ w.WF ∧ i.WF ∧
      (∀ x ∈ w.data, FinNonneg x) ∧ (∀ x ∈ i.data, FinNonneg x) ∧
      ∀ (n : Nat) (rv : α), r.data[n]? = some rv → XR.lt (val rv) (.fin 0) = true →
        ∃ wv, w.data[n]? = some wv ∧ val wv = .fin 0 := by
  obtain ⟨hl1, hl2⟩ := Rain.SameShape.lengths hs
  obtain ⟨gs, h1, h2, h3⟩ := exists_gates3 d.data r.data z.data hl1 hl2
  have hw : gs.length = d.shape.prod := by
    have : gs.length = d.data.length := by rw [← h1]; simp
    rw [this]; exact hs.1
  have key := liquidIceCalcs_gates fitA fitB fa fb (fits_ofLine hf) h gs
  rw [h1, h2, h3] at key
  have call : calcLiquidIceMassVal argsort polyfit1 (.arr d) (.arr r) (.arr z) (T.map .arr) hfrz method fitA fitB =
      .ok (some (.arr ⟨.float, d.shape, gs.map (fun g => water1 fa fb g.1 g.2.1 (thresh1 h g.2.2))⟩,
        .arr ⟨.float, d.shape, gs.map (fun g => ice1 fa fb g.1 g.2.1 (thresh1 h g.2.2))⟩)) := by
    rcases T with _ | t
    · simp only [Option.map_none] at hh
      simp only [calcLiquidIceMassVal, hs.2.2.2.1.symm, hs.2.2.2.2.symm, and_self, if_true, calcLiquidIceMass,
        Option.map_none, hh, bind, Except.bind, key, pure, Except.pure]
    · simp only [Option.map_some] at hh
      simp only [calcLiquidIceMassVal, hs.2.2.2.1.symm, hs.2.2.2.2.symm, and_self, if_true, calcLiquidIceMass,
        Option.map_some, hh, bind, Except.bind, key, pure, Except.pure, hT t rfl]
  have gd : ∀ g ∈ gs, Within200 g.1 := fun g hg => hd _ (by rw [← h1]; exact List.mem_map_of_mem hg)
  have gr : ∀ g ∈ gs, Zdr50 g.2.1 := fun g hg => hr _ (by rw [← h2]; exact List.mem_map_of_mem (f := fun g => g.2.1) hg)
  refine ⟨_, _, call, rfl, rfl, by simpa [NdArray.WF] using hw, by simpa [NdArray.WF] using hw, ?_, ?_, ?_⟩
  · intro x hx
    obtain ⟨g, hg, rfl⟩ := List.mem_map.mp hx
    exact water1_float _ hfa hfb (gd g hg) (gr g hg)
  · intro x hx
    obtain ⟨g, hg, rfl⟩ := List.mem_map.mp hx
    exact ice1_float _ hfa hfb (gd g hg) (gr g hg)
  · intro n rv e hneg
    rw [← h2, List.getElem?_map] at e
    obtain ⟨g, hg, rfl⟩ := Option.map_eq_some_iff.mp e
    refine ⟨_, by rw [List.getElem?_map, hg]; rfl, water1_neg _ hneg⟩

/-- **C157** with the published rain line and no sounding: the plain call. -/
theorem C157_plain (d r z : NdArray α) (hs : RainSpec.SameShape d r z) (method : String)
    (hd : ∀ x ∈ d.data, Within200 x) (hr : ∀ x ∈ r.data, Zdr50 x) :
    ∃ w i : NdArray α, calcLiquidIceMassVal argsort polyfit1 (.arr d) (.arr r) (.arr z) none none method
        none none = .ok (some (.arr w, .arr i)) ∧ w.shape = d.shape ∧ i.shape = d.shape ∧
      (∀ x ∈ w.data, FinNonneg x) ∧ ∀ x ∈ i.data, FinNonneg x := by
  obtain ⟨w, i, e, e1, e2, -, -, e5, e6, -⟩ := C157_masses (argsort := argsort) (polyfit1 := polyfit1) d r z hs none (by simp) none method
    none none 0.8178 12.5088 defaultHfrz (.inr ⟨rfl, rfl, rfl⟩) published_line.1 published_line.2 rfl hd hr
  exact ⟨w, i, e, e1, e2, e5, e6⟩

/-- The hypotheses of `C157_masses` are met in single precision: hail, drizzle and a gate with a negative differential reflectivity and a NaN height. -/
example : RainSpec.SameShape (⟨.float, [3], [60, 20, 5]⟩ : NdArray Binary32) (⟨.float, [3], [0, 1, -2]⟩ : NdArray Binary32)
    (⟨.float, [3], [1, 5, nan]⟩ : NdArray Binary32) ∧ (∀ x ∈ [(60 : Binary32), 20, 5], Within200 x) ∧
    (∀ x ∈ [(0 : Binary32), 1, -2], Zdr50 x) ∧ XR.lt (val (-2 : Binary32)) (.fin 0) = true := by
  refine ⟨⟨rfl, rfl, rfl, rfl, rfl⟩, ?_, ?_, ?_⟩
  · intro x hx
    simp only [List.mem_cons, List.not_mem_nil, or_false] at hx
    rcases hx with rfl | rfl | rfl
    · exact ⟨60, Ieee.voflit 60 (by norm_num), by norm_num, by norm_num⟩
    · exact ⟨20, Ieee.voflit 20 (by norm_num), by norm_num, by norm_num⟩
    · exact ⟨5, Ieee.voflit 5 (by norm_num), by norm_num, by norm_num⟩
  · intro x hx
    simp only [List.mem_cons, List.not_mem_nil, or_false] at hx
    rcases hx with rfl | rfl | rfl
    · exact ⟨0, Ieee.vzero, by norm_num, by norm_num⟩
    · exact ⟨1, Ieee.vone, by norm_num, by norm_num⟩
    · exact ⟨_, vneg_nat 2 (by norm_num), by norm_num, by norm_num⟩
  · rw [vneg_nat 2 (by norm_num)]
    simp [XR.lt]

end Csu.LiquidIce
