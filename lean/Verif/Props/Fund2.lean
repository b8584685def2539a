import Verif.Props.Fund
/-! # C73-C78: consistency relations in `fundamentals.py` -/
namespace Csu.Fund
open Csu PyFloat XR

/-! ## C73: the radar equation -/

/-- **C73.** The power returned by a target is the power it intercepts (with its backscatter cross-section as area), spread
over a sphere of radius `r` and collected by the antenna's effective area. -/
theorem C73_radar_equation (p g wl s r : ℝ) (hr : 0 < r) : ∃ pr pt ae : ℝ,
    powerReturnTarget (fin p) (fin g) (fin wl) (fin s) (fin r) = fin pr ∧
    powerTarget (fin p) (fin g) (fin s) (fin r) = fin pt ∧ antEffArea (fin g) (fin wl) = fin ae ∧
    pr = pt / (4 * Real.pi * r ^ 2) * ae := by
  refine ⟨_, _, _, powerReturn_val p g wl s r hr.ne', powerTarget_val p g s r hr.ne', antEffArea_val g wl, ?_⟩
  have := Real.pi_pos
  field_simp; norm_num

/-- **C73.** For positive power, cross-section, wavelength and range the returned power is positive and falls with the fourth
power of the range. -/
theorem C73_fourth_power (p g wl s r k : ℝ) (hp : 0 < p) (hs : 0 < s) (hw : 0 < wl) (hr : 0 < r) (hk : 0 < k) : ∃ pr : ℝ, 0 < pr ∧
    powerReturnTarget (fin p) (fin g) (fin wl) (fin s) (fin r) = fin pr ∧
    powerReturnTarget (fin p) (fin g) (fin wl) (fin s) (fin (k * r)) = fin (pr / k ^ 4) := by
  have := Real.pi_pos
  refine ⟨_, ?_, powerReturn_val p g wl s r hr.ne', ?_⟩
  · have : (0:ℝ) < (10:ℝ) ^ (g / 10) := Real.rpow_pos_of_pos (by norm_num) _
    positivity
  · rw [powerReturn_val p g wl s _ (by positivity)]; congr 1; field_simp

/-- C84, full statement, for ranges given as integers: the same as for the float of that value. -/
def C84Full : Prop := ∀ (p g wl s : ℝ) (n : ℤ), 0 < n →
  powerReturnTargetInt (fin p) (fin g) (fin wl) (fin s) n = powerReturnTarget (fin p) (fin g) (fin wl) (fin s) (fin n)

theorem returnInt_val (p g wl s : ℝ) (n : ℤ) : powerReturnTargetInt (fin p) (fin g) (fin wl) (fin s) n =
    fin (p * ((10 : ℝ) ^ (g / 10)) ^ 2 * wl ^ 2 * s) / fin (64 * Real.pi ^ 3 * (wrap64 (n ^ 4) : ℤ)) := by
  unfold powerReturnTargetInt
  simp only [lin_val, fpi, foflit, fpow2, fpow3, fofInt, fmul]

/-- **C84 holds** up to 55108 m … -/
theorem C84_integer_range_partial (p g wl s : ℝ) (n : ℤ) (h0 : 0 < n) (h1 : n ≤ 55108) :
    powerReturnTargetInt (fin p) (fin g) (fin wl) (fin s) n = powerReturnTarget (fin p) (fin g) (fin wl) (fin s) (fin n) := by
  have hw : wrap64 (n ^ 4) = n ^ 4 := by
    unfold wrap64
    have a : n ^ 4 ≤ 55108 ^ 4 := pow_le_pow_left₀ h0.le h1 4
    have b : 0 ≤ n ^ 4 := by positivity
    rw [Int.emod_eq_of_lt (by omega) (by norm_num at a ⊢; omega)]; omega
  have hn : (0 : ℝ) < n := by exact_mod_cast h0
  have := Real.pi_pos
  rw [returnInt_val, hw, powerReturn_val p g wl s n hn.ne', fdiv (by push_cast; positivity)]
  congr 1; push_cast; rfl

/-- … **and is false beyond**: at 65536 m the fourth power wraps to 0 and the returned power is infinite; at 55109 m it is
negative. -/
theorem C84_integer_range_false :
    (∀ p g wl s : ℝ, 0 < p → 0 < wl → 0 < s → powerReturnTargetInt (fin p) (fin g) (fin wl) (fin s) 65536 = XR.pinf) ∧
    (∀ p g wl s : ℝ, 0 < p → 0 < wl → 0 < s → ∃ x : ℝ, x < 0 ∧ powerReturnTargetInt (fin p) (fin g) (fin wl) (fin s) 55109 = fin x) ∧
    ¬ C84Full := by
  have hpos : ∀ p g wl s : ℝ, 0 < p → 0 < wl → 0 < s → 0 < p * ((10 : ℝ) ^ (g / 10)) ^ 2 * wl ^ 2 * s := by
    intro p g wl s hp hw hs
    have : (0:ℝ) < (10:ℝ) ^ (g / 10) := Real.rpow_pos_of_pos (by norm_num) _
    positivity
  have h1 : ∀ p g wl s : ℝ, 0 < p → 0 < wl → 0 < s → powerReturnTargetInt (fin p) (fin g) (fin wl) (fin s) 65536 = XR.pinf := by
    intro p g wl s hp hw hs
    rw [returnInt_val, show wrap64 (65536 ^ 4) = 0 by decide, Int.cast_zero, mul_zero, fdiv_def, if_pos rfl, infOfSign,
      if_pos (hpos p g wl s hp hw hs)]
  refine ⟨h1, ?_, fun h => ?_⟩
  · intro p g wl s hp hw hs
    have e : wrap64 (55109 ^ 4) = -9223363648512013455 := by decide
    have := Real.pi_pos
    refine ⟨_, ?_, by rw [returnInt_val, e, fdiv (by push_cast; simp)]⟩
    apply div_neg_of_pos_of_neg (hpos p g wl s hp hw hs)
    push_cast
    have : (0:ℝ) < 64 * Real.pi ^ 3 := by positivity
    nlinarith
  · have a := h 1 0 1 1 65536 (by norm_num)
    rw [h1 1 0 1 1 one_pos one_pos one_pos, powerReturn_val _ _ _ _ _ (by norm_num)] at a
    cases a

/-! ## C74: ratios in decibels -/

/-- **C74.** `antenna_gain`, `cdr`, `ldr` and `zdr` are the same function of their two arguments (every float type). -/
theorem C74_same {α : Type} [PyFloat α] (a b : α) :
    antennaGain a b = zdr a b ∧ cdr a b = zdr a b ∧ ldr a b = zdr a b := ⟨rfl, rfl, rfl⟩

/-- **C74.** For positive arguments: swapping negates, equal arguments (and only those) give 0 dB, ratios chain by adding,
the result grows with the first argument, and a factor of ten is 10 dB. -/
theorem C74_decibels (a b d : ℝ) (ha : 0 < a) (hb : 0 < b) (hd : 0 < d) : ∃ x y z : ℝ,
    zdr (fin a) (fin b) = fin x ∧ zdr (fin b) (fin d) = fin y ∧ zdr (fin a) (fin d) = fin z ∧
    z = x + y ∧ zdr (fin b) (fin a) = fin (-x) ∧ (x = 0 ↔ a = b) ∧ (0 < x ↔ b < a) ∧
    zdr (fin (10 * a)) (fin b) = fin (x + 10) := by
  have e : ∀ u v : ℝ, 0 < u → 0 < v → zdr (fin u) (fin v) = fin (10 * Real.logb 10 u - 10 * Real.logb 10 v) := by
    intro u v hu hv
    unfold zdr
    rw [ratio_val hu hv, Real.logb_div hu.ne' hv.ne']; congr 1; ring
  refine ⟨_, _, _, e a b ha hb, e b d hb hd, e a d ha hd, by ring, ?_, ?_, ?_, ?_⟩
  · rw [e b a hb ha]; congr 1; ring
  · constructor
    · intro h
      have : Real.logb 10 a = Real.logb 10 b := by linarith
      exact Real.logb_injOn_pos (by norm_num) ha hb this
    · rintro rfl; ring
  · rw [sub_pos, mul_lt_mul_iff_right₀ (by norm_num)]
    exact Real.logb_lt_logb_iff (by norm_num) hb ha
  · rw [e _ b (by positivity) hb, Real.logb_mul (by norm_num) ha.ne', Real.logb_self_eq_one (by norm_num)]; congr 1; ring

/-- **C74.** The documented limits: no power in the first channel is -infinity dB, none in the second +infinity. -/
theorem C74_limits (a : ℝ) (ha : 0 < a) : zdr (fin 0) (fin a) = XR.ninf ∧ zdr (fin a) (fin 0) = XR.pinf := by
  unfold zdr
  constructor
  · rw [fdiv ha.ne', zero_div]
    have : (PyFloat.log10 (fin 0) : XR) = XR.ninf := by show XR.log10 (fin 0) = _; simp [XR.log10]
    rw [this, foflit]; show XR.mul _ _ = _; simp [XR.mul, infOfSign]
  · rw [fdiv_def, if_pos rfl, infOfSign, if_pos ha]
    have : (PyFloat.log10 (XR.pinf) : XR) = XR.pinf := rfl
    rw [this, foflit]; show XR.mul _ _ = _; simp [XR.mul, infOfSign]

/-! ## C75: thermal noise -/

/-- **C75.** The noise in dBm is the noise in W on the decibel scale relative to 1 mW; the unit is not case sensitive;
anything else gives NaN. -/
theorem C75_thermal_noise (b t : ℝ) (hb : 0 < b) (ht : 0 < t) : ∃ w d : ℝ, 0 < w ∧
    (∀ u, upper u = ['W'] → thermalNoise (fin b) u (fin t) = fin w) ∧
    (∀ u, upper u = ['D', 'B', 'M'] → thermalNoise (fin b) u (fin t) = fin d) ∧
    (∀ u, upper u ≠ ['W'] → upper u ≠ ['D', 'B', 'M'] → thermalNoise (fin b) u (fin t) = XR.nan) ∧
    w = 1.381e-23 * t * b ∧ d = 10 * Real.logb 10 w + 30 := by
  have hn : (kBoltz * fin t * fin b : XR) = fin (1.381e-23 * t * b) := by rw [kBoltz, XR.fsci, fmul, fmul]
  have hw : (0:ℝ) < 1.381e-23 * t * b := by positivity
  refine ⟨1.381e-23 * t * b, 10 * Real.logb 10 (1.381e-23 * t * b) + 30, hw, ?_, ?_, ?_, rfl, rfl⟩
  · intro u hu; unfold thermalNoise; dsimp only; rw [if_pos hu, hn]
  · intro u hu; unfold thermalNoise; dsimp only
    rw [if_neg (by rw [hu]; decide), if_pos hu, hn, XR.fsci, fdiv (by norm_num), flog10 (by positivity), foflit, fmul]
    congr 1
    rw [show 1.381e-23 * t * b / 1e-3 = 1.381e-23 * t * b * 10 ^ 3 by ring, Real.logb_mul hw.ne' (by norm_num), Real.logb_pow,
      Real.logb_self_eq_one (by norm_num)]
    push_cast; ring
  · intro u h1 h2; unfold thermalNoise; dsimp only; rw [if_neg h1, if_neg h2]; rfl

example : upper ['w'] = ['W'] ∧ upper ['d', 'B', 'm'] = ['D', 'B', 'M'] ∧ upper ['k', 'W'] ≠ ['W'] := by decide

/-! ## C76: dual PRF -/

/-- **C76.** With distinct PRFs the dual-PRF Nyquist velocity is `v1 v2 / (v2 - v1)` for the single-PRF velocities; exchanging
the PRFs changes the sign only; it exceeds both single-PRF velocities when the second PRF lies between the first and its
double. -/
theorem C76_dual_prf (wl p q : ℝ) (hw : 0 < wl) (hp : 0 < p) (hq : 0 < q) (hne : p ≠ q) : ∃ v1 v2 v : ℝ,
    vmax (fin p) (fin wl) = fin v1 ∧ vmax (fin q) (fin wl) = fin v2 ∧ vmaxDual (fin wl) (fin p) (fin q) = .ok (fin v) ∧
    v = v1 * v2 / (v2 - v1) ∧ vmaxDual (fin wl) (fin q) (fin p) = .ok (fin (-v)) ∧
    (p < q → q < 2 * p → v1 < v ∧ v2 < v) := by
  have e : ∀ a b : ℝ, 0 < a → 0 < b → a ≠ b → wl / (4 * (1 / a - 1 / b)) = (a * wl / 4) * (b * wl / 4) / (b * wl / 4 - a * wl / 4) := by
    intro a b ha hb hab
    have h1 : b - a ≠ 0 := sub_ne_zero.mpr (Ne.symm hab)
    have h2 : 1 / a - 1 / b = (b - a) / (a * b) := by field_simp
    have h3 : b * wl / 4 - a * wl / 4 = (b - a) * (wl / 4) := by ring
    rw [h2, h3]
    field_simp
  refine ⟨_, _, _, vmax_val p wl, vmax_val q wl, vmaxDual_val wl p q hp.ne' hq.ne' hne, e p q hp hq hne, ?_, ?_⟩
  · rw [vmaxDual_val wl q p hq.ne' hp.ne' hne.symm]
    congr 2
    rw [show 1 / q - 1 / p = -(1 / p - 1 / q) by ring, mul_neg, div_neg]
  · intro h1 h2
    rw [e p q hp hq hne]
    have hd : 0 < q * wl / 4 - p * wl / 4 := by nlinarith
    constructor
    · rw [lt_div_iff₀ hd]; nlinarith [mul_pos hw hp, mul_pos hw hq, mul_pos (mul_pos hw hp) (mul_pos hw hp)]
    · rw [lt_div_iff₀ hd]
      have : 0 < (q * wl) * (2 * p - q) * wl := by
        have : 0 < 2 * p - q := by linarith
        positivity
      nlinarith

/-- **C76.** Equal PRFs, or a PRF of zero, raise ZeroDivisionError. -/
theorem C76_raises (wl p : ℝ) (hp : p ≠ 0) :
    vmaxDual (fin wl) (fin p) (fin p) = .error .zeroDivisionError ∧ vmaxDual (fin wl) (fin 0) (fin p) = .error .zeroDivisionError ∧
    vmaxDual (fin wl) (fin p) (fin 0) = .error .zeroDivisionError := by
  refine ⟨?_, ?_, ?_⟩
  · unfold vmaxDual
    rw [fone, pydiv_val _ _ hp]
    show pydiv (fin wl) (4 * (fin (1 / p) - fin (1 / p))) = _
    rw [fsub, sub_self, foflit, fmul, mul_zero, pydiv_zero]
  · unfold vmaxDual; rw [pydiv_zero]; rfl
  · unfold vmaxDual; rw [fone, pydiv_val _ _ hp, pydiv_zero]; rfl

example : (0:ℝ) < 1000 ∧ (1000:ℝ) ≠ 1200 ∧ (1000:ℝ) < 1200 ∧ (1200:ℝ) < 2 * 1000 := by norm_num

/-! ## C77: Rayleigh scattering -/

/-- **C77.** The backscatter cross-section grows with the sixth power of diameter and falls with the fourth power of wavelength;
normalised by the geometric cross-section it is `4 K² α⁴` with the size parameter `α`. -/
theorem C77_rayleigh (d wl k s : ℝ) (hd : 0 < d) (hw : 0 < wl) (hs : 0 < s) : ∃ x n a : ℝ,
    xsecBscatterSphere (fin d) (fin wl) (fin k) = fin x ∧ normXsecBscatterSphere (fin d) (fin wl) (fin k) = fin n ∧
    sizeParam (fin d) (fin wl) = fin a ∧ x = n * (Real.pi * (d / 2) ^ 2) ∧ n = 4 * k ^ 2 * a ^ 4 ∧
    xsecBscatterSphere (fin (s * d)) (fin wl) (fin k) = fin (s ^ 6 * x) ∧
    xsecBscatterSphere (fin d) (fin (s * wl)) (fin k) = fin (x / s ^ 4) := by
  have := Real.pi_pos
  refine ⟨_, _, _, xsec_val d wl k hw.ne', normXsec_val d wl k hd.ne' hw.ne', sizeParam_val d wl hw.ne', ?_, ?_, ?_, ?_⟩
  · field_simp
  · field_simp; norm_num
  · rw [xsec_val _ _ _ hw.ne']; congr 1; field_simp
  · rw [xsec_val _ _ _ (by positivity)]; congr 1; field_simp

/-! ## C78: `zdp` on integer arrays -/

/-- C78, full statement: `zdp` of an integer array is that of the float array with the same values. -/
def C78Full : Prop := ∀ gs : List (ℤ × ℤ),
  zdp .int (gs.map (fun p => fin p.1)) (gs.map (fun p => fin p.2)) = zdp .float (gs.map (fun p => fin p.1)) (gs.map (fun p => fin p.2))

/-- **C78 is false**: on integer arrays the decibel values are truncated toward zero and gates without a value hold the smallest
64-bit integer instead of NaN. -/
theorem C78_integer_zdp (gs : List (ℤ × ℤ)) :
    zdp .int (gs.map (fun p => fin p.1)) (gs.map (fun p => fin p.2)) = .ok (gs.map (fun p =>
      if p.2 < p.1 then fin ((XR.truncR (10 * Real.logb 10 ((p.1 : ℝ) - p.2)) : ℤ) : ℝ) else fin (-9223372036854775808))) := by
  have := zdp_map .int (gs.map (fun p => ((fin p.1 : XR), (fin p.2 : XR))))
  simp only [List.map_map, Function.comp_def] at this
  rw [this]
  congr 1
  apply List.map_congr_left
  intro p _
  rw [fgt]
  by_cases h : p.2 < p.1
  · have hr : (p.2 : ℝ) < p.1 := by exact_mod_cast h
    rw [if_pos (by simpa using h), if_pos h, fsub, flog10 (by linarith), foflit, fmul, store, ftrunc]
  · rw [if_neg (by simpa using h), if_neg h, nanLike, fofInt]; norm_num

theorem C78_full_false : ¬ C78Full := by
  intro h
  have a := h [(1, 2)]
  have b := C78_integer_zdp [(1, 2)]
  rw [b] at a
  have c := zdp_map .float [((fin ((1:ℤ):ℝ) : XR), (fin ((2:ℤ):ℝ) : XR))]
  simp only [List.map_cons, List.map_nil] at a c
  rw [c, fgt, if_neg (by norm_num), if_neg (by norm_num)] at a
  simp [nanLike] at a
end Csu.Fund
