import Verif.Model.Fundamentals
import Verif.XReal
import Mathlib.Analysis.SpecialFunctions.Integrals.Basic
/-! # Values of the `fundamentals` functions on real arguments -/
namespace Csu.Fund
open Csu PyFloat XR

theorem powFin_nat (a : ℝ) (n : ℕ) (hn : 0 < n) : powFin a (n : ℝ) = .fin (a ^ n) := by
  unfold powFin
  split
  · rw [Real.rpow_natCast]
  · split
    · rename_i h
      rw [h, if_pos (by exact_mod_cast hn), zero_pow hn.ne']
    · rw [if_pos (by simp)]; simp

theorem fpow2 (a : ℝ) : (XR.fin a ^ XR.fin 2 : XR) = .fin (a ^ 2) := by
  have h := powFin_nat a 2 (by norm_num)
  rw [fpow_def, ← h]; norm_num
theorem fpow3 (a : ℝ) : (XR.fin a ^ XR.fin 3 : XR) = .fin (a ^ 3) := by
  have h := powFin_nat a 3 (by norm_num)
  rw [fpow_def, ← h]; norm_num
theorem fpow4 (a : ℝ) : (XR.fin a ^ XR.fin 4 : XR) = .fin (a ^ 4) := by
  have h := powFin_nat a 4 (by norm_num)
  rw [fpow_def, ← h]; norm_num
theorem fpow5 (a : ℝ) : (XR.fin a ^ XR.fin 5 : XR) = .fin (a ^ 5) := by
  have h := powFin_nat a 5 (by norm_num)
  rw [fpow_def, ← h]; norm_num
theorem fpow6 (a : ℝ) : (XR.fin a ^ XR.fin 6 : XR) = .fin (a ^ 6) := by
  have h := powFin_nat a 6 (by norm_num)
  rw [fpow_def, ← h]; norm_num

theorem c_val : (c : XR) = .fin 3e8 := by rw [c, XR.fsci]
theorem earth_val : (earthRadius : XR) = .fin 6371000 := by rw [earthRadius, foflit]
theorem r43_val : (r43 : XR) = .fin (6371000 * 4 / 3) := by
  rw [r43, earth_val, foflit, foflit, fmul, fdiv (by norm_num)]

theorem deg2rad_val (x : ℝ) : deg2rad (XR.fin x) = .fin (x * (Real.pi / 180)) := by
  rw [deg2rad, fpi, foflit, fdiv (by norm_num), fmul]
theorem lin_val (x : ℝ) : lin (XR.fin x) = .fin ((10 : ℝ) ^ (x / 10)) := by
  rw [lin, foflit, fdiv (by norm_num), fpow (by norm_num)]

theorem ratio_val {a b : ℝ} (ha : 0 < a) (hb : 0 < b) :
    (10 * PyFloat.log10 (XR.fin a / XR.fin b) : XR) = .fin (10 * Real.logb 10 (a / b)) := by
  rw [fdiv hb.ne', flog10 (by positivity), foflit, fmul]

theorem radarConst_val (p g tau wl bh bv al rl : ℝ) (hw : wl ≠ 0) :
    radarConst (fin p) (fin g) (fin tau) (fin wl) (fin bh) (fin bv) (fin al) (fin rl) =
      .fin (Real.pi ^ 3 * 3e8 * p * ((10 : ℝ) ^ (g / 10)) ^ 2 * tau * (bh * (Real.pi / 180)) * (bv * (Real.pi / 180)) *
        (10 : ℝ) ^ (al / 10) * (10 : ℝ) ^ (rl / 10) / (1024 * Real.log 2 * wl ^ 2)) := by
  unfold radarConst
  dsimp only
  have hl : Real.log 2 ≠ 0 := (Real.log_pos (by norm_num)).ne'
  simp only [lin_val, deg2rad_val, c_val, fpi, foflit, fpow2, fpow3, fpow4, fpow5, fpow6, fmul]
  rw [fln (by norm_num)]
  simp only [fmul]
  rw [fdiv (by positivity)]

theorem antEffArea_val (g wl : ℝ) : antEffArea (fin g) (fin wl) = .fin ((10 : ℝ) ^ (g / 10) * wl ^ 2 / (4 * Real.pi)) := by
  unfold antEffArea
  simp only [lin_val, fpi, foflit, fpow2, fpow3, fpow4, fpow5, fpow6, fmul]
  rw [fdiv (by positivity)]

theorem powerTarget_val (p g s r : ℝ) (hr : r ≠ 0) :
    powerTarget (fin p) (fin g) (fin s) (fin r) = .fin (p * (10 : ℝ) ^ (g / 10) * s / (4 * Real.pi * r ^ 2)) := by
  unfold powerTarget
  simp only [lin_val, fpi, foflit, fpow2, fpow3, fpow4, fpow5, fpow6, fmul]
  rw [fdiv (by positivity)]

theorem xsec_val (d wl k : ℝ) (hw : wl ≠ 0) :
    xsecBscatterSphere (fin d) (fin wl) (fin k) = .fin (Real.pi ^ 5 * k ^ 2 * d ^ 6 / wl ^ 4) := by
  unfold xsecBscatterSphere
  simp only [fpi, foflit, fpow2, fpow3, fpow4, fpow5, fpow6, fmul]
  rw [fdiv (by positivity)]

theorem normXsec_val (d wl k : ℝ) (hd : d ≠ 0) (hw : wl ≠ 0) :
    normXsecBscatterSphere (fin d) (fin wl) (fin k) =
      .fin (Real.pi ^ 5 * k ^ 2 * d ^ 6 / wl ^ 4 / (Real.pi * (d / 2) ^ 2)) := by
  unfold normXsecBscatterSphere
  rw [xsec_val d wl k hw, foflit, fdiv (by norm_num)]
  rw [fpow2, fpi, fmul, fdiv (by positivity)]

theorem sizeParam_val (d wl : ℝ) (hw : wl ≠ 0) : sizeParam (fin d) (fin wl) = .fin (2 * Real.pi * d / 2 / wl) := by
  unfold sizeParam
  simp only [fpi, foflit, fmul]
  rw [fdiv (by norm_num), fdiv hw]

theorem powerReturn_val (p g wl s r : ℝ) (hr : r ≠ 0) :
    powerReturnTarget (fin p) (fin g) (fin wl) (fin s) (fin r) =
      .fin (p * ((10 : ℝ) ^ (g / 10)) ^ 2 * wl ^ 2 * s / (64 * Real.pi ^ 3 * r ^ 4)) := by
  unfold powerReturnTarget
  simp only [lin_val, fpi, foflit, fpow2, fpow3, fpow4, fpow5, fpow6, fmul]
  rw [fdiv (by positivity)]

theorem vmax_val (prf wl : ℝ) : vmax (fin prf) (fin wl) = .fin (prf * wl / 4) := by
  unfold vmax; rw [foflit, fmul, fdiv (by norm_num)]
theorem rmax_val (prf : ℝ) (h : prf ≠ 0) : rmax (fin prf) = .fin (3e8 / (2 * prf)) := by
  unfold rmax; rw [c_val, foflit, fmul, fdiv (by positivity)]
theorem dilemma_val (x wl : ℝ) (h : x ≠ 0) : dopplerDilemma (fin x) (fin wl) = .fin (3e8 * wl / 8 / x) := by
  unfold dopplerDilemma; rw [c_val, foflit, fmul, fdiv (by norm_num), fdiv h]

theorem pydiv_val (x y : ℝ) (h : y ≠ 0) : pydiv (fin x) (fin y) = .ok (.fin (x / y)) := by
  unfold pydiv; rw [fzero, feq, if_neg (by simpa using h), fdiv h]
theorem pydiv_zero (x : XR) : pydiv x (fin 0) = .error .zeroDivisionError := by
  unfold pydiv; rw [fzero, feq, if_pos (by simp)]

theorem vmaxDual_val (wl p1 p2 : ℝ) (h1 : p1 ≠ 0) (h2 : p2 ≠ 0) (h : p1 ≠ p2) :
    vmaxDual (fin wl) (fin p1) (fin p2) = .ok (.fin (wl / (4 * (1 / p1 - 1 / p2)))) := by
  unfold vmaxDual
  rw [fone, pydiv_val _ _ h1]
  show (pydiv (fin 1) (fin p2) >>= fun b => _) = _
  rw [pydiv_val _ _ h2]
  show pydiv (fin wl) (4 * (fin (1 / p1) - fin (1 / p2))) = _
  rw [foflit, fsub, fmul]
  apply pydiv_val
  have : 1 / p1 - 1 / p2 ≠ 0 := by
    rw [sub_ne_zero, one_div, one_div]; simpa using h
  positivity

theorem rayHeight_val (r e h0 R : ℝ) (hR : 0 ≤ r ^ 2 + R ^ 2 + 2 * r * R * Real.sin (e * (Real.pi / 180))) :
    rayHeight (fin r) (fin e) (fin h0) (fin R) =
      .fin (Real.sqrt (r ^ 2 + R ^ 2 + 2 * r * R * Real.sin (e * (Real.pi / 180))) - R + h0) := by
  unfold rayHeight
  dsimp only
  rw [deg2rad_val]
  simp only [foflit, fpow2, fpow3, fpow4, fpow5, fpow6, fmul, fsin, fadd]
  rw [fsqrt hR, fsub, fadd]

theorem radicand_nonneg (r R s : ℝ) (h1 : -1 ≤ s) (h2 : s ≤ 1) : 0 ≤ r ^ 2 + R ^ 2 + 2 * r * R * s := by
  have : r ^ 2 + R ^ 2 + 2 * r * R * s = (R + r * s) ^ 2 + r ^ 2 * (1 - s ^ 2) := by ring
  rw [this]
  have : s ^ 2 ≤ 1 := by nlinarith
  have : 0 ≤ r ^ 2 * (1 - s ^ 2) := mul_nonneg (sq_nonneg _) (by linarith)
  positivity

theorem volIdeal_val (r a b l : ℝ) : sampleVolIdeal (fin r) (fin a) (fin b) (fin l) =
    .fin (Real.pi * (r * (a * (Real.pi / 180)) / 2) * (r * (b * (Real.pi / 180)) / 2) * (l / 2)) := by
  unfold sampleVolIdeal
  simp only [deg2rad_val, fpi, foflit, fmul]
  rw [fdiv (by norm_num), fdiv (by norm_num), fdiv (by norm_num)]
  simp only [fmul]

theorem volGauss_val (r a b l : ℝ) : sampleVolGauss (fin r) (fin a) (fin b) (fin l) =
    .fin (Real.pi * r ^ 2 * (a * (Real.pi / 180)) * (b * (Real.pi / 180)) * l / (16 * Real.log 2)) := by
  unfold sampleVolGauss
  dsimp only
  have hl : Real.log 2 ≠ 0 := (Real.log_pos (by norm_num)).ne'
  simp only [deg2rad_val, fpi, foflit, fpow2, fpow3, fpow4, fpow5, fpow6, fmul]
  rw [fln (by norm_num), fmul, fdiv (by positivity)]

/-- the real function computed by `beam_block_frac` with `y = terrain - height` -/
noncomputable def blockR (a y : ℝ) : ℝ :=
  (y * Real.sqrt (a ^ 2 - y ^ 2) + a ^ 2 * Real.arcsin (y / a) + Real.pi * a ^ 2 / 2) / (Real.pi * a ^ 2)

theorem block_val (t h a : ℝ) (ha : 0 < a) (h1 : -a ≤ t - h) (h2 : t - h ≤ a) :
    beamBlockFrac (fin t) (fin h) (fin a) = .fin (blockR a (t - h)) := by
  unfold beamBlockFrac
  dsimp only
  rw [fsub, fdiv ha.ne', fasin (by rw [le_div_iff₀ ha]; linarith) (by rw [div_le_iff₀ ha]; linarith)]
  simp only [foflit, fpow2, fpow3, fpow4, fpow5, fpow6, fpi, fsub]
  rw [fsqrt (by nlinarith)]
  simp only [fmul]
  rw [fdiv (by norm_num)]
  simp only [fadd]
  rw [fdiv (by positivity)]
  rfl

theorem block_nan (t h a : ℝ) (ha : 0 < a) (hy : t - h < -a ∨ a < t - h) :
    beamBlockFrac (fin t) (fin h) (fin a) = XR.nan := by
  unfold beamBlockFrac
  dsimp only
  rw [fsub, fdiv ha.ne']
  have : (PyFloat.asin (fin ((t - h) / a)) : XR) = XR.nan := by
    show XR.asin (fin ((t - h) / a)) = XR.nan
    rw [XR.asin, if_neg]
    rintro ⟨h1, h2⟩
    rw [le_div_iff₀ ha] at h1
    rw [div_le_iff₀ ha] at h2
    rcases hy with hy | hy <;> linarith
  rw [this]
  simp
end Csu.Fund
