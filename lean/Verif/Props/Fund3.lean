import Verif.Props.Fund2
/-!
# Properties C135, C136 (and the default radius of C67): the functions of `fundamentals.py` fit together
-/
namespace Csu.Fund
open Csu PyFloat XR

/-- power that a drop of diameter `D` at range `r` returns: the target's backscatter cross-section into the radar equation of a target -/
noncomputable def dropEcho (p g wl K r : ℝ) (D : ℝ) : XR := powerReturnTarget (fin p) (fin g) (fin wl) (xsecBscatterSphere (fin D) (fin wl) (fin K)) (fin r)

/-- **C135.** Fill the Gaussian sample volume (pulse length `c tau`) at range `r` with drops of any diameters. Each returns a power by `power_return_target` and
`xsec_bscatter_sphere`; their sum is `radar_const * K² * Z / r²` with `Z` the sum of the sixth powers of the diameters per volume: the weather radar equation,
for losses of 0 dB. A loss of `a` and `b` dB multiplies the constant by `10^((a+b)/10)`. -/
theorem C135_weather_radar_equation (p g tau wl bh bv K r : ℝ) (ds : List ℝ) (hw : 0 < wl) (hr : 0 < r) (ht : 0 < tau) (hh : 0 < bh) (hv : 0 < bv) :
    ∃ C v : ℝ, radarConst (fin p) (fin g) (fin tau) (fin wl) (fin bh) (fin bv) (fin 0) (fin 0) = fin C ∧ 0 < v ∧
      sampleVolGauss (fin r) (fin bh) (fin bv) (fin (3e8 * tau)) = fin v ∧
      (∃ echo : List ℝ, ds.map (dropEcho p g wl K r) = echo.map fin ∧
        echo.sum = C * K ^ 2 * ((ds.map (· ^ 6)).sum / v) / r ^ 2) ∧
      (0 < p → 0 < C) ∧
      ∀ a b : ℝ, radarConst (fin p) (fin g) (fin tau) (fin wl) (fin bh) (fin bv) (fin a) (fin b) = fin (C * 10 ^ ((a + b) / 10)) := by
  have hl : 0 < Real.log 2 := Real.log_pos (by norm_num)
  have h10 : (0 : ℝ) < 10 ^ (g / 10) := Real.rpow_pos_of_pos (by norm_num) _
  have hpi := Real.pi_pos
  refine ⟨_, _, radarConst_val p g tau wl bh bv 0 0 hw.ne', ?_, volGauss_val _ _ _ _, ?_, ?_, ?_⟩
  · positivity
  · refine ⟨ds.map (fun D => p * ((10 : ℝ) ^ (g / 10)) ^ 2 * wl ^ 2 * (Real.pi ^ 5 * K ^ 2 * D ^ 6 / wl ^ 4) / (64 * Real.pi ^ 3 * r ^ 4)), ?_, ?_⟩
    · rw [List.map_map]
      apply List.map_congr_left
      intro D _
      simp only [dropEcho, Function.comp]
      rw [xsec_val D wl K hw.ne', powerReturn_val _ _ _ _ _ hr.ne']
    · have : ∀ k : ℝ, (ds.map (fun D => p * ((10 : ℝ) ^ (g / 10)) ^ 2 * wl ^ 2 * (Real.pi ^ 5 * K ^ 2 * D ^ 6 / wl ^ 4) / (64 * Real.pi ^ 3 * r ^ 4))).sum
          = p * ((10 : ℝ) ^ (g / 10)) ^ 2 * wl ^ 2 * (Real.pi ^ 5 * K ^ 2 / wl ^ 4) / (64 * Real.pi ^ 3 * r ^ 4) * (ds.map (· ^ 6)).sum := by
        intro _
        rw [← List.sum_map_mul_left]
        congr 1
        apply List.map_congr_left
        intro D _
        ring
      rw [this 0]
      simp only [zero_div, Real.rpow_zero]
      field_simp
      ring
  · intro hp
    positivity
  · intro a b
    rw [radarConst_val p g tau wl bh bv a b hw.ne']
    congr 1
    rw [add_div, Real.rpow_add (by norm_num)]
    simp only [zero_div, Real.rpow_zero]
    ring

/-- **C135**, consequence for the package's own `pulse_length`, which is the half `c tau / 2` of the returned pulse: the sample volume computed with it is half
of the one the radar constant stands for. -/
theorem C135_pulse_length (tau r bh bv : ℝ) : ∃ l v w : ℝ, pulseLength (fin tau) = fin l ∧ sampleVolGauss (fin r) (fin bh) (fin bv) (fin l) = fin v ∧
    sampleVolGauss (fin r) (fin bh) (fin bv) (fin (3e8 * tau)) = fin w ∧ w = 2 * v := by
  refine ⟨3e8 * tau / 2, _, _, ?_, volGauss_val _ _ _ _, volGauss_val _ _ _ _, ?_⟩
  · unfold pulseLength
    rw [c_val, fmul, foflit, fdiv (by norm_num)]
  · ring

/-- C136 in full: with the documented dielectric factor of a particle, `|K|²` (0.93 for water, 0.176 for ice), `xsec_bscatter_sphere` is the Rayleigh
backscatter cross-section, i.e. 3/2 of the scattering cross-section `scat_coeff` of the same sphere. -/
def C136Full : Prop := ∀ (d wl : ℝ) (m k : ℂ) (qs : ℝ), 0 < d → 0 < wl → kComplex m = .ok k → scatCoeff d wl m = .ok qs →
  xsecBscatterSphere (fin d) (fin wl) (fin (‖k‖ ^ 2)) = fin (3 / 2 * qs)

/-- **C136**, what holds: with the amplitude `|K|` (0.964 for water) as dielectric factor, `xsec_bscatter_sphere` is 3/2 of `scat_coeff`; with `|K|²` it is
smaller by the factor `|K|²`, so right only for `|K| = 1` or no scattering at all. -/
theorem C136_rayleigh_partial (d wl : ℝ) (m k : ℂ) (hd : 0 < d) (hw : 0 < wl) (hk : kComplex m = .ok k) : ∃ qs : ℝ,
    scatCoeff d wl m = .ok qs ∧ xsecBscatterSphere (fin d) (fin wl) (fin ‖k‖) = fin (3 / 2 * qs) ∧
    xsecBscatterSphere (fin d) (fin wl) (fin (‖k‖ ^ 2)) = fin (3 / 2 * qs * ‖k‖ ^ 2) := by
  refine ⟨2 * Real.pi ^ 5 * d ^ 6 / (3 * wl ^ 4) * ‖k‖ ^ 2, ?_, ?_, ?_⟩
  · simp only [scatCoeff, hk]; rfl
  · rw [xsec_val d wl _ hw.ne']; congr 1; field_simp
  · rw [xsec_val d wl _ hw.ne']; congr 1; field_simp

/-- **C136** is false of the code. -/
theorem C136_full_false : ¬ C136Full := by
  intro h
  have hk : kComplex 2 = .ok (1 / 2) := by
    unfold kComplex
    rw [if_neg (by norm_num)]
    norm_num
  obtain ⟨qs, h1, -, h3⟩ := C136_rayleigh_partial 1 1 2 (1 / 2) one_pos one_pos hk
  have h4 := h 1 1 2 (1 / 2) qs one_pos one_pos hk h1
  rw [h3] at h4
  have h5 : 0 < qs := by
    obtain ⟨-, qs', -, hs', -, hp, -⟩ := C66_scaling 1 1 1 2 (by norm_num) one_ne_zero
    rw [h1] at hs'; cases hs'
    exact hp one_ne_zero (by norm_num)
  have h6 : (3 / 2 * qs * ‖(1 / 2 : ℂ)‖ ^ 2) = 3 / 2 * qs := by simpa using h4
  norm_num at h6
  linarith

/-- **C67.** With `reff` left at its default, the beam height is that over a sphere of 4/3 of the earth's radius (6371 km): the distance of the point from the
sphere's centre is the third side of the triangle with sides `r` and `R` and the angle `90 + elev` degrees. -/
theorem C67_default_radius (r e h0 : ℝ) (hr : 0 ≤ r) : ∃ h : ℝ, rayHeight (fin r) (fin e) (fin h0) (r43 : XR) = fin h ∧
    (h - h0 + 6371000 * 4 / 3) ^ 2 = r ^ 2 + (6371000 * 4 / 3) ^ 2 - 2 * r * (6371000 * 4 / 3) * Real.cos ((90 + e) * (Real.pi / 180)) ∧
    0 ≤ h - h0 + 6371000 * 4 / 3 := by
  have hc : Real.cos ((90 + e) * (Real.pi / 180)) = - Real.sin (e * (Real.pi / 180)) := by
    rw [show (90 + e) * (Real.pi / 180) = e * (Real.pi / 180) + Real.pi / 2 by ring, Real.cos_add_pi_div_two]
  have hn : 0 ≤ r ^ 2 + (6371000 * 4 / 3 : ℝ) ^ 2 + 2 * r * (6371000 * 4 / 3) * Real.sin (e * (Real.pi / 180)) := by
    have := Real.neg_one_le_sin (e * (Real.pi / 180))
    nlinarith [sq_nonneg (r - 6371000 * 4 / 3), mul_nonneg hr (by norm_num : (0 : ℝ) ≤ 6371000 * 4 / 3)]
  refine ⟨_, by rw [r43_val]; exact rayHeight_val _ _ _ _ hn, ?_, ?_⟩
  · rw [hc, show Real.sqrt (r ^ 2 + (6371000 * 4 / 3) ^ 2 + 2 * r * (6371000 * 4 / 3) * Real.sin (e * (Real.pi / 180))) - 6371000 * 4 / 3 + h0 - h0 + 6371000 * 4 / 3
      = Real.sqrt (r ^ 2 + (6371000 * 4 / 3) ^ 2 + 2 * r * (6371000 * 4 / 3) * Real.sin (e * (Real.pi / 180))) by ring, Real.sq_sqrt hn]
    ring
  · have := Real.sqrt_nonneg (r ^ 2 + (6371000 * 4 / 3 : ℝ) ^ 2 + 2 * r * (6371000 * 4 / 3) * Real.sin (e * (Real.pi / 180)))
    linarith

/-- non-vacuity of C135: a 10 cm radar and two drops -/
example : ∃ C v : ℝ, 0 < C ∧ 0 < v ∧ radarConst (fin 500000) (fin 45) (fin 1e-6) (fin 0.1) (fin 1) (fin 1) (fin 0) (fin 0) = fin C := by
  obtain ⟨C, v, h1, h2, -, -, h3, -⟩ := C135_weather_radar_equation 500000 45 1e-6 0.1 1 1 0.964 30000 [0.001, 0.002]
    (by norm_num) (by norm_num) (by norm_num) (by norm_num) (by norm_num)
  exact ⟨C, v, h3 (by norm_num), h2, h1⟩

end Csu.Fund
