import Verif.Props.KdpApi
import Mathlib.Analysis.SpecialFunctions.Trigonometric.Bounds
import Mathlib.Analysis.Convex.SpecificFunctions.Deriv
/-!
# C140: the shape of the filter `get_fir` designs

The design is scaled with the window: a coefficient depends only on its position relative to the window, and the coefficients fall off strictly
from the middle to the ends.
-/
namespace Csu.Kdp
open Csu PyFloat XR

/-- the filter as a function of the position in the window, from -1/2 at the first coefficient to 1/2 at the last: the ideal low-pass response
with cut-off 0.8 cycles per half window, times a Gaussian of standard deviation 1.4 windows -/
noncomputable def windowShape (x : ℝ) : ℝ := (if x = 0 then 1 else Real.sin (1.6 * Real.pi * x) / (1.6 * Real.pi * x)) * Real.exp (-(x / 1.4) ^ 2 / 2)

theorem fir_shape (gs window : ℝ) (hg : 0 < gs) (hw : 0 < window) (f : Fir XR) (h : getFir gs window = .ok (some f)) :
    0 < f.order ∧ f.order % 2 = 0 ∧ f.coef.length = f.order + 1 ∧
    ∃ s : ℝ, s ≠ 0 ∧ ∀ k ≤ f.order, f.coef[k]? = some (.fin (windowShape ((k : ℝ) / f.order - 1 / 2) / s)) := by
  have hn : 0 ≤ firOrder gs window := by
    rw [firOrder_eq, truncR_nonneg (by positivity)]; exact Int.floor_nonneg.mpr (by positivity)
  obtain ⟨c, c1, c2, -, c4, c5⟩ := C72_filter_design gs window hg hw f h
  unfold getFir at h
  rw [if_neg hg.ne'] at h
  split at h
  · cases h
  split at h
  · cases h
  rename_i he h0
  dsimp only at h
  obtain ⟨taps, ht, h⟩ := bind_ok h
  cases h
  unfold firwin at ht
  split at ht
  swap
  · cases ht
  rename_i hfr
  cases ht
  set N := firOrder gs window with hN
  have h2r : (2 : ℝ) ≤ N := by
    have : 2 ≤ N := by omega
    exact_mod_cast this
  set fr : ℝ := 0.08 / ((N : ℝ) / 20) with hfrd
  set sd : ℝ := (N : ℝ) / 20 * 28 with hsd
  have hN1 : (N + 1).toNat = N.toNat + 1 := by omega
  have hNc : (N.toNat : ℝ) = N := by
    have : ((N.toNat : ℤ) : ℝ) = (N : ℝ) := by rw [Int.toNat_of_nonneg hn]
    exact_mod_cast this
  set S : ℝ := ((List.range (N + 1).toNat).map (rawTap (N + 1).toNat fr sd)).sum with hS
  have hfr0 : fr ≠ 0 := hfr.1.ne'
  have tap : ∀ k : Nat, rawTap (N + 1).toNat fr sd k = fr * windowShape ((k : ℝ) / N.toNat - 1 / 2) := by
    intro k
    unfold rawTap windowShape sinc
    dsimp only
    rw [hN1]
    push_cast
    rw [hNc]
    have hm : fr * ((k : ℝ) - ((N : ℝ) + 1 - 1) / 2) = 1.6 * ((k : ℝ) / N - 1 / 2) := by
      rw [hfrd]; field_simp; ring
    rw [hm]
    have hz : (1.6 * ((k : ℝ) / N - 1 / 2) = 0) ↔ ((k : ℝ) / N - 1 / 2 = 0) := by
      rw [mul_eq_zero]; norm_num
    have he : -((k : ℝ) - ((N : ℝ) + 1 - 1) / 2) ^ 2 / (2 * sd ^ 2) = -((((k : ℝ) / N - 1 / 2) / 1.4) ^ 2) / 2 := by
      rw [hsd]; field_simp; ring
    rw [he, show Real.pi * (1.6 * ((k : ℝ) / N - 1 / 2)) = 1.6 * Real.pi * ((k : ℝ) / N - 1 / 2) by ring]
    simp only [hz]
    ring
  have hS0 : S ≠ 0 := by
    intro hc
    have := c4 0 (Nat.zero_le _)
    have h1 := congrArg (fun l => l[0]?) c2
    dsimp only at h1
    simp [hc, hN1] at h1
    have : (XR.fin 0 : XR) = .fin (c 0) := by
      simpa [List.replicate_succ] using h1
    rw [XR.fin.injEq] at this
    linarith
  refine ⟨by dsimp only; omega, by dsimp only; omega, by simp [hN1], S / fr, div_ne_zero hS0 hfr0, ?_⟩
  intro k hk
  dsimp only at hk ⊢
  rw [hN1]
  simp only [List.map_map, List.getElem?_map, List.getElem?_range (show k < N.toNat + 1 by omega), Option.map_some, Function.comp_apply]
  congr 2
  rw [← hN1, tap k]
  field_simp

/-- C140: the coefficients are those of `windowShape` at equally spaced positions from -1/2 to 1/2, up to the factor that gives them sum one
(C72). -/
theorem C140_formula (gs window : ℝ) (hg : 0 < gs) (hw : 0 < window) (f : Fir XR) (h : getFir gs window = .ok (some f)) :
    ∃ s : ℝ, s ≠ 0 ∧ ∀ k ≤ f.order, f.coef[k]? = some (.fin (windowShape ((k : ℝ) / f.order - 1 / 2) / s)) :=
  (fir_shape gs window hg hw f h).2.2.2

/-- C140: two filters `get_fir` designs, for whatever gate spacings and windows: coefficients at the same relative position have the same ratio
to the middle coefficient of their filter. -/
theorem C140_scales (gs window gs' window' : ℝ) (hg : 0 < gs) (hw : 0 < window) (hg' : 0 < gs') (hw' : 0 < window') (f f' : Fir XR)
    (h : getFir gs window = .ok (some f)) (h' : getFir gs' window' = .ok (some f'))
    (k k' : Nat) (hk : k ≤ f.order) (hk' : k' ≤ f'.order) (same : k * f'.order = k' * f.order) :
    ∃ a m a' m' : ℝ, f.coef[k]? = some (.fin a) ∧ f.coef[f.order / 2]? = some (.fin m) ∧ f'.coef[k']? = some (.fin a') ∧
      f'.coef[f'.order / 2]? = some (.fin m') ∧ m ≠ 0 ∧ m' ≠ 0 ∧ a / m = a' / m' := by
  obtain ⟨n0, n2, -, s, hs, e⟩ := fir_shape gs window hg hw f h
  obtain ⟨n0', n2', -, s', hs', e'⟩ := fir_shape gs' window' hg' hw' f' h'
  have mid : ∀ n : Nat, 0 < n → n % 2 = 0 → ((n / 2 : Nat) : ℝ) / n - 1 / 2 = 0 := by
    intro n hn h2
    obtain ⟨j, rfl⟩ : ∃ j, n = 2 * j := ⟨n / 2, by omega⟩
    have : (j : ℝ) ≠ 0 := by
      have : 0 < j := by omega
      positivity
    rw [show 2 * j / 2 = j by omega]
    push_cast
    field_simp
    ring
  have w0 : windowShape 0 = 1 := by simp [windowShape]
  refine ⟨_, _, _, _, e k hk, e _ (by omega), e' k' hk', e' _ (by omega), ?_, ?_, ?_⟩
  · rw [mid _ n0 n2, w0]; exact one_div_ne_zero hs
  · rw [mid _ n0' n2', w0]; exact one_div_ne_zero hs'
  · rw [mid _ n0 n2, mid _ n0' n2', w0]
    have hx : (k : ℝ) / f.order = (k' : ℝ) / f'.order := by
      have a1 : (f.order : ℝ) ≠ 0 := by positivity
      have a2 : (f'.order : ℝ) ≠ 0 := by positivity
      rw [div_eq_div_iff a1 a2]
      exact_mod_cast same
    rw [hx]
    field_simp

theorem sin_div_anti {x y : ℝ} (h0 : 0 < x) (hxy : x < y) (hy : y ≤ Real.pi) : Real.sin y / y < Real.sin x / x := by
  have := strictConcaveOn_sin_Icc.secant_strict_mono (a := 0) (x := x) (y := y) ⟨le_rfl, Real.pi_pos.le⟩ ⟨h0.le, by linarith⟩
    ⟨by linarith, hy⟩ h0.ne' (by linarith) hxy
  simpa using this

theorem windowShape_neg (x : ℝ) : windowShape (-x) = windowShape x := by
  unfold windowShape
  simp only [neg_eq_zero, mul_neg, Real.sin_neg, neg_div_neg_eq]
  rw [show (-x / 1.4) ^ 2 = (x / 1.4) ^ 2 by ring]

theorem windowShape_anti {x y : ℝ} (h0 : 0 ≤ x) (hxy : x < y) (hy : y ≤ 1 / 2) : windowShape y < windowShape x := by
  have hp := Real.pi_pos
  unfold windowShape
  have hyp : 0 < y := by linarith
  have hy0 : y ≠ 0 := hyp.ne'
  rw [if_neg hy0]
  have gy : 0 < Real.sin (1.6 * Real.pi * y) / (1.6 * Real.pi * y) := by
    have : 0 < 1.6 * Real.pi * y := by positivity
    refine div_pos (Real.sin_pos_of_pos_of_lt_pi this ?_) this
    nlinarith
  have hs : Real.sin (1.6 * Real.pi * y) / (1.6 * Real.pi * y) < (if x = 0 then 1 else Real.sin (1.6 * Real.pi * x) / (1.6 * Real.pi * x)) := by
    split_ifs with hx
    · have : 0 < 1.6 * Real.pi * y := by positivity
      rw [div_lt_one this]
      exact Real.sin_lt this
    · have hx0 : 0 < x := lt_of_le_of_ne h0 (Ne.symm hx)
      refine sin_div_anti (by positivity) ?_ ?_
      · exact mul_lt_mul_of_pos_left hxy (by positivity)
      · nlinarith
  have he : Real.exp (-(y / 1.4) ^ 2 / 2) ≤ Real.exp (-(x / 1.4) ^ 2 / 2) := by
    rw [Real.exp_le_exp]
    have : (x / 1.4) ^ 2 ≤ (y / 1.4) ^ 2 := by
      have h1 : x / 1.4 ≤ y / 1.4 := by
        apply div_le_div_of_nonneg_right hxy.le; norm_num
      have h2 : 0 ≤ x / 1.4 := by positivity
      exact pow_le_pow_left₀ h2 h1 2
    linarith
  calc _ < _ := mul_lt_mul_of_pos_right hs (Real.exp_pos _)
    _ ≤ _ := mul_le_mul_of_nonneg_left he (gy.le.trans hs.le)

/-- C140: the coefficients rise strictly from the first to the middle one (and, the filter being symmetric, C72, fall strictly after it). -/
theorem C140_unimodal (gs window : ℝ) (hg : 0 < gs) (hw : 0 < window) (f : Fir XR) (h : getFir gs window = .ok (some f))
    (k : Nat) (hk : k + 1 ≤ f.order / 2) :
    ∃ a b : ℝ, f.coef[k]? = some (.fin a) ∧ f.coef[k + 1]? = some (.fin b) ∧ 0 < a ∧ a < b := by
  obtain ⟨n0, n2, -, s, hs, e⟩ := fir_shape gs window hg hw f h
  obtain ⟨c, -, c2, -, c4, -⟩ := C72_filter_design gs window hg hw f h
  have pos : ∀ j ≤ f.order, 0 < windowShape ((j : ℝ) / f.order - 1 / 2) / s := by
    intro j hj
    have h1 := e j hj
    rw [c2, List.getElem?_map, List.getElem?_range (by omega)] at h1
    simp only [Option.map_some, Option.some.injEq, XR.fin.injEq] at h1
    rw [← h1]; exact c4 j hj
  have hn : (0 : ℝ) < f.order := by exact_mod_cast n0
  refine ⟨_, _, e k (by omega), e (k + 1) (by omega), pos k (by omega), ?_⟩
  have hkn : ((k : ℝ) + 1) / f.order ≤ 1 / 2 := by
    rw [div_le_iff₀ hn]
    have : 2 * (k + 1) ≤ f.order := by omega
    have : (2 * ((k : ℝ) + 1)) ≤ f.order := by exact_mod_cast this
    linarith
  have hk0 : (0 : ℝ) ≤ k / f.order := by positivity
  have hlt : (k : ℝ) / f.order < ((k : ℝ) + 1) / f.order := by
    apply div_lt_div_of_pos_right _ hn; linarith
  have key := windowShape_anti (x := 1 / 2 - ((k : ℝ) + 1) / f.order) (y := 1 / 2 - (k : ℝ) / f.order) (by linarith) (by linarith) (by linarith)
  rw [← windowShape_neg, ← windowShape_neg (1 / 2 - ((k : ℝ) + 1) / f.order), neg_sub, neg_sub] at key
  have hspos : 0 < s := by
    have h0 : windowShape 0 = 1 := by simp [windowShape]
    have := pos (f.order / 2) (by omega)
    obtain ⟨j, hj⟩ : ∃ j, f.order = 2 * j := ⟨f.order / 2, by omega⟩
    have hj0 : (j : ℝ) ≠ 0 := by
      have : 0 < j := by omega
      positivity
    rw [hj, show 2 * j / 2 = j by omega] at this
    push_cast at this
    rw [show (j : ℝ) / (2 * j) - 1 / 2 = 0 by field_simp; ring, h0] at this
    exact one_div_pos.mp this
  push_cast
  exact div_lt_div_of_pos_right key hspos

/-- the defaults give a filter, as do windows and gate spacings half and twice as long: 20, 10 and 40 are even -/
example : (∃ f, getFir 150 3 = .ok (some f)) ∧ (∃ f, getFir 300 3 = .ok (some f)) ∧ (∃ f, getFir 75 3 = .ok (some f)) := by
  refine ⟨?_, ?_, ?_⟩
  · refine (C16_succeeds_iff 150 3 (by norm_num) (by norm_num)).mpr ?_
    have : XR.truncR (1000 * 3 / 150) = 20 := by
      rw [truncR_nonneg (by norm_num), Int.floor_eq_iff]; norm_num
    rw [this]; decide
  · refine (C16_succeeds_iff 300 3 (by norm_num) (by norm_num)).mpr ?_
    have : XR.truncR (1000 * 3 / 300) = 10 := by
      rw [truncR_nonneg (by norm_num), Int.floor_eq_iff]; norm_num
    rw [this]; decide
  · refine (C16_succeeds_iff 75 3 (by norm_num) (by norm_num)).mpr ?_
    have : XR.truncR (1000 * 3 / 75) = 40 := by
      rw [truncR_nonneg (by norm_num), Int.floor_eq_iff]; norm_num
    rw [this]; decide

end Csu.Kdp
