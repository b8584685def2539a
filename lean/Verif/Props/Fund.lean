import Verif.Lemmas.Fund
import Mathlib.Analysis.SpecialFunctions.Trigonometric.InverseDeriv
import Mathlib.Analysis.Complex.ExponentialBounds
/-!
# C60-C67, C73-C76: `fundamentals.py`

Real arguments with exact arithmetic (`XR`) unless the statement is generic.
-/
namespace Csu.Fund
open Csu PyFloat XR

/-! ## C60 -/

/-- **C60.** `frequency` and `wavelength` undo each other on positive arguments. -/
theorem C60_frequency_wavelength (x : ℝ) (hx : 0 < x) :
    (∃ f : ℝ, 0 < f ∧ frequency (fin x) = fin f ∧ wavelength (fin f) = fin x) ∧
    (∃ w : ℝ, 0 < w ∧ wavelength (fin x) = fin w ∧ frequency (fin w) = fin x) := by
  have h : (3e8 : ℝ) / x ≠ 0 := by positivity
  constructor
  · refine ⟨3e8 / x, by positivity, ?_, ?_⟩
    · unfold frequency; rw [c_val, fdiv hx.ne']
    · unfold wavelength; rw [c_val, fdiv h]; congr 1; field_simp
  · refine ⟨3e8 / x, by positivity, ?_, ?_⟩
    · unfold wavelength; rw [c_val, fdiv hx.ne']
    · unfold frequency; rw [c_val, fdiv h]; congr 1; field_simp

/-- **C60.** `pulse_length` and `pulse_duration` undo each other (on every real) and keep signs. -/
theorem C60_pulse (x : ℝ) :
    (∃ l : ℝ, pulseLength (fin x) = fin l ∧ pulseDuration (fin l) = fin x ∧ (0 < x → 0 < l)) ∧
    (∃ d : ℝ, pulseDuration (fin x) = fin d ∧ pulseLength (fin d) = fin x ∧ (0 < x → 0 < d)) := by
  have hL : ∀ y : ℝ, pulseLength (fin y) = fin (3e8 * y / 2) := fun y => by
    unfold pulseLength; rw [c_val, foflit, fmul, fdiv (by norm_num)]
  have hD : ∀ y : ℝ, pulseDuration (fin y) = fin (2 * y / 3e8) := fun y => by
    unfold pulseDuration; rw [c_val, foflit, fmul, fdiv (by norm_num)]
  refine ⟨⟨_, hL x, ?_, fun h => by positivity⟩, ⟨_, hD x, ?_, fun h => by positivity⟩⟩
  · rw [hD]; congr 1; ring
  · rw [hL]; congr 1; ring

/-- e.g. a 10 cm radar -/
example : frequency (fin 0.1) = fin 3e9 := by
  unfold frequency; rw [c_val, fdiv (by norm_num)]; norm_num

/-! ## C61 -/

/-- **C61.** The product of Nyquist velocity and unambiguous range is `c wl / 8`, whatever the PRF, and `doppler_dilemma`
converts each into the other. -/
theorem C61_dilemma (prf wl : ℝ) (hp : 0 < prf) (hw : 0 < wl) : ∃ v r : ℝ, 0 < v ∧ 0 < r ∧
    vmax (fin prf) (fin wl) = fin v ∧ rmax (fin prf) = fin r ∧ v * r = 3e8 * wl / 8 ∧
    dopplerDilemma (fin v) (fin wl) = fin r ∧ dopplerDilemma (fin r) (fin wl) = fin v := by
  refine ⟨prf * wl / 4, 3e8 / (2 * prf), by positivity, by positivity, vmax_val _ _, rmax_val _ hp.ne', ?_, ?_, ?_⟩
  · field_simp; norm_num
  · rw [dilemma_val _ _ (by positivity)]; congr 1; field_simp; norm_num
  · rw [dilemma_val _ _ (by positivity)]; congr 1; field_simp; norm_num

/-- **C61.** `doppler_dilemma` is an involution on the nonzero reals. -/
theorem C61_involution (x wl : ℝ) (hx : x ≠ 0) (hw : wl ≠ 0) : ∃ y : ℝ, y ≠ 0 ∧
    dopplerDilemma (fin x) (fin wl) = fin y ∧ dopplerDilemma (fin y) (fin wl) = fin x := by
  have h : (3e8 : ℝ) * wl / 8 / x ≠ 0 := by positivity
  refine ⟨_, h, dilemma_val _ _ hx, ?_⟩
  rw [dilemma_val _ _ h]; congr 1; field_simp

/-- **C61.** The aliases, for every float type; and the radial velocity of the maximum frequency is the Nyquist velocity. -/
theorem C61_aliases {α : Type} [PyFloat α] (prf wl : α) :
    nyquist prf wl = vmax prf wl ∧ unambiguousRange prf = rmax prf ∧ (∀ p q : α, dualNyquist wl p q = vmaxDual wl p q) :=
  ⟨rfl, rfl, fun _ _ => rfl⟩

theorem C61_radial_velocity (prf wl : ℝ) : radialVelocity (fmax (fin prf)) (fin wl) = vmax (fin prf) (fin wl) := by
  unfold radialVelocity fmax vmax
  rw [foflit, foflit, fdiv (by norm_num), fmul, fmul, fdiv (by norm_num), fdiv (by norm_num)]
  congr 1; ring

/-! ## C62 -/

theorem blockR_neg (a y : ℝ) (ha : 0 < a) : blockR a (-y) = 1 - blockR a y := by
  unfold blockR
  rw [neg_div, Real.arcsin_neg, neg_sq, eq_sub_iff_add_eq, ← add_div, div_eq_one_iff_eq (by positivity)]
  ring

/-- the derivative of the numerator is twice the half-chord at height `y` -/
theorem numer_deriv (a y : ℝ) (ha : 0 < a) (h1 : -a < y) (h2 : y < a) :
    HasDerivAt (fun y => y * Real.sqrt (a ^ 2 - y ^ 2) + a ^ 2 * Real.arcsin (y / a)) (2 * Real.sqrt (a ^ 2 - y ^ 2)) y := by
  have hp : 0 < a ^ 2 - y ^ 2 := by nlinarith
  have hs : 0 < Real.sqrt (a ^ 2 - y ^ 2) := Real.sqrt_pos.mpr hp
  have d1 : HasDerivAt (fun y : ℝ => a ^ 2 - y ^ 2) (-(2 * y)) y := by
    have := ((hasDerivAt_id y).pow 2).const_sub (a ^ 2)
    simpa using this
  have d2 := (hasDerivAt_id y).mul (d1.sqrt hp.ne')
  have hne1 : y / a ≠ -1 := by rw [ne_eq, div_eq_iff ha.ne']; intro h; linarith
  have hne2 : y / a ≠ 1 := by rw [ne_eq, div_eq_iff ha.ne']; intro h; linarith
  have d3 := ((Real.hasDerivAt_arcsin hne1 hne2).comp y ((hasDerivAt_id y).div_const a)).const_mul (a ^ 2)
  have hq : Real.sqrt (1 - (y / a) ^ 2) = Real.sqrt (a ^ 2 - y ^ 2) / a := by
    rw [show 1 - (y / a) ^ 2 = (a ^ 2 - y ^ 2) / a ^ 2 by field_simp, Real.sqrt_div hp.le, Real.sqrt_sq ha.le]
  refine (d2.add d3).congr_deriv ?_
  simp only [id_eq, one_mul]
  rw [hq]
  have hsq : Real.sqrt (a ^ 2 - y ^ 2) ^ 2 = a ^ 2 - y ^ 2 := Real.sq_sqrt hp.le
  field_simp
  rw [hsq]; ring

theorem numer_cont (a : ℝ) : Continuous (fun y => y * Real.sqrt (a ^ 2 - y ^ 2) + a ^ 2 * Real.arcsin (y / a)) := by
  have := Real.continuous_arcsin
  fun_prop

/-- Area of the part of the disc of radius `a` below height `y`: the chord at height `t` has length `2 √(a² - t²)`. -/
theorem segment_area (a y : ℝ) (ha : 0 < a) (h1 : -a ≤ y) (h2 : y ≤ a) :
    ∫ t in (-a)..y, 2 * Real.sqrt (a ^ 2 - t ^ 2) =
      y * Real.sqrt (a ^ 2 - y ^ 2) + a ^ 2 * Real.arcsin (y / a) + Real.pi * a ^ 2 / 2 := by
  rw [intervalIntegral.integral_eq_sub_of_hasDerivAt_of_le h1 (numer_cont a).continuousOn
    (fun t ht => numer_deriv a t ha ht.1 (by linarith [ht.2]))]
  · rw [neg_div, div_self ha.ne', Real.arcsin_neg_one, neg_sq, sub_self, Real.sqrt_zero]; ring
  · exact (by fun_prop : Continuous fun t : ℝ => 2 * Real.sqrt (a ^ 2 - t ^ 2)).intervalIntegrable _ _

theorem blockR_mono (a y z : ℝ) (ha : 0 < a) (h1 : -a ≤ y) (hyz : y < z) (h2 : z ≤ a) : blockR a y < blockR a z := by
  have key : StrictMonoOn (fun y => y * Real.sqrt (a ^ 2 - y ^ 2) + a ^ 2 * Real.arcsin (y / a)) (Set.Icc (-a) a) := by
    refine strictMonoOn_of_deriv_pos (convex_Icc _ _) (numer_cont a).continuousOn fun t ht => ?_
    rw [interior_Icc] at ht
    rw [(numer_deriv a t ha ht.1 ht.2).deriv]
    have : 0 < a ^ 2 - t ^ 2 := by nlinarith [ht.1, ht.2]
    have := Real.sqrt_pos.mpr this
    positivity
  have := key ⟨h1, by linarith⟩ ⟨by linarith, h2⟩ hyz
  unfold blockR
  apply div_lt_div_of_pos_right _ (by positivity)
  dsimp only at this
  linarith

theorem blockR_bot (a : ℝ) (ha : 0 < a) : blockR a (-a) = 0 := by
  unfold blockR
  rw [neg_div, div_self ha.ne', Real.arcsin_neg_one, neg_sq, sub_self, Real.sqrt_zero, div_eq_zero_iff]
  left; ring

theorem blockR_top (a : ℝ) (ha : 0 < a) : blockR a a = 1 := by
  have := blockR_neg a a ha
  rw [blockR_bot a ha] at this; linarith

/-- **C62.** The blocked fraction is the area of the beam's cross-section (a disc of radius `a` centred at the beam height)
that lies below the terrain, divided by the area of the disc. -/
theorem C62_blocked_area (t h a : ℝ) (ha : 0 < a) (h1 : -a ≤ t - h) (h2 : t - h ≤ a) :
    beamBlockFrac (fin t) (fin h) (fin a) =
      fin ((∫ y in (-a)..(t - h), 2 * Real.sqrt (a ^ 2 - y ^ 2)) / (Real.pi * a ^ 2)) := by
  rw [block_val t h a ha h1 h2, segment_area a _ ha h1 h2]; rfl

/-- **C62.** It is a fraction, 0 at the bottom of the beam, 1/2 on its axis, 1 at the top. -/
theorem C62_fraction (t h a : ℝ) (ha : 0 < a) (h1 : -a ≤ t - h) (h2 : t - h ≤ a) :
    ∃ f : ℝ, beamBlockFrac (fin t) (fin h) (fin a) = fin f ∧ 0 ≤ f ∧ f ≤ 1 ∧
      (f = 0 ↔ t = h - a) ∧ (t = h → f = 1 / 2) ∧ (f = 1 ↔ t = h + a) := by
  refine ⟨_, block_val t h a ha h1 h2, ?_, ?_, ?_, ?_, ?_⟩
  · rcases h1.eq_or_lt with e | e
    · rw [← e, blockR_bot a ha]
    · have := blockR_mono a _ _ ha le_rfl e h2
      rw [blockR_bot a ha] at this; exact this.le
  · rcases h2.eq_or_lt with e | e
    · rw [e, blockR_top a ha]
    · have := blockR_mono a _ _ ha h1 e le_rfl
      rw [blockR_top a ha] at this; exact this.le
  · constructor
    · intro e
      by_contra hc
      have := blockR_mono a _ _ ha le_rfl (lt_of_le_of_ne h1 (fun e => hc (by linarith))) h2
      rw [blockR_bot a ha] at this; linarith
    · intro e; rw [e, show h - a - h = -a by ring, blockR_bot a ha]
  · intro e
    have := blockR_neg a 0 ha
    rw [neg_zero] at this
    rw [e, sub_self]; linarith
  · constructor
    · intro e
      by_contra hc
      have := blockR_mono a _ _ ha h1 (lt_of_le_of_ne h2 (fun e => hc (by linarith))) le_rfl
      rw [blockR_top a ha] at this; linarith
    · intro e; rw [e, show h + a - h = a by ring, blockR_top a ha]

/-- **C62.** Higher terrain blocks strictly more. -/
theorem C62_monotone (t t' h a : ℝ) (ha : 0 < a) (h1 : -a ≤ t - h) (htt : t < t') (h2 : t' - h ≤ a) :
    ∃ f f' : ℝ, beamBlockFrac (fin t) (fin h) (fin a) = fin f ∧ beamBlockFrac (fin t') (fin h) (fin a) = fin f' ∧ f < f' :=
  ⟨_, _, block_val t h a ha h1 (by linarith), block_val t' h a ha (by linarith) h2,
    blockR_mono a _ _ ha h1 (by linarith) h2⟩

/-- **C62.** Terrain `d` above the axis blocks what terrain `d` below it leaves free. -/
theorem C62_antisymmetric (d h a : ℝ) (ha : 0 < a) (h1 : -a ≤ d) (h2 : d ≤ a) :
    ∃ f g : ℝ, beamBlockFrac (fin (h + d)) (fin h) (fin a) = fin f ∧ beamBlockFrac (fin (h - d)) (fin h) (fin a) = fin g ∧
      f + g = 1 := by
  refine ⟨_, _, block_val _ h a ha (by linarith) (by linarith), block_val _ h a ha (by linarith) (by linarith), ?_⟩
  rw [show h + d - h = d by ring, show h - d - h = -d by ring, blockR_neg a d ha]; ring

/-- **C62.** Terrain outside the beam gives NaN (neither 0 nor 1). -/
theorem C62_outside (t h a : ℝ) (ha : 0 < a) (hy : t - h < -a ∨ a < t - h) :
    beamBlockFrac (fin t) (fin h) (fin a) = XR.nan := block_nan t h a ha hy

example : beamBlockFrac (fin 1000) (fin 1000) (fin 50) = fin (1 / 2) := by
  obtain ⟨f, e, -, -, -, h, -⟩ := C62_fraction 1000 1000 50 (by norm_num) (by norm_num) (by norm_num)
  rw [e, h rfl]

/-! ## C63 -/

/-- f(ZDR) of Aydin et al. (1986) as documented -/
noncomputable def aydin (z : ℝ) : ℝ := if z ≤ 0 then 27 else if z ≤ 1.74 then 19 * z + 27 else 60

/-- the per-gate value for any float -/
theorem hdr_map {α : Type} [PyFloat α] (gs : List (α × α)) :
    hdr (gs.map (·.1)) (gs.map (·.2)) = gs.map (fun p => p.1 -
      (if p.2 >. 1.74 then 60 else if (p.2 >. 0 && p.2 <=. 1.74) then 19 * p.2 + 27 else if p.2 <=. 0 then 27 else PyFloat.nan)) := by
  unfold hdr
  have hr : List.replicate (gs.map (·.2)).length (PyFloat.nan : α) = gs.map (fun _ => PyFloat.nan) := by
    rw [List.length_map, List.map_const']
  simp only [hr, List.map_map, Function.comp_def, maskSet_map, logicalAnd_map, maskCopy_map, zipWith_map_map]

/-- **C63.** `hdr` is `dbz - f(zdr)` at every gate; NaN ZDR gives NaN. -/
theorem C63_piecewise (gs : List (ℝ × ℝ)) :
    hdr (gs.map (fun p => fin p.1)) (gs.map (fun p => fin p.2)) = gs.map (fun p => fin (p.1 - aydin p.2)) := by
  have := hdr_map (gs.map (fun p => (fin p.1, fin p.2)))
  simp only [List.map_map, Function.comp_def] at this
  rw [this]
  apply List.map_congr_left
  intro p _
  have h0 : (0 : XR) = fin 0 := fzero
  simp only [h0, foflit, fsci, fgt, fle, fmul, fadd]
  unfold aydin
  by_cases h1 : p.2 ≤ 0
  · have h2 : ¬ (1.74 : ℝ) < p.2 := by norm_num; linarith
    simp [h1, h2, not_lt.mpr h1]
  · by_cases h2 : p.2 ≤ 1.74
    · have h3 : ¬ (1.74 : ℝ) < p.2 := not_lt.mpr h2
      simp [h1, h2, h3, not_le.mp h1]
    · have h3 : (1.74 : ℝ) < p.2 := not_le.mp h2
      simp [h1, h2, h3]

theorem C63_nan (dbz zdr : List XR) (hl : dbz.length = zdr.length) (i : Nat) (hi : zdr[i]? = some XR.nan) :
    (hdr dbz zdr)[i]? = some XR.nan := by
  have hd : dbz = (List.zip dbz zdr).map (·.1) := (List.map_fst_zip (by omega)).symm
  have hz : zdr = (List.zip dbz zdr).map (·.2) := (List.map_snd_zip (by omega)).symm
  have e : hdr dbz zdr = hdr ((List.zip dbz zdr).map (·.1)) ((List.zip dbz zdr).map (·.2)) := by rw [← hd, ← hz]
  rw [e, hdr_map, List.getElem?_map]
  rw [hz, List.getElem?_map] at hi
  cases h : (List.zip dbz zdr)[i]? with
  | none => rw [h] at hi; cases hi
  | some p =>
    rw [h] at hi
    have : p.2 = XR.nan := by simpa using hi
    simp [this]

/-- **C63.** The range of f, and its jump: just above 1.74 dB it drops from 60.06 to 60. -/
theorem C63_range (z : ℝ) : 27 ≤ aydin z ∧ aydin z ≤ 60.06 ∧ aydin 1.74 = 60.06 ∧ (1.74 < z → aydin z = 60) := by
  refine ⟨?_, ?_, ?_, ?_⟩
  · unfold aydin; split_ifs <;> linarith
  · unfold aydin; split_ifs <;> norm_num at * <;> linarith
  · unfold aydin; rw [if_neg (by norm_num), if_pos (by norm_num)]; norm_num
  · intro h; unfold aydin; rw [if_neg (by norm_num at *; linarith), if_neg (by norm_num at *; linarith)]

example : hdr [fin 50, fin 50] [fin 1, fin 3] = [fin 4, fin (-10)] := by
  have := C63_piecewise [(50, 1), (50, 3)]
  simpa [aydin, show ¬ (3 : ℝ) ≤ 1.74 by norm_num, show (1 : ℝ) ≤ 1.74 by norm_num, show ¬ (1 : ℝ) ≤ 0 by norm_num,
    show ¬ (3 : ℝ) ≤ 0 by norm_num, show (50 : ℝ) - (19 + 27) = 4 by norm_num, show (50 : ℝ) - 60 = -10 by norm_num] using this

/-! ## C64 -/

theorem zdp_map {α : Type} [PyFloat α] (d : DType) (gs : List (α × α)) :
    zdp d (gs.map (·.1)) (gs.map (·.2)) = .ok (gs.map (fun p =>
      if p.1 >. p.2 then store d (10 * PyFloat.log10 (p.1 - p.2)) else nanLike d)) := by
  unfold zdp
  have hr : List.replicate (gs.map (·.1)).length (nanLike d : α) = gs.map (fun _ => nanLike d) := by
    rw [List.length_map, List.map_const']
  rw [if_neg (by simp)]
  dsimp only
  rw [hr]
  simp only [zipWith_map_map, maskCopy_map]

/-- **C64.** On float arrays: `10 log10(zh - zv)` where `zh > zv`, NaN elsewhere (also where either is NaN). -/
theorem C64_float (gs : List (XR × XR)) : ∃ out, zdp .float (gs.map (·.1)) (gs.map (·.2)) = .ok out ∧
    out.length = gs.length ∧ ∀ i : Nat, ∀ p, gs[i]? = some p →
      (∀ h v : ℝ, p = (fin h, fin v) → v < h → out[i]? = some (fin (10 * Real.logb 10 (h - v)))) ∧
      (∀ h v : ℝ, p = (fin h, fin v) → h ≤ v → out[i]? = some XR.nan) ∧
      (p.1 = XR.nan ∨ p.2 = XR.nan → out[i]? = some XR.nan) := by
  refine ⟨_, zdp_map .float gs, by simp, fun i p hp => ?_⟩
  simp only [List.getElem?_map, hp, Option.map_some, Option.some_inj, store, nanLike]
  refine ⟨?_, ?_, ?_⟩
  · rintro h v rfl hlt
    dsimp only
    rw [fgt, if_pos (by simpa using hlt), fsub, flog10 (by linarith), foflit, fmul]
  · rintro h v rfl hle
    dsimp only
    rw [fgt, if_neg (by simpa using hle)]; rfl
  · rintro (h | h) <;> rw [h] <;> simp

/-- **C64.** Arrays of different lengths raise ValueError; equal lengths never raise (every float type and dtype). -/
theorem C64_lengths {α : Type} [PyFloat α] (d : DType) (zh zv : List α) :
    zdp d zh zv = .error .valueError ↔ zh.length ≠ zv.length := by
  unfold zdp
  by_cases h : zh.length = zv.length <;> simp [h]

example : zdp .float [fin 100, fin 1] [fin 90, fin 2] = .ok [fin 10, XR.nan] := by
  have := zdp_map .float [(fin 100, fin 90), (fin 1, fin 2)]
  simp only [List.map_cons, List.map_nil] at this
  rw [this]
  have h10 : (PyFloat.log10 (fin 100 - fin 90) : XR) = fin 1 := by
    rw [fsub, flog10 (by norm_num), show (100 : ℝ) - 90 = 10 by norm_num, Real.logb_self_eq_one (by norm_num)]
  simp only [h10, store, nanLike, fgt, foflit, fmul]
  norm_num

/-! ## C65 -/

/-- C65, full statement: the three functions return a value for documented arguments. -/
def C65Full (α : Type) [PyFloat α] : Prop :=
  (∀ (r h : List α) (e : α), r.length = h.length → ∃ out, rangeCorrect r h e = .ok out) ∧
  (∀ p g t w a b l m q r k : α, ∃ z, reflectivity p g t w a b l m q r k = .ok z) ∧
  (∀ g psi : α, ∃ out, velShift (.scalar .float g) (.scalar .float psi) = .ok out)

/-- **C65 is false in all three parts, for every argument**: NameError, NameError, TypeError. -/
theorem C65_full_false {α : Type} [PyFloat α] :
    (∀ (r h : List α) (e : α), rangeCorrect r h e = .error .nameError) ∧
    (∀ p g t w a b l m q r k : α, reflectivity p g t w a b l m q r k = .error .nameError) ∧
    (∀ (g : α) (psi : PyVal α), velShift (.scalar .float g) psi = .error .typeError) ∧
    (∀ (g : NdArray α) (n : Nat) (s : List Nat) (psi : α), g.shape = n :: s →
      velShift (.arr g) (.scalar .float psi) = .error .typeError) ∧ ¬ C65Full α := by
  have h1 : ∀ (r h : List α) (e : α), rangeCorrect r h e = .error .nameError := by
    intro r h e
    have : global "hheight" h = .error .nameError := if_neg (by decide)
    unfold rangeCorrect; rw [this]; rfl
  refine ⟨h1, ?_, ?_, ?_, ?_⟩
  · intro p g t w a b l m q r k
    have : global "radar_constant" (radarConst (α := α)) = .error .nameError := if_neg (by decide)
    unfold reflectivity; rw [this]; rfl
  · intro g psi; rfl
  · intro g n s psi hg
    unfold velShift pyLen
    simp only [hg]; rfl
  · intro h
    obtain ⟨out, ho⟩ := h.1 [] [] 0 rfl
    rw [h1] at ho; cases ho

/-- **C65, what holds**: `vel_shift` on two arrays of the same shape returns the elementwise projection. -/
theorem C65_vel_shift_partial (g p : NdArray XR) (n : Nat) (s : List Nat) (hg : g.shape = n :: s) (hp : p.shape = n :: s)
    (hgw : g.WF) (hpw : p.WF) : ∃ out, velShift (.arr g) (.arr p) = .ok out ∧ out.shape = g.shape ∧ out.WF ∧
      ∀ (i : Nat) (x y : ℝ), g.data[i]? = some (fin x) → p.data[i]? = some (fin y) →
        ∃ v : ℝ, out.data[i]? = some (fin v) ∧ v = x * Real.cos (y * (Real.pi / 180)) ∧ |v| ≤ |x| := by
  have e : velShift (.arr g) (.arr p) = .ok ⟨.float, g.shape, List.zipWith (fun x y => x * PyFloat.cos (deg2rad y)) g.data p.data⟩ := by
    unfold velShift pyLen
    simp only [hg, hp]
    rfl
  refine ⟨_, e, rfl, ?_, fun i x y hx hy => ⟨_, ?_, rfl, ?_⟩⟩
  · unfold NdArray.WF at *
    simp only [List.length_zipWith, hgw, hpw, hg, hp, min_self]
  · simp only [List.getElem?_zipWith, hx, hy]
    rw [deg2rad_val, fcos, fmul]
  · rw [abs_mul]
    exact mul_le_of_le_one_right (abs_nonneg _) (Real.abs_cos_le_one _)

example : (⟨.float, [2], [fin 100, fin 120]⟩ : NdArray XR).WF ∧ (⟨.float, [2], [fin 0, fin 90]⟩ : NdArray XR).WF := by
  constructor <;> rfl

/-! ## C66 -/

/-- **C66.** Extinction is absorption plus scattering. -/
theorem C66_extinction (d wl : ℝ) (m : ℂ) (qa qs : ℝ) (ha : absCoeff d wl m = .ok qa) (hs : scatCoeff d wl m = .ok qs) :
    extCoeff d wl m = .ok (qa + qs) := by
  unfold extCoeff; rw [ha, hs]; rfl

/-- **C66.** All three return exactly when `m² ≠ -2`; otherwise they raise ZeroDivisionError. -/
theorem C66_defined (d wl : ℝ) (m : ℂ) : if m ^ 2 = -2 then
      absCoeff d wl m = .error .zeroDivisionError ∧ scatCoeff d wl m = .error .zeroDivisionError ∧
        extCoeff d wl m = .error .zeroDivisionError
    else ∃ qa qs : ℝ, absCoeff d wl m = .ok qa ∧ scatCoeff d wl m = .ok qs ∧ extCoeff d wl m = .ok (qa + qs) := by
  split
  · rename_i h
    have : kComplex m = .error .zeroDivisionError := if_pos (by rw [h]; norm_num)
    refine ⟨?_, ?_, ?_⟩
    · unfold absCoeff; rw [this]; rfl
    · unfold scatCoeff; rw [this]; rfl
    · unfold extCoeff absCoeff; rw [this]; rfl
  · rename_i h
    have : kComplex m = .ok ((m ^ 2 - 1) / (m ^ 2 + 2)) := if_neg (fun e => h (by linear_combination e))
    have ha : absCoeff d wl m = .ok (Real.pi ^ 2 * d ^ 3 / wl * (-1 * ((m ^ 2 - 1) / (m ^ 2 + 2))).im) := by
      unfold absCoeff; rw [this]; rfl
    have hs : scatCoeff d wl m = .ok (2 * Real.pi ^ 5 * d ^ 6 / (3 * wl ^ 4) * ‖(m ^ 2 - 1) / (m ^ 2 + 2)‖ ^ 2) := by
      unfold scatCoeff; rw [this]; rfl
    exact ⟨_, _, ha, hs, C66_extinction d wl m _ _ ha hs⟩

theorem abs_val (d wl : ℝ) (m : ℂ) (h : m ^ 2 ≠ -2) :
    absCoeff d wl m = .ok (Real.pi ^ 2 * d ^ 3 / wl * (-1 * ((m ^ 2 - 1) / (m ^ 2 + 2))).im) := by
  have : kComplex m = .ok ((m ^ 2 - 1) / (m ^ 2 + 2)) := if_neg (fun e => h (by linear_combination e))
  unfold absCoeff; rw [this]; rfl

theorem scat_val (d wl : ℝ) (m : ℂ) (h : m ^ 2 ≠ -2) :
    scatCoeff d wl m = .ok (2 * Real.pi ^ 5 * d ^ 6 / (3 * wl ^ 4) * ‖(m ^ 2 - 1) / (m ^ 2 + 2)‖ ^ 2) := by
  have : kComplex m = .ok ((m ^ 2 - 1) / (m ^ 2 + 2)) := if_neg (fun e => h (by linear_combination e))
  unfold scatCoeff; rw [this]; rfl

/-- **C66.** Scattering is nonnegative, and positive for a real drop (`m² ≠ 1`); it scales with the sixth power of the
diameter, absorption with the third. -/
theorem C66_scaling (d wl s : ℝ) (m : ℂ) (hm : m ^ 2 ≠ -2) (hw : wl ≠ 0) : ∃ qa qs : ℝ,
    absCoeff d wl m = .ok qa ∧ scatCoeff d wl m = .ok qs ∧ 0 ≤ qs ∧ (d ≠ 0 → m ^ 2 ≠ 1 → 0 < qs) ∧
    absCoeff (s * d) wl m = .ok (s ^ 3 * qa) ∧ scatCoeff (s * d) wl m = .ok (s ^ 6 * qs) := by
  refine ⟨_, _, abs_val d wl m hm, scat_val d wl m hm, ?_, ?_, ?_, ?_⟩
  · have : (0:ℝ) ≤ wl ^ 4 := by positivity
    have : (0:ℝ) ≤ d ^ 6 := by positivity
    positivity
  · intro hd h1
    have : (m ^ 2 - 1) / (m ^ 2 + 2) ≠ 0 :=
      div_ne_zero (sub_ne_zero.mpr h1) (fun e => hm (by linear_combination e))
    have := norm_pos_iff.mpr this
    have : (0:ℝ) < wl ^ 4 := by positivity
    have : (0:ℝ) < d ^ 6 := by positivity
    positivity
  · rw [abs_val _ _ _ hm]; congr 1; ring
  · rw [scat_val _ _ _ hm]; congr 1; ring

/-- **C66.** With the documented sign convention (`m = n - jk`, `n, k ≥ 0`) absorption is nonnegative, and zero for a
lossless particle (`k = 0`). -/
theorem C66_absorption_sign (d wl : ℝ) (m : ℂ) (hd : 0 < d) (hw : 0 < wl) (hm : m ^ 2 ≠ -2) (hn : 0 ≤ m.re) (hk : m.im ≤ 0) :
    ∃ qa : ℝ, absCoeff d wl m = .ok qa ∧ 0 ≤ qa ∧ (m.im = 0 → qa = 0) ∧ (0 < m.re → m.im < 0 → 0 < qa) := by
  have him : (-1 * ((m ^ 2 - 1) / (m ^ 2 + 2))).im = 6 * m.re * (-m.im) / Complex.normSq (m ^ 2 + 2) := by
    rw [neg_one_mul, Complex.neg_im, Complex.div_im]
    have h1 : (m ^ 2).re = m.re ^ 2 - m.im ^ 2 := by rw [sq, Complex.mul_re]; ring
    have h2 : (m ^ 2).im = 2 * m.re * m.im := by rw [sq, Complex.mul_im]; ring
    simp only [Complex.sub_re, Complex.sub_im, Complex.add_re, Complex.add_im, Complex.one_re, Complex.one_im, h1, h2]
    norm_num
    ring
  have hns : 0 < Complex.normSq (m ^ 2 + 2) := Complex.normSq_pos.mpr (fun e => hm (by linear_combination e))
  refine ⟨_, abs_val d wl m hm, ?_, ?_, ?_⟩
  · rw [him]
    have : 0 ≤ -m.im := by linarith
    positivity
  · intro h; rw [him, h]; simp
  · intro h1 h2
    rw [him]
    have : 0 < -m.im := by linarith
    positivity

/-- **C66.** Refractive index 1 (vacuum) neither scatters nor absorbs. -/
theorem C66_vacuum (d wl : ℝ) : kComplex 1 = .ok 0 ∧ extCoeff d wl 1 = .ok 0 := by
  have h : (1 : ℂ) ^ 2 ≠ -2 := by norm_num
  constructor
  · unfold kComplex; rw [if_neg (by norm_num)]; norm_num
  · have e := C66_extinction d wl 1 _ _ (abs_val d wl 1 h) (scat_val d wl 1 h)
    rw [e]; norm_num

/-- water at 0 C -/
example : ((⟨7.14, -2.89⟩ : ℂ)) ^ 2 ≠ -2 := by
  intro h
  have := congrArg Complex.im h
  rw [sq, Complex.mul_im] at this
  norm_num at this

/-! ## C67 -/

/-- **C67.** The beam starts at the antenna and, pointing straight up, its height is the range. -/
theorem C67_ray_height_ends (r h0 R : ℝ) (hR : 0 < R) (hr : 0 ≤ r) :
    (∀ e : ℝ, rayHeight (fin 0) (fin e) (fin h0) (fin R) = fin h0) ∧
    rayHeight (fin r) (fin 90) (fin h0) (fin R) = fin (r + h0) := by
  constructor
  · intro e
    rw [rayHeight_val _ _ _ _ (by ring_nf; positivity)]
    congr 1
    rw [show (0 : ℝ) ^ 2 + R ^ 2 + 2 * 0 * R * Real.sin (e * (Real.pi / 180)) = R ^ 2 by ring, Real.sqrt_sq hR.le]; ring
  · have h90 : Real.sin ((90 : ℝ) * (Real.pi / 180)) = 1 := by
      rw [show (90 : ℝ) * (Real.pi / 180) = Real.pi / 2 by ring, Real.sin_pi_div_two]
    rw [rayHeight_val _ _ _ _ (by rw [h90]; positivity), h90,
      show r ^ 2 + R ^ 2 + 2 * r * R * 1 = (r + R) ^ 2 by ring, Real.sqrt_sq (by positivity)]
    congr 1; ring

/-- **C67.** For elevations from 0 to 90 degrees the height increases with range; it is at least that over a flat earth
(`h0 + r sin(elev)`) and at most `h0 + r`. -/
theorem C67_ray_height_bounds (r r' e h0 R : ℝ) (hR : 0 < R) (hr : 0 ≤ r) (hrr : r < r') (he0 : 0 ≤ e) (he1 : e ≤ 90) :
    ∃ h h' : ℝ, rayHeight (fin r) (fin e) (fin h0) (fin R) = fin h ∧ rayHeight (fin r') (fin e) (fin h0) (fin R) = fin h' ∧
      h < h' ∧ h0 + r * Real.sin (e * (Real.pi / 180)) ≤ h ∧ h ≤ h0 + r := by
  set s := Real.sin (e * (Real.pi / 180)) with hs
  have hpi := Real.pi_pos
  have hs0 : 0 ≤ s := Real.sin_nonneg_of_nonneg_of_le_pi (by positivity) (by nlinarith)
  have hs1 : s ≤ 1 := Real.sin_le_one _
  refine ⟨_, _, rayHeight_val _ _ _ _ (radicand_nonneg _ _ _ (by linarith) hs1),
    rayHeight_val _ _ _ _ (radicand_nonneg _ _ _ (by linarith) hs1), ?_, ?_, ?_⟩
  · have : Real.sqrt (r ^ 2 + R ^ 2 + 2 * r * R * s) < Real.sqrt (r' ^ 2 + R ^ 2 + 2 * r' * R * s) := by
      apply Real.sqrt_lt_sqrt (radicand_nonneg _ _ _ (by linarith) hs1)
      have : 0 ≤ (r' - r) * (R * s) := by have := mul_nonneg hR.le hs0; nlinarith
      nlinarith
    linarith
  · have : R + r * s ≤ Real.sqrt (r ^ 2 + R ^ 2 + 2 * r * R * s) := by
      apply Real.le_sqrt_of_sq_le
      have : r ^ 2 * s ^ 2 ≤ r ^ 2 * 1 := mul_le_mul_of_nonneg_left (by nlinarith) (sq_nonneg _)
      nlinarith
    linarith
  · have : Real.sqrt (r ^ 2 + R ^ 2 + 2 * r * R * s) ≤ r + R := by
      rw [Real.sqrt_le_left (by positivity)]
      have : 2 * r * R * s ≤ 2 * r * R * 1 := mul_le_mul_of_nonneg_left hs1 (by positivity)
      nlinarith
    linarith

/-- **C67.** The Gaussian sample volume is the ideal one divided by `2 ln 2`. -/
theorem C67_sample_volumes (r a b l : ℝ) : ∃ v w : ℝ, sampleVolIdeal (fin r) (fin a) (fin b) (fin l) = fin v ∧
    sampleVolGauss (fin r) (fin a) (fin b) (fin l) = fin w ∧ w = v * (1 / (2 * Real.log 2)) ∧
    (0 ≤ a → 0 ≤ b → 0 ≤ l → 0 ≤ w ∧ w ≤ v) := by
  have hl : 0 < Real.log 2 := Real.log_pos (by norm_num)
  have hpi := Real.pi_pos
  have key : Real.pi * r ^ 2 * (a * (Real.pi / 180)) * (b * (Real.pi / 180)) * l / (16 * Real.log 2) =
      Real.pi * (r * (a * (Real.pi / 180)) / 2) * (r * (b * (Real.pi / 180)) / 2) * (l / 2) * (1 / (2 * Real.log 2)) := by
    field_simp; ring
  refine ⟨_, _, volIdeal_val r a b l, volGauss_val r a b l, key, fun ha hb hl' => ⟨by positivity, ?_⟩⟩
  rw [key]
  have h2 : 1 / (2 * Real.log 2) ≤ 1 := by
    rw [div_le_one (by positivity)]
    have := Real.log_two_gt_d9; linarith
  have : 0 ≤ Real.pi * (r * (a * (Real.pi / 180)) / 2) * (r * (b * (Real.pi / 180)) / 2) * (l / 2) := by
    have : Real.pi * (r * (a * (Real.pi / 180)) / 2) * (r * (b * (Real.pi / 180)) / 2) * (l / 2) =
        Real.pi * r ^ 2 * (a * (Real.pi / 180) / 2) * (b * (Real.pi / 180) / 2) * (l / 2) := by ring
    rw [this]; positivity
  nlinarith

/-- **C67.** The half-power radius is half the arc that the beamwidth (in degrees) subtends at the range; the ideal sample volume is the
elliptic cylinder with the two half-power radii as semi-axes and half the pulse length as height. -/
theorem C67_half_power_radius (r a b l : ℝ) : ∃ ρa ρb v : ℝ, halfPowerRadius (fin r) (fin a) = fin ρa ∧
    halfPowerRadius (fin r) (fin b) = fin ρb ∧ sampleVolIdeal (fin r) (fin a) (fin b) (fin l) = fin v ∧
    2 * ρa = r * (a / 360 * (2 * Real.pi)) ∧ v = Real.pi * ρa * ρb * (l / 2) := by
  have hr : ∀ x : ℝ, halfPowerRadius (fin r) (fin x) = fin (r * (x * (Real.pi / 180)) / 2) := by
    intro x
    unfold halfPowerRadius
    rw [deg2rad_val, fmul, foflit, fdiv (by norm_num)]
  exact ⟨_, _, _, hr a, hr b, volIdeal_val r a b l, by ring, rfl⟩

/-- **C67.** The effective radius for the default gradient exceeds the earth's radius and is within 0.3% of the 4/3
approximation; any gradient between `-1/6371` and 0 gives a positive radius larger than the earth's; the gradient `-1/6371`
raises ZeroDivisionError. -/
theorem C67_effective_radius :
    (∃ r : ℝ, rEffective (dndh0 : XR) = .ok (fin r) ∧ 6371000 < r ∧ |r - 6371000 * 4 / 3| < 0.003 * (6371000 * 4 / 3)) ∧
    (∀ g : ℝ, -(1 / 6371) < g → g < 0 → ∃ r : ℝ, rEffective (fin g) = .ok (fin r) ∧ 6371000 < r) ∧
    rEffective (fin (-(1 / 6371))) = .error .zeroDivisionError := by
  have h0 : (1 : XR) / (earthRadius / 1000) = fin (1 / 6371) := by
    rw [earth_val, fone, foflit, fdiv (by norm_num), fdiv (by norm_num)]; norm_num
  have val : ∀ g : ℝ, 1 / 6371 + g ≠ 0 → rEffective (fin g) = .ok (fin (1 / (1 / 6371 + g) * 1000)) := by
    intro g hg
    unfold rEffective
    rw [h0, fadd, fone, pydiv_val _ _ hg]
    show Except.ok (fin (1 / (1 / 6371 + g)) * 1000) = _
    rw [foflit, fmul]
  refine ⟨?_, ?_, ?_⟩
  · have hd : (dndh0 : XR) = fin (-39e-6) := by rw [dndh0, XR.fsci, fneg]
    rw [hd]
    refine ⟨_, val _ (by norm_num), by norm_num, ?_⟩
    rw [abs_lt]; constructor <;> norm_num
  · intro g h1 h2
    have hp : 0 < 1 / 6371 + g := by linarith
    refine ⟨_, val g hp.ne', ?_⟩
    rw [div_mul_eq_mul_div, lt_div_iff₀ hp]
    nlinarith
  · unfold rEffective
    rw [h0, fadd, add_neg_cancel, pydiv_zero]; rfl

example : (0 : ℝ) < 6371000 * 4 / 3 := by norm_num
end Csu.Fund
