import Verif.Props.LiquidIce
/-!
# Property C117: the water and ice masses, exactly

Specification: `Verif/Spec/LiquidIce.lean`.
-/
namespace Csu.LiquidIce
open Csu PyFloat Csu.Common XR LiquidIceSpec

theorem rainPart_eq (fa fb d r : ℝ) : (10 : ℝ) ^ (d / 10) * (10 : ℝ) ^ (-0.1 * departure fa fb d r) =
    rainPart fa fb d r := by
  rw [rainPart, linear, ← Real.rpow_add (by norm_num)]
  congr 1; ring

theorem water1_eq (fa fb d r t : ℝ) :
    water1 (fin fa) (fin fb) (fin d) (fin r) (fin t) = fin (water fa fb t d r) := by
  have p10 : ∀ y : ℝ, (0 : ℝ) < 10 ^ y := fun y => Real.rpow_pos_of_pos (by norm_num) _
  simp only [water1, zhRain1_fin, deltaZ1_fin, lin_fin, fzero, flt, fge, fsub, decide_eq_true_eq, water]
  by_cases h1 : r < 0
  · rw [if_pos h1, if_pos h1]
  rw [if_neg h1, if_neg h1]
  by_cases h2 : t ≤ departure fa fb d r
  · rw [if_pos h2, if_pos (by linarith)]
    simp only [foflit, fsci, fneg]
    rw [fpow (by norm_num), fdiv (by norm_num), fpow (mul_pos (p10 _) (p10 _)), rainPart_eq]
    simp only [fmul, waterMixed]
    congr 2
    rw [Real.rpow_neg (by norm_num)]; norm_num
  · rw [if_neg h2, if_neg (by linarith), if_pos (by linarith)]
    simp only [foflit, fsci, fneg]
    rw [fdiv (lin_pos r).ne', fdiv (div_pos (lin_pos d) (lin_pos r)).ne', fpow (lin_pos d), fpow (by norm_num),
      fpow (div_pos (lin_pos d) (div_pos (lin_pos d) (lin_pos r)))]
    simp only [fmul, waterRain, linear]
    have e : (10 : ℝ) ^ (d / 10) / ((10 : ℝ) ^ (d / 10) / (10 : ℝ) ^ (r / 10)) = (10 : ℝ) ^ (r / 10) := by
      have := (lin_pos d).ne'; have := (lin_pos r).ne'; field_simp
    rw [e]
    congr 3
    rw [Real.rpow_neg (by norm_num)]; norm_num

theorem ice1_eq (fa fb d r t : ℝ) :
    ice1 (fin fa) (fin fb) (fin d) (fin r) (fin t) = fin (ice fa fb t d r) := by
  have hd0 := departure_nonneg fa fb d r
  simp only [ice1, zhRain1_fin, deltaZ1_fin, lin_fin, fzero, fge, fsub, decide_eq_true_eq, ice]
  by_cases h2 : t ≤ departure fa fb d r
  · rw [if_pos h2, if_pos (by linarith)]
    have hle : (10 : ℝ) ^ (-0.1 * departure fa fb d r) ≤ 1 :=
      Real.rpow_le_one_of_one_le_of_nonpos (by norm_num) (by norm_num; linarith)
    have hnn : 0 ≤ (10 : ℝ) ^ (d / 10) - (10 : ℝ) ^ (d / 10) * (10 : ℝ) ^ (-0.1 * departure fa fb d r) := by
      have := lin_pos d; nlinarith
    simp only [foflit, fsci, fneg, fpi]
    rw [fdiv (a := 4) (by norm_num), fdiv (a := 3) (by norm_num), fpow (a := 10) (by norm_num),
      fpow (a := 10) (by norm_num)]
    simp only [fmul]
    rw [fpow (by positivity), fdiv (by norm_num), fpow_nonneg (by positivity) (by norm_num), fmul, rainPart_eq]
    simp only [iceMixed, linear]
    have e6 : (4 : ℝ) * (10 : ℝ) ^ (6 : ℝ) = 4000000 := by
      rw [show (6 : ℝ) = ((6 : ℕ) : ℝ) by norm_num, Real.rpow_natCast]; norm_num
    have e18 : (5.28 : ℝ) * (10 : ℝ) ^ (-18 : ℝ) = 5.28e-18 := by
      rw [Real.rpow_neg (by norm_num), show (18 : ℝ) = ((18 : ℕ) : ℝ) by norm_num, Real.rpow_natCast]; norm_num
    rw [e6, e18, fmul]
  · rw [if_neg h2, if_neg (by linarith), fmul, mul_zero]

variable {argsort : List XR → List Nat} {polyfit1 : List XR → List XR → XR}

/-- **C117.** Arrays of one shape with a finite freezing level `h` and any real rain line: at every gate with finite values the two masses are
exactly the published formulas at that gate. -/
theorem C117_masses (d r z : NdArray XR) (hs : RainSpec.SameShape d r z) (T : Option (NdArray XR))
    (hT : ∀ t, T = some t → t.shape = d.shape) (hfrz : Option XR) (method : String) (fitA fitB : Option XR)
    (fa fb h : ℝ) (hf : IsFit fitA fitB fa fb)
    (hh : getHfrz argsort polyfit1 (T.map (·.data)) z.data hfrz = .ok (some (fin h))) :
    ∃ w i : NdArray XR, calcLiquidIceMassVal argsort polyfit1 (.arr d) (.arr r) (.arr z) (T.map .arr) hfrz method
        fitA fitB = .ok (some (.arr w, .arr i)) ∧ w.shape = d.shape ∧ i.shape = d.shape ∧ w.WF ∧ i.WF ∧
      ∀ (n : Nat) (dv rv zv : ℝ), d.data[n]? = some (fin dv) → r.data[n]? = some (fin rv) →
        z.data[n]? = some (fin zv) →
        w.data[n]? = some (fin (water fa fb (threshold h zv) dv rv)) ∧
        i.data[n]? = some (fin (ice fa fb (threshold h zv) dv rv)) := by
  obtain ⟨hl1, hl2⟩ := Rain.SameShape.lengths hs
  obtain ⟨gs, h1, h2, h3⟩ := exists_gates3 d.data r.data z.data hl1 hl2
  have hw : gs.length = d.shape.prod := by
    have : gs.length = d.data.length := by rw [← h1]; simp
    rw [this]; exact hs.1
  have key := liquidIceCalcs_gates fitA fitB (fin fa) (fin fb) (fits_of hf) (fin h) gs
  rw [h1, h2, h3] at key
  have call : calcLiquidIceMassVal argsort polyfit1 (.arr d) (.arr r) (.arr z) (T.map .arr) hfrz method fitA fitB =
      .ok (some (.arr ⟨.float, d.shape, gs.map (fun g => water1 (fin fa) (fin fb) g.1 g.2.1 (thresh1 (fin h) g.2.2))⟩,
        .arr ⟨.float, d.shape, gs.map (fun g => ice1 (fin fa) (fin fb) g.1 g.2.1 (thresh1 (fin h) g.2.2))⟩)) := by
    rcases T with _ | t
    · simp only [Option.map_none] at hh
      simp only [calcLiquidIceMassVal, hs.2.2.2.1.symm, hs.2.2.2.2.symm, and_self, if_true, calcLiquidIceMass,
        Option.map_none, hh, bind, Except.bind, key, pure, Except.pure]
    · simp only [Option.map_some] at hh
      simp only [calcLiquidIceMassVal, hs.2.2.2.1.symm, hs.2.2.2.2.symm, and_self, if_true, calcLiquidIceMass,
        Option.map_some, hh, bind, Except.bind, key, pure, Except.pure, hT t rfl]
  refine ⟨_, _, call, rfl, rfl, by simpa [NdArray.WF] using hw, by simpa [NdArray.WF] using hw, ?_⟩
  intro n dv rv zv e1 e2 e3
  have hg := Rain.gate_of_cols h1 h2 h3 e1 e2 e3
  constructor
  · simp only [List.getElem?_map, hg, Option.map_some, thresh1_fin, water1_eq]
  · simp only [List.getElem?_map, hg, Option.map_some, thresh1_fin, ice1_eq]

/-- **C117**, scalar calls. -/
theorem C117_scalar (t1 t2 t3 : DType) (d r z h fa fb : ℝ) (hfrz : Option XR) (method : String)
    (fitA fitB : Option XR) (hf : IsFit fitA fitB fa fb) (hh : hfrz = some (fin h) ∨ (hfrz = none ∧ h = 4.5)) :
    calcLiquidIceMassVal argsort polyfit1 (.scalar t1 (fin d)) (.scalar t2 (fin r)) (.scalar t3 (fin z))
        none hfrz method fitA fitB =
      .ok (some (.scalar .float (fin (water fa fb (threshold h z) d r)),
        .scalar .float (fin (ice fa fb (threshold h z) d r)))) := by
  have key := liquidIceCalcs_gates fitA fitB (fin fa) (fin fb) (fits_of hf) (fin h) [(fin d, fin r, fin z)]
  simp only [List.map_cons, List.map_nil, thresh1_fin, water1_eq, ice1_eq] at key
  have hg : getHfrz argsort polyfit1 none [fin z] hfrz = .ok (some (fin h)) := by
    rcases hh with rfl | ⟨rfl, rfl⟩
    · rfl
    · simp [getHfrz, defaultHfrz]
  simp only [calcLiquidIceMassVal, calcLiquidIceMass, hg, bind, Except.bind, key, pure, Except.pure]

theorem zdp_zero_zdr (d : ℝ) : zdp d 0 = -120 := by
  simp only [zdp]
  norm_num
  have : ((1000000000000 : ℝ)) = 10 ^ (12 : ℕ) := by norm_num
  rw [this, one_div, Real.logb_inv, Real.logb_pow, Real.logb_self_eq_one (by norm_num)]; norm_num

/-- **C117**, consequence: below the threshold everything is rain, at or above it the rain and ice parts of the reflectivity add up to the whole,
and both are nonnegative. -/
theorem C117_parts (a b d r : ℝ) : 0 < rainPart a b d r ∧ rainPart a b d r ≤ linear d ∧
    (0 < departure a b d r → rainPart a b d r < linear d) := by
  have hd0 : 0 ≤ departure a b d r := departure_nonneg a b d r
  refine ⟨Real.rpow_pos_of_pos (by norm_num) _, ?_, fun h => ?_⟩
  · exact Real.rpow_le_rpow_of_exponent_le (by norm_num) (by linarith)
  · exact Real.rpow_lt_rpow_of_exponent_lt (by norm_num) (by linarith)

/-- a pure-ice gate: 30 dBZ, 0 dB, 9 km, default line and level; the departure is far above the threshold, so both masses come from the
mixed-phase formulas -/
example : water 0.8178 12.5088 (threshold 4.5 9) 30 0 = waterMixed (rainPart 0.8178 12.5088 30 0) ∧
    ice 0.8178 12.5088 (threshold 4.5 9) 30 0 = iceMixed (linear 30 - rainPart 0.8178 12.5088 30 0) ∧
    IsFit none none 0.8178 12.5088 := by
  have ht : threshold 4.5 9 ≤ departure 0.8178 12.5088 30 0 := by
    rw [departure, zdp_zero_zdr]; simp only [threshold]; norm_num
  refine ⟨?_, ?_, .inr ⟨rfl, rfl, rfl⟩⟩
  · rw [water, if_neg (by norm_num), if_pos ht]
  · rw [ice, if_pos ht]

end Csu.LiquidIce
