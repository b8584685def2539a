import Verif.Lemmas.LiquidIce
import Verif.Spec.Rain
import Verif.Lemmas.Rain
import Verif.QFloat
/-!
# Properties C56, C57, C59: water and ice mass

Specification: `Verif/Spec/LiquidIce.lean`.
-/
namespace Csu.LiquidIce
open Csu PyFloat Csu.Common XR

theorem lin_fin (d : ℝ) : linearize (fin d) = fin ((10 : ℝ) ^ (d / 10)) := by
  simp only [linearize, foflit]
  rw [fdiv (by norm_num), fpow (by norm_num)]

theorem lin_pos (d : ℝ) : (0 : ℝ) < 10 ^ (d / 10) := Real.rpow_pos_of_pos (by norm_num) _

theorem deltaZ1_fin (fa fb d r : ℝ) :
    deltaZ1 (fin fa) (fin fb) (fin d) (fin r) = fin (LiquidIceSpec.departure fa fb d r) := by
  simp only [deltaZ1, lin_fin, foflit, fsci]
  rw [fdiv (lin_pos r).ne', fsub, fzero, fle]
  have hpos : (0 : ℝ) < if ((10 : ℝ) ^ (d / 10) - (10 : ℝ) ^ (d / 10) / (10 : ℝ) ^ (r / 10)) ≤ 0 then
      0.000000000001 else (10 : ℝ) ^ (d / 10) - (10 : ℝ) ^ (d / 10) / (10 : ℝ) ^ (r / 10) := by
    split_ifs with h
    · norm_num
    · exact not_le.mp h
  have e : (if decide ((10 : ℝ) ^ (d / 10) - (10 : ℝ) ^ (d / 10) / (10 : ℝ) ^ (r / 10) ≤ 0) = true then
      fin 0.000000000001 else fin ((10 : ℝ) ^ (d / 10) - (10 : ℝ) ^ (d / 10) / (10 : ℝ) ^ (r / 10))) =
      fin (if ((10 : ℝ) ^ (d / 10) - (10 : ℝ) ^ (d / 10) / (10 : ℝ) ^ (r / 10)) ≤ 0 then
      0.000000000001 else (10 : ℝ) ^ (d / 10) - (10 : ℝ) ^ (d / 10) / (10 : ℝ) ^ (r / 10)) := by
    simp only [decide_eq_true_eq]; split_ifs <;> rfl
  rw [e, flog10 hpos]
  simp only [fmul, fadd, fsub, flt, decide_eq_true_eq, LiquidIceSpec.departure, LiquidIceSpec.zdp]
  generalize Real.logb 10 _ = L
  split_ifs with h1
  · rw [max_eq_left h1.le]
  · rw [max_eq_right (not_lt.mp h1)]

theorem departure_nonneg (fa fb d r : ℝ) : 0 ≤ LiquidIceSpec.departure fa fb d r := le_max_left _ _

theorem zhRain1_fin (fa fb d r : ℝ) : zhRain1 (fin fa) (fin fb) (fin d) (fin r) =
    fin ((10 : ℝ) ^ (d / 10) * (10 : ℝ) ^ (-0.1 * LiquidIceSpec.departure fa fb d r)) := by
  simp only [zhRain1, lin_fin, deltaZ1_fin, foflit, fsci, fone, fneg, fmul]
  rw [fpow (by norm_num)]
  simp only [fsub, fmul]
  congr 2; ring

theorem thresh1_fin (h z : ℝ) : thresh1 (fin h) (fin z) = fin (LiquidIceSpec.threshold h z) := by
  simp only [thresh1, LiquidIceSpec.threshold, fle, foflit, fneg, fsci, decide_eq_true_eq]
  rw [fdiv (by norm_num)]
  simp only [fsub, fmul, fadd, fzero]
  split_ifs
  · congr 1; ring
  · congr 1; ring

theorem threshold_ge (h z : ℝ) : 1.1 ≤ LiquidIceSpec.threshold h z := by
  simp only [LiquidIceSpec.threshold]
  split_ifs
  · norm_num; nlinarith
  · exact le_rfl

/-- water mass of a finite gate: finite, nonnegative, zero where zdr < 0 -/
theorem water1_fin (fa fb d r t : ℝ) : ∃ w : ℝ, 0 ≤ w ∧ water1 (fin fa) (fin fb) (fin d) (fin r) (fin t) = fin w ∧
    (r < 0 → w = 0) := by
  have p10 : ∀ y : ℝ, (0 : ℝ) < 10 ^ y := fun y => Real.rpow_pos_of_pos (by norm_num) _
  simp only [water1, zhRain1_fin, deltaZ1_fin, lin_fin, fzero, flt, fge, fsub, decide_eq_true_eq]
  split_ifs with h1 h2 h3
  · exact ⟨0, le_rfl, rfl, fun _ => rfl⟩
  · simp only [foflit, fsci, fneg]
    rw [fpow (by norm_num), fdiv (by norm_num), fpow (mul_pos (p10 _) (p10 _))]
    simp only [fmul]
    exact ⟨_, by have := p10; positivity, rfl, fun h => absurd h h1⟩
  · simp only [foflit, fsci, fneg]
    rw [fdiv (lin_pos r).ne', fdiv (div_pos (lin_pos d) (lin_pos r)).ne', fpow (lin_pos d), fpow (by norm_num),
      fpow (div_pos (lin_pos d) (div_pos (lin_pos d) (lin_pos r)))]
    simp only [fmul]
    exact ⟨_, by have := lin_pos d; have := lin_pos r; positivity, rfl, fun h => absurd h h1⟩
  · exact absurd (not_le.mp h2) h3

/-- ice mass of a finite gate: finite, nonnegative, positive exactly when the departure reaches the threshold and is
not zero -/
theorem ice1_fin (fa fb d r t : ℝ) : ∃ i : ℝ, 0 ≤ i ∧ ice1 (fin fa) (fin fb) (fin d) (fin r) (fin t) = fin i ∧
    (i = 0 ↔ LiquidIceSpec.departure fa fb d r < t ∨ LiquidIceSpec.departure fa fb d r = 0) := by
  have p10 : ∀ y : ℝ, (0 : ℝ) < 10 ^ y := fun y => Real.rpow_pos_of_pos (by norm_num) _
  have hd0 := departure_nonneg fa fb d r
  simp only [ice1, zhRain1_fin, deltaZ1_fin, lin_fin, fzero, fge, fsub, decide_eq_true_eq]
  generalize LiquidIceSpec.departure fa fb d r = x at hd0 ⊢
  split_ifs with h1
  · have hle : (10 : ℝ) ^ (-0.1 * x) ≤ 1 := Real.rpow_le_one_of_one_le_of_nonpos (by norm_num) (by norm_num; linarith)
    have hnn : 0 ≤ (10 : ℝ) ^ (d / 10) - (10 : ℝ) ^ (d / 10) * (10 : ℝ) ^ (-0.1 * x) := by
      have := lin_pos d; nlinarith
    simp only [foflit, fsci, fneg, fpi]
    rw [fdiv (a := 4) (by norm_num), fdiv (a := 3) (by norm_num), fpow (a := 10) (by norm_num),
      fpow (a := 10) (by norm_num)]
    simp only [fmul]
    rw [fpow (by positivity), fdiv (by norm_num), fpow_nonneg (by positivity) (by norm_num), fmul]
    refine ⟨_, by positivity, rfl, ?_⟩
    have hx : ¬ x < t := by linarith
    simp only [hx, false_or]
    rw [mul_eq_zero, or_iff_right (by positivity), Real.rpow_eq_zero (by positivity) (by norm_num)]
    rw [div_eq_zero_iff, or_iff_left (by norm_num), mul_eq_zero, or_iff_right (by positivity)]
    constructor
    · intro h
      have h1 : (10 : ℝ) ^ (-0.1 * x) = 1 := by
        have := lin_pos d
        have h' : (10 : ℝ) ^ (d / 10) * (1 - (10 : ℝ) ^ (-0.1 * x)) = 0 := by linarith
        rcases mul_eq_zero.mp h' with h | h <;> linarith
      by_contra hne
      have hpos : 0 < x := lt_of_le_of_ne hd0 (Ne.symm hne)
      have := Real.rpow_lt_one_of_one_lt_of_neg (x := 10) (z := -0.1 * x) (by norm_num) (by norm_num; exact hpos)
      linarith
    · rintro rfl; simp
  · refine ⟨d * 0, by simp, rfl, ?_⟩
    simp; left; linarith

/-- the coefficients used: the caller's, or Cifelli et al. (2002) -/
def IsFit (fitA fitB : Option XR) (a b : ℝ) : Prop :=
  (fitA = some (fin a) ∧ fitB = some (fin b)) ∨ (fitA = none ∧ a = 0.8178 ∧ b = 12.5088)

theorem fits_of {fitA fitB : Option XR} {a b : ℝ} (h : IsFit fitA fitB a b) :
    fits fitA fitB = .ok (fin a, fin b) := by
  rcases h with ⟨rfl, rfl⟩ | ⟨rfl, rfl, rfl⟩
  · rfl
  · simp [fits, getLinearFits]

variable {argsort : List XR → List Nat} {polyfit1 : List XR → List XR → XR}

/-- **C56.** Arrays of one shape, whatever the sounding (as long as a finite freezing level results),
any real rain line: two arrays of that shape; at every gate with finite values both masses are finite and nonnegative, water is 0 where
zdr < 0, and ice is 0 exactly where the departure from the rain line is below the threshold or zero. -/
theorem C56_masses (d r z : NdArray XR) (hs : RainSpec.SameShape d r z) (T : Option (NdArray XR))
    (hT : ∀ t, T = some t → t.shape = d.shape) (hfrz : Option XR) (method : String) (fitA fitB : Option XR)
    (fa fb h : ℝ) (hf : IsFit fitA fitB fa fb)
    (hh : getHfrz argsort polyfit1 (T.map (·.data)) z.data hfrz = .ok (some (fin h))) :
    ∃ w i : NdArray XR, calcLiquidIceMassVal argsort polyfit1 (.arr d) (.arr r) (.arr z) (T.map .arr) hfrz method
        fitA fitB = .ok (some (.arr w, .arr i)) ∧ w.shape = d.shape ∧ i.shape = d.shape ∧ w.WF ∧ i.WF ∧
      ∀ (n : Nat) (dv rv zv : ℝ), d.data[n]? = some (fin dv) → r.data[n]? = some (fin rv) →
        z.data[n]? = some (fin zv) →
        ∃ wv iv : ℝ, w.data[n]? = some (fin wv) ∧ i.data[n]? = some (fin iv) ∧ 0 ≤ wv ∧ 0 ≤ iv ∧
          (rv < 0 → wv = 0) ∧
          (iv = 0 ↔ LiquidIceSpec.departure fa fb dv rv < LiquidIceSpec.threshold h zv ∨
            LiquidIceSpec.departure fa fb dv rv = 0) := by
  obtain ⟨hl1, hl2⟩ := Rain.SameShape.lengths hs
  obtain ⟨gs, h1, h2, h3⟩ := exists_gates3 d.data r.data z.data hl1 hl2
  have hw : gs.length = d.shape.prod := by
    have : gs.length = d.data.length := by rw [← h1]; simp
    rw [this]; exact hs.1
  have key := liquidIceCalcs_gates fitA fitB (fin fa) (fin fb) (fits_of hf) (fin h) gs
  rw [h1, h2, h3] at key
  have call : calcLiquidIceMassVal argsort polyfit1 (.arr d) (.arr r) (.arr z) (T.map .arr) hfrz method fitA fitB =
      .ok (some (.arr ⟨.float, d.shape, gs.map (fun g => water1 (fin fa) (fin fb) g.1 g.2.1 (thresh1 (fin h) g.2.2))⟩,
        .arr ⟨.float, d.shape, gs.map (fun g => ice1 (fin fa) (fin fb) g.1 g.2.1 (thresh1 (fin h) g.2.2))⟩)) := by
    rcases T with _ | t
    · simp only [Option.map_none] at hh
      simp only [calcLiquidIceMassVal, hs.2.2.2.1.symm, hs.2.2.2.2.symm, and_self, if_true, calcLiquidIceMass,
        Option.map_none, hh, bind, Except.bind, key, pure, Except.pure]
    · simp only [Option.map_some] at hh
      simp only [calcLiquidIceMassVal, hs.2.2.2.1.symm, hs.2.2.2.2.symm, and_self, if_true, calcLiquidIceMass,
        Option.map_some, hh, bind, Except.bind, key, pure, Except.pure, hT t rfl]
  refine ⟨_, _, call, rfl, rfl, by simpa [NdArray.WF] using hw, by simpa [NdArray.WF] using hw, ?_⟩
  intro n dv rv zv e1 e2 e3
  have hg := Rain.gate_of_cols h1 h2 h3 e1 e2 e3
  obtain ⟨wv, hwv, ew, w0⟩ := water1_fin fa fb dv rv (LiquidIceSpec.threshold h zv)
  obtain ⟨iv, hiv, ei, i0⟩ := ice1_fin fa fb dv rv (LiquidIceSpec.threshold h zv)
  refine ⟨wv, iv, ?_, ?_, hwv, hiv, w0, i0⟩
  · simp only [List.getElem?_map, hg, Option.map_some, thresh1_fin, ew]
  · simp only [List.getElem?_map, hg, Option.map_some, thresh1_fin, ei]

/-- **C56**, scalar calls: the same rules, returning scalars. -/
theorem C56_scalar (t1 t2 t3 : DType) (d r z h fa fb : ℝ) (hfrz : Option XR) (method : String)
    (fitA fitB : Option XR) (hf : IsFit fitA fitB fa fb) (hh : hfrz = some (fin h) ∨ (hfrz = none ∧ h = 4.5)) :
    ∃ wv iv : ℝ, calcLiquidIceMassVal argsort polyfit1 (.scalar t1 (fin d)) (.scalar t2 (fin r)) (.scalar t3 (fin z))
        none hfrz method fitA fitB = .ok (some (.scalar .float (fin wv), .scalar .float (fin iv))) ∧
      0 ≤ wv ∧ 0 ≤ iv ∧ (r < 0 → wv = 0) ∧
      (iv = 0 ↔ LiquidIceSpec.departure fa fb d r < LiquidIceSpec.threshold h z ∨
        LiquidIceSpec.departure fa fb d r = 0) := by
  have key := liquidIceCalcs_gates fitA fitB (fin fa) (fin fb) (fits_of hf) (fin h) [(fin d, fin r, fin z)]
  simp only [List.map_cons, List.map_nil, thresh1_fin] at key
  obtain ⟨wv, hwv, ew, w0⟩ := water1_fin fa fb d r (LiquidIceSpec.threshold h z)
  obtain ⟨iv, hiv, ei, i0⟩ := ice1_fin fa fb d r (LiquidIceSpec.threshold h z)
  rw [ew, ei] at key
  refine ⟨wv, iv, ?_, hwv, hiv, w0, i0⟩
  have hg : getHfrz argsort polyfit1 none [fin z] hfrz = .ok (some (fin h)) := by
    rcases hh with rfl | ⟨rfl, rfl⟩
    · rfl
    · simp [getHfrz, defaultHfrz]
  simp only [calcLiquidIceMassVal, calcLiquidIceMass, hg, bind, Except.bind, key, pure, Except.pure]

/-- a mixed gate (30 dBZ, 0 dB, far above the rain line) in a 1 x 2 array meets the hypotheses of C56; the default
freezing level applies -/
example : RainSpec.SameShape (⟨.float, [1, 2], [fin 30, fin 40]⟩ : NdArray XR)
    (⟨.float, [1, 2], [fin 0, fin (-1)]⟩ : NdArray XR) (⟨.float, [1, 2], [fin 1, fin 9]⟩ : NdArray XR) ∧
    getHfrz argsort polyfit1 none [fin 1, fin 9] none = .ok (some (fin 4.5)) ∧
    IsFit none none 0.8178 12.5088 :=
  ⟨⟨rfl, rfl, rfl, rfl, rfl⟩, by simp [getHfrz, defaultHfrz], .inr ⟨rfl, rfl, rfl⟩⟩

/-! ## C57 -/

/-- Full statement of C57: without explicit coefficients, the call equals the call with the coefficients of the line
that `method` names. -/
def HonoursMethod : Prop :=
  ∀ (argsort : List XR → List Nat) (polyfit1 : List XR → List XR → XR) (dbz zdr z : PyVal XR) (T : Option (PyVal XR))
    (hfrz : Option XR) (method : String) (a b : XR),
    (method = "cifelli" ∧ a = 0.8178 ∧ b = 12.5088) ∨ (method = "cr1995" ∧ a = 0.9091 ∧ b = 8.5091) ∨
      (method ≠ "cifelli" ∧ method ≠ "cr1995" ∧ a = 0.77 ∧ b = 14) →
    calcLiquidIceMassVal argsort polyfit1 dbz zdr z T hfrz method none none =
      calcLiquidIceMassVal argsort polyfit1 dbz zdr z T hfrz method (some a) (some b)

/-- **C57 is false of the code, universally**: `method` has no effect on any call. -/
theorem C57_method_ignored {α : Type} [PyFloat α] (argsort : List α → List Nat) (polyfit1 : List α → List α → α)
    (dbz zdr z : PyVal α) (T : Option (PyVal α)) (hfrz : Option α) (method method' : String) (fitA fitB : Option α) :
    calcLiquidIceMassVal argsort polyfit1 dbz zdr z T hfrz method fitA fitB =
      calcLiquidIceMassVal argsort polyfit1 dbz zdr z T hfrz method' fitA fitB := rfl

/-- **C57**, what holds: whatever `method`, the missing line is that of Cifelli et al. (2002). -/
theorem C57_always_cifelli_partial {α : Type} [PyFloat α] (argsort : List α → List Nat)
    (polyfit1 : List α → List α → α) (dbz zdr z : PyVal α) (T : Option (PyVal α)) (hfrz : Option α) (method : String)
    (fitB : Option α) :
    calcLiquidIceMassVal argsort polyfit1 dbz zdr z T hfrz method none fitB =
      calcLiquidIceMassVal argsort polyfit1 dbz zdr z T hfrz method (some 0.8178) (some 12.5088) := rfl

/-- the water mass of a 30 dBZ, 0 dB gate at 9 km, for the line `a * Zdp + b` -/
theorem water_witness (a b : ℝ) (h : a * (-120) + b ≤ 0) :
    calcLiquidIceMassVal argsort polyfit1 (.scalar .float (fin 30)) (.scalar .float (fin 0)) (.scalar .float (fin 9))
      none none "cr1995" (some (fin a)) (some (fin b)) =
    .ok (some (.scalar .float (fin (3.44 * (10 : ℝ) ^ (-3 : ℝ) *
      ((10 : ℝ) ^ ((30 : ℝ) / 10) * (10 : ℝ) ^ (-0.1 * (30 - (a * (-120) + b)) : ℝ)) ^ (4 / 7 : ℝ))),
      .scalar .float (ice1 (fin a) (fin b) (fin 30) (fin 0) (fin 1.1)))) := by
  have key := liquidIceCalcs_gates (some (fin a)) (some (fin b)) (fin a) (fin b) rfl (fin 4.5) [(fin 30, fin 0, fin 9)]
  simp only [List.map_cons, List.map_nil, thresh1_fin] at key
  have ht : LiquidIceSpec.threshold 4.5 9 = 1.1 := by simp [LiquidIceSpec.threshold]; norm_num
  rw [ht] at key
  have hd : LiquidIceSpec.departure a b 30 0 = 30 - (a * (-120) + b) := by
    have hz : LiquidIceSpec.zdp 30 0 = -120 := by
      simp only [LiquidIceSpec.zdp]
      norm_num
      have : ((1000000000000 : ℝ)) = 10 ^ (12 : ℕ) := by norm_num
      rw [this, one_div, Real.logb_inv, Real.logb_pow, Real.logb_self_eq_one (by norm_num)]; norm_num
    rw [LiquidIceSpec.departure, hz, max_eq_right (by linarith)]
  have hwat : water1 (fin a) (fin b) (fin 30) (fin 0) (fin 1.1) = fin (3.44 * (10 : ℝ) ^ (-3 : ℝ) *
      ((10 : ℝ) ^ ((30 : ℝ) / 10) * (10 : ℝ) ^ (-0.1 * (30 - (a * (-120) + b)) : ℝ)) ^ (4 / 7 : ℝ)) := by
    simp only [water1, zhRain1_fin, deltaZ1_fin, lin_fin, hd, fzero, flt, fge, fsub, lt_self_iff_false, decide_false,
      decide_eq_true_eq]
    rw [if_neg (by simp), if_pos (by norm_num; linarith)]
    simp only [foflit, fsci, fneg]
    rw [fpow (by norm_num), fdiv (by norm_num),
      fpow (mul_pos (Real.rpow_pos_of_pos (by norm_num) _) (Real.rpow_pos_of_pos (by norm_num) _))]
    simp only [fmul]
  have hg : getHfrz argsort polyfit1 none [fin 9] none = .ok (some (fin 4.5)) := by simp [getHfrz, defaultHfrz]
  rw [hwat] at key
  simp only [calcLiquidIceMassVal, calcLiquidIceMass, hg, bind, Except.bind, key, pure, Except.pure]

/-- **C57**, negation of the full statement: `method='cr1995'` gives the cifelli masses. -/
theorem C57_honours_method_false : ¬ HonoursMethod := by
  intro h
  have := h (fun _ => []) (fun _ _ => fin 0) (.scalar .float (fin 30)) (.scalar .float (fin 0))
    (.scalar .float (fin 9)) none none "cr1995" 0.9091 8.5091 (.inr (.inl ⟨rfl, rfl, rfl⟩))
  rw [C57_always_cifelli_partial] at this
  simp only [fsci] at this
  rw [water_witness _ _ (by norm_num), water_witness _ _ (by norm_num)] at this
  injection this with this
  injection this with this
  injection this with this _
  injection this with _ this
  rw [fin_inj] at this
  have hlt : (3.44 * (10 : ℝ) ^ (-3 : ℝ) * ((10 : ℝ) ^ ((30 : ℝ) / 10) *
      (10 : ℝ) ^ (-0.1 * (30 - (0.9091 * (-120) + 8.5091)) : ℝ)) ^ (4 / 7 : ℝ)) <
      (3.44 * (10 : ℝ) ^ (-3 : ℝ) * ((10 : ℝ) ^ ((30 : ℝ) / 10) *
      (10 : ℝ) ^ (-0.1 * (30 - (0.8178 * (-120) + 12.5088)) : ℝ)) ^ (4 / 7 : ℝ)) := by
    apply mul_lt_mul_of_pos_left _ (by positivity)
    apply Real.rpow_lt_rpow (by positivity) _ (by norm_num)
    apply mul_lt_mul_of_pos_left _ (by positivity)
    exact Real.rpow_lt_rpow_of_exponent_lt (by norm_num) (by norm_num)
  exact hlt.ne this.symm

/-! ## C59 -/

/-- **C59.** The threshold array of `get_delta_thresh` for finite heights and level: 1.1 above the level and
2 + (8/3)(Hfrz - z) at or below it. -/
theorem C59_threshold_values (h : ℝ) (zs : List ℝ) (n : Nat) (z : ℝ) (hz : zs[n]? = some z) :
    ∃ t : ℝ, (getDeltaThresh (zs.map fin) (fin h))[n]? = some (fin t) ∧
      (z ≤ h → t = 2 + (8 / 3) * (h - z)) ∧ (h < z → t = 1.1) ∧ 1.1 ≤ t := by
  refine ⟨LiquidIceSpec.threshold h z, ?_, ?_, ?_, threshold_ge h z⟩
  · have : getDeltaThresh (zs.map fin) (fin h) = zs.map (fun x => thresh1 (fin h) (fin x)) := by
      simp only [getDeltaThresh, List.map_map, Function.comp_def, maskCopy_map]; rfl
    rw [this, List.getElem?_map, hz, Option.map_some, thresh1_fin]
  · intro hle; simp [LiquidIceSpec.threshold, hle]
  · intro hlt; simp [LiquidIceSpec.threshold, not_le.mpr hlt]

/-- **C59.** The threshold never increases with height. -/
theorem C59_threshold_nonincreasing (h : ℝ) (zs : List ℝ) (n m : Nat) (z z' t t' : ℝ) (hz : zs[n]? = some z)
    (hz' : zs[m]? = some z') (ht : (getDeltaThresh (zs.map fin) (fin h))[n]? = some (fin t))
    (ht' : (getDeltaThresh (zs.map fin) (fin h))[m]? = some (fin t')) (hle : z ≤ z') : t' ≤ t := by
  obtain ⟨u, e, h1, h2, h3⟩ := C59_threshold_values h zs n z hz
  obtain ⟨u', e', h1', h2', h3'⟩ := C59_threshold_values h zs m z' hz'
  rw [ht] at e; rw [ht'] at e'
  rw [Option.some.injEq, fin_inj] at e e'
  subst e e'
  rcases le_or_gt z' h with hc | hc
  · rw [h1' hc, h1 (hle.trans hc)]; linarith
  · rw [h2' hc]; exact h3

/-- **C59.** Freezing level: 4.5 when neither `T` nor `Hfrz` is given; a given `Hfrz` overrides any `T`. -/
theorem C59_freezing_level {α : Type} [PyFloat α] (argsort : List α → List Nat) (polyfit1 : List α → List α → α)
    (T : Option (List α)) (z : List α) (h : α) :
    getHfrz argsort polyfit1 none z none = .ok (some 4.5) ∧
    getHfrz argsort polyfit1 T z (some h) = .ok (some h) := by
  cases T <;> exact ⟨rfl, rfl⟩

/-- **C59.** For the whole call: with `Hfrz` given, `T` does not matter. -/
theorem C59_hfrz_overrides_T {α : Type} [PyFloat α] (argsort : List α → List Nat) (polyfit1 : List α → List α → α)
    (d r z : List α) (T T' : Option (List α)) (h : α) (method : String) (fitA fitB : Option α) :
    calcLiquidIceMass argsort polyfit1 d r z T (some h) method fitA fitB =
      calcLiquidIceMass argsort polyfit1 d r z T' (some h) method fitA fitB := by
  simp only [calcLiquidIceMass, (C59_freezing_level argsort polyfit1 _ z h).2]

example : ([1, 9 / 2, 9] : List ℝ)[1]? = some (9 / 2) := rfl

end Csu.LiquidIce
