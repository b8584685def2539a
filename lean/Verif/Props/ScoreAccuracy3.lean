import Verif.Props.ScoreAccuracy2
import Verif.Props.RunWinter
/-!
# Property C166: wet snow is detected right in floating point

The melting-layer detection and the wet-snow category of `run_winter` follow the exact scores wherever these differ by more than 0.008.
-/
namespace Csu.Fhc
open Tables PyFloat IeeeFloat FhcSpec
variable {α : Type} [IeeeFloatPow α]

/-- the weights of the melting-layer classifier -/
def wetWeights (k : Key) : ℝ := match k with | .DZ => 4 | .DR => 7 | .RH => 14 | _ => 0

theorem exactWeights_ml {P : Key → Bool} (hP : P .DZ = true) (c : Nat) : ExactWeights (α := α) false P (fun k => mlWeights k c) wetWeights := by
  have b : ∀ k, 0 ≤ wetWeights k ∧ wetWeights k ≤ 2 ^ 20 := by intro k; cases k <;> norm_num [wetWeights]
  refine ⟨fun k => ⟨?_, b k⟩, fun _ => ?_⟩
  · cases k
    · exact Ieee.voflit 4 (by norm_num)
    · exact Ieee.voflit 7 (by norm_num)
    · exact Ieee.vzero
    · exact Ieee.voflit 14 (by norm_num)
    · exact Ieee.vzero
    · exact Ieee.vzero
  · refine _root_.le_trans ?_ (le_sum wetWeights ((meanVars false).filter P) (fun k _ => (b k).1) .DZ (List.mem_filter.mpr ⟨by simp [meanVars], hP⟩))
    norm_num [wetWeights]

/-- the exact score of `c` = 0 (other) or 1 (wet snow) at a gate: the weighted mean of the supplied variables, without the temperature -/
noncomputable def wetScore (P : Key → Bool) (c : Nat) (g : Key → α) : ℝ := exactScore false P false wetWeights (exactMember "S" .ml c g)

theorem wet_close {I : Inputs α} {shape : List Nat} {rows : List (List α)} {P : Key → Bool} {gs : List (Key → α)}
    (hr : csuFhcMl mlCallArgs I = .ok (some (shape, rows))) (h : IsGates I P gs) (hP : P .DZ = true) (hR : P .RH = true) (hT : P .T = false)
    {i : Nat} (hi : i < gs.length) (hx : ∀ k, P k = true → ∃ y : ℝ, IeeeFloat.val (gs[i] k) = .fin y ∧ |y| ≤ 2 ^ (20 : ℤ)) :
    (wetScore P 0 gs[i] + 1 / 125 < wetScore P 1 gs[i] → wetSnowBetter rows i = true) ∧
    (wetScore P 1 gs[i] + 1 / 125 < wetScore P 0 gs[i] → wetSnowBetter rows i = false) := by
  have hA : GoodMl (mlCallArgs : MlArgs α) P false := ⟨by simp [mlCallArgs, bands], by show methodOf "linear" = _; decide, hP,
    fun _ => List.ne_nil_of_mem (List.mem_filter.mpr ⟨by simp [pol], hR⟩), fun _ h => by rw [hT] at h; cases h⟩
  have hf : IeeeFloat.val (mlCallArgs : MlArgs α).tempFactor = .fin 1 := Ieee.vone
  obtain ⟨dz, _, h2⟩ := ml_gates hA rfl (noZeroWidth_mlF hA.band ⟨1, hf, by norm_num, by norm_num⟩) h
  rw [hr] at h2
  simp only [Except.ok.injEq, Option.some.injEq, Prod.mk.injEq] at h2
  have key : ∀ c < 2, ∃ v : ℝ, IeeeFloat.val ((rows.getD c []).getD i PyFloat.nan) = .fin v ∧ |v - wetScore P c gs[i]| ≤ 1 / 250 := by
    intro c hc
    have e : ([0, 1] : List Nat)[c]? = some c := by
      rcases (show c = 0 ∨ c = 1 by omega) with rfl | rfl <;> rfl
    rw [h2.2]
    simp only [List.getD_eq_getElem?_getD, List.getElem?_map, e, Option.map_some, Option.getD_some, List.getElem?_eq_getElem hi]
    obtain ⟨w1, w2⟩ := exactWeights_ml (α := α) hP c
    exact gScore_close hA.dz (fun _ => rfl) (fun k => (w1 k).1) (fun k => (w1 k).2.1) (fun k => (w1 k).2.2) (exactMember_unit _ _ _ _)
      (fun k hk hT => member_close (goodAt_ml hA.band P c hc) hf hx k hk hT) (fun _ h => by rw [hT] at h; cases h) w2
  obtain ⟨a, a1, a2⟩ := key 0 (by norm_num)
  obtain ⟨b, b1, b2⟩ := key 1 (by norm_num)
  have hn : isnan ((rows.getD 0 []).getD i (PyFloat.nan : α)) = false := by
    show (!(PyFloat.eq _ _)) = false
    rw [val_eq, a1]
    simp [XR.eq]
  have hle : (((rows.getD 1 []).getD i (PyFloat.nan : α)) <=. ((rows.getD 0 []).getD i PyFloat.nan)) = XR.le (.fin b) (.fin a) := by
    rw [← a1, ← b1]; exact val_le _ _
  have a3 := abs_le.mp a2
  have b3 := abs_le.mp b2
  unfold wetSnowBetter
  simp only [hn, hle]
  constructor
  · intro hlt
    have : XR.le (.fin b) (.fin a) = false := by
      rw [Bool.eq_false_iff, ne_eq, Ieee.le_fin]
      linarith [a3.1, a3.2, b3.1, b3.2]
    simp [this]
  · intro hlt
    have : XR.le (.fin b) (.fin a) = true := by
      rw [Ieee.le_fin]
      linarith [a3.1, a3.2, b3.1, b3.2]
    simp [this]

/-- what the arguments of `melting_layer` make of its classifier's arguments -/
theorem ml_present {F : Fields α} {P : Key → Bool} {gs : List (Key → α)} {dz : NdArray α} {rho : Masked α} (hd : F.dz = some dz) (hr : F.rho = .masked rho)
    (h : IsGates (mlInputs F) P gs) : P .DZ = true ∧ P .RH = true ∧ P .T = false ∧ dz.data.length = gs.length := by
  have h1 := h .DZ
  have h2 := h .RH
  have h3 := h .T
  simp only [mlInputs, Inputs.get, hd, hr, RhoArg.array, Option.map_some, Option.map_none] at h1 h2 h3
  refine ⟨?_, ?_, ?_, ?_⟩
  · by_contra hne; simp [hne] at h1
  · by_contra hne; simp [hne] at h2
  · by_contra hne; simp [hne] at h3
  · split_ifs at h1
    simp only [Option.some.injEq] at h1
    rw [h1]; simp

/-- **C166.** Whenever `melting_layer` returns, at every gate of usable correlation and signal whose values are finite and up to `2^20`, the
code is 2 (wet snow) if the exact score of wet snow exceeds that of other by more than 0.008, and 1 if it is the other way round. -/
theorem C166_melting_layer (env : Env) (A : MeltArgs α) (F : Fields α) (M : MeltOut α) (h : meltingLayer env A F = .ok (some M))
    (P : Key → Bool) (gs : List (Key → α)) (hg : IsGates (mlInputs F) P gs) :
    ∃ rho, F.rho = .masked rho ∧ ∀ i (hi : i < gs.length), rhoUnusable A rho i = false → weakSignal A F.sn i = false →
      (∀ k, P k = true → ∃ y : ℝ, IeeeFloat.val (gs[i] k) = .fin y ∧ |y| ≤ 2 ^ (20 : ℤ)) →
      (wetScore P 0 gs[i] + 1 / 125 < wetScore P 1 gs[i] → M.fh[i]? = some 2) ∧
      (wetScore P 1 gs[i] + 1 / 125 < wetScore P 0 gs[i] → M.fh[i]? = some 1) := by
  obtain ⟨shape, dz, height, rho, h1, h2, h3, -⟩ := meltingLayer_inv h
  obtain ⟨dz', rho', e1, e2, -, -, e4⟩ := C35_codes env A F M h
  rw [h2] at e1; cases e1
  rw [h3] at e2; cases e2
  obtain ⟨p1, p2, p3, p4⟩ := ml_present h2 h3 hg
  refine ⟨rho, h3, ?_⟩
  intro i hi hu hw hx
  obtain ⟨k1, k2⟩ := wet_close h1 hg p1 p2 p3 hi hx
  have e := (e4 i (by omega)).2
  rw [e, hu, hw]
  exact ⟨fun hlt => by rw [k1 hlt]; rfl, fun hlt => by rw [k2 hlt]; rfl⟩

/-- **C166.** Whenever `run_winter` returns, at such a gate the category is 5 (wet snow) if the exact score of wet snow exceeds that of other by
more than 0.008, and not 5 if it is the other way round. -/
theorem C166_run_winter (env : Env) (A : MeltArgs α) (F : Fields α) (out : WinterOut α) (h : runWinter env A F = .ok out)
    (P : Key → Bool) (gs : List (Key → α)) (hg : IsGates (mlInputs F) P gs) :
    ∃ rho, F.rho = .masked rho ∧ out.hca.length = gs.length ∧ ∀ i (hi : i < gs.length), rhoUnusable A rho i = false → weakSignal A F.sn i = false →
      (∀ k, P k = true → ∃ y : ℝ, IeeeFloat.val (gs[i] k) = .fin y ∧ |y| ≤ 2 ^ (20 : ℤ)) →
      (wetScore P 0 gs[i] + 1 / 125 < wetScore P 1 gs[i] → out.hca[i]? = some 5) ∧
      (wetScore P 1 gs[i] + 1 / 125 < wetScore P 0 gs[i] → out.hca[i]? ≠ some 5) := by
  obtain ⟨M, h1, -, h3, -⟩ := C33_rule env A F out h
  obtain ⟨M', dz0, g1, g3, -, -, -, g2, -⟩ := runWinter_inv h
  rw [h1] at g1; cases g1
  obtain ⟨shape, dz, height, rho, k1, k2, k3, -⟩ := meltingLayer_inv h1
  obtain ⟨dz', rho', e1, e2, -, e3, -⟩ := C35_codes env A F M h1
  rw [k2] at e1; cases e1
  rw [k3] at e2; cases e2
  obtain ⟨rho', f1, f2⟩ := C33_wet_snow env A F out h
  rw [k3] at f1; cases f1
  obtain ⟨p1, p2, p3, p4⟩ := ml_present k2 k3 hg
  have hlen : out.hca.length = gs.length := by omega
  refine ⟨rho, k3, hlen, ?_⟩
  intro i hi hu hw hx
  obtain ⟨q1, q2⟩ := wet_close k1 hg p1 p2 p3 hi hx
  have hi' : i < out.hca.length := by omega
  have e := List.getElem?_eq_getElem hi'
  have f := f2 i _ e
  rw [hu, hw, g2] at f
  rw [e]
  constructor
  · intro hlt
    rw [f.mpr ⟨rfl, rfl, q1 hlt⟩]
  · intro hlt heq
    have := (f.mp (by simpa using heq)).2.2
    rw [q2 hlt] at this
    cases this

theorem toR_raw (n : Int) : toR (rawVal (some n) : XR) = (n : ℝ) / 1000 := by
  refine toR_eq ?_
  show (PyFloat.lit ((n : Rat) / 1000) : XR) = _
  show XR.fin _ = _
  norm_num

theorem exactBeta_centre (m a b : ℝ) (hb : b ≠ 0) : exactBeta m a b m = 1 := by
  unfold exactBeta
  simp [Real.zero_rpow hb]

theorem exactBeta_far {m a b x : ℝ} (ha : 0 < a) (hb : 0 ≤ b) (h : a ≤ |x - m|) : exactBeta m a b x ≤ 1 / 2 := by
  unfold exactBeta
  have h1 : 1 ≤ ((x - m) / a) ^ 2 := by
    rw [← sq_abs, abs_div, abs_of_pos ha]
    exact one_le_pow₀ ((one_le_div ha).mpr h)
  have h2 := Real.one_le_rpow h1 hb
  exact one_div_le_one_div_of_le (by norm_num) (by linarith)

/-- the gate of the example: the centres of wet snow -/
noncomputable def wetAt (k : Key) : XR := match k with | .DZ => .fin 25 | .DR => .fin 3 | .KD => .fin 0 | .RH => .fin 0.75 | .LD => .fin 0 | .T => .fin (-5)

theorem wetAt_toR (k : Key) (r : ℝ) (h : wetAt k = .fin r) : toR (wetAt k) = r := toR_eq h

theorem wetAt_margin : wetScore PMl 0 wetAt + 1 / 125 < wetScore PMl 1 wetAt := by
  have w1 : ∀ k ∈ [Key.DZ, .DR, .RH], exactMember "S" .ml 1 wetAt k = 1 := by
    intro k hk
    simp only [List.mem_cons, List.not_mem_nil, or_false] at hk
    rcases hk with rfl | rfl | rfl
    · show exactBeta (toR (rawVal (some 25000) : XR)) (toR (rawVal (some 23000) : XR)) (toR (rawVal (some 10000) : XR)) (toR (wetAt .DZ)) = 1
      rw [toR_raw, toR_raw, toR_raw, wetAt_toR .DZ 25 rfl]
      norm_num
      exact exactBeta_centre _ _ _ (by norm_num)
    · show exactBeta (toR (rawVal (some 3000) : XR)) (toR (rawVal (some 5000) : XR)) (toR (rawVal (some 10000) : XR)) (toR (wetAt .DR)) = 1
      rw [toR_raw, toR_raw, toR_raw, wetAt_toR .DR 3 rfl]
      norm_num
      exact exactBeta_centre _ _ _ (by norm_num)
    · show exactBeta (toR (rawVal (some 750) : XR)) (toR (rawVal (some 230) : XR)) (toR (rawVal (some 30000) : XR)) (toR (wetAt .RH)) = 1
      rw [toR_raw, toR_raw, toR_raw, wetAt_toR .RH 0.75 rfl]
      norm_num
      exact exactBeta_centre _ _ _ (by norm_num)
  have r0 : exactMember "S" .ml 0 wetAt .RH ≤ 1 / 2 := by
    show exactBeta (toR (rawVal (some 980) : XR)) (toR (rawVal (some 50) : XR)) (toR (rawVal (some 10000) : XR)) (toR (wetAt .RH)) ≤ 1 / 2
    rw [toR_raw, toR_raw, toR_raw, wetAt_toR .RH 0.75 rfl]
    exact exactBeta_far (by norm_num) (by norm_num) (by rw [abs_of_neg (by norm_num)]; norm_num)
  have d0 := (exactMember_unit "S" .ml 0 wetAt .DR).2
  have z0 := (exactMember_unit "S" .ml 0 wetAt .DZ).2
  have e : ∀ c, wetScore PMl c wetAt = (7 * exactMember "S" .ml c wetAt .DR + 14 * exactMember "S" .ml c wetAt .RH + 4 * exactMember "S" .ml c wetAt .DZ) / 25 := by
    intro c
    have : (meanVars false).filter PMl = [.DR, .KD, .RH, .DZ] := by decide
    unfold wetScore exactScore exactMean
    rw [if_neg (by simp), this]
    simp only [List.map_cons, List.map_nil, List.sum_cons, List.sum_nil, wetWeights]
    norm_num
    ring_nf
  rw [e, e, w1 .DZ (by simp), w1 .DR (by simp), w1 .RH (by simp)]
  linarith

/-- a volume of one gate, at the centres of wet snow: `run_winter` gives 5 -/
example : ∃ out, runWinter ⟨true, true⟩ ({ scanType := "grid" } : MeltArgs XR) (fieldsOf [1] none [⟨25, 3, 0, 0.75, -5, 20, 6, false⟩]) = .ok out ∧
    out.hca[0]? = some 5 := by
  obtain ⟨out, m, h1, -⟩ := C33_finite_volume ⟨true, true⟩ rfl ({ scanType := "grid" } : MeltArgs XR) 0.5 5 4
    (by simp) (by simp) (by show some (4.0 : XR) = _; rw [XR.fsci]; norm_num) (by decide) [1] none [⟨25, 3, 0, 0.75, -5, 20, 6, false⟩] ⟨by simp, by simp⟩ (by simp)
  refine ⟨out, h1, ?_⟩
  have hg : IsGates (mlInputs (fieldsOf [1] none [⟨25, 3, 0, 0.75, -5, 20, 6, false⟩])) PMl [wetAt] := by
    intro k
    cases k <;> simp [mlInputs, fieldsOf, Inputs.get, PMl, RhoArg.array, field, wetAt]
  obtain ⟨rho, e1, e2, e3⟩ := C166_run_winter _ _ _ out h1 PMl [wetAt] hg
  simp only [fieldsOf, RhoArg.masked.injEq] at e1
  refine (e3 0 (by simp) ?_ ?_ ?_).1 wetAt_margin
  · rw [← e1]
    simp [rhoUnusable, field]
    norm_num [XR.eq, PyFloat.isnan]
  · simp [weakSignal, fieldsOf, field]
    norm_num
  · intro k hk
    cases k <;> first | exact ⟨_, rfl, by norm_num⟩ | simp [PMl] at hk

end Csu.Fhc
