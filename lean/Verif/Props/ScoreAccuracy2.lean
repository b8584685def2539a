import Verif.Props.ScoreAccuracy
/-!
# Property C165: accuracy of the winter and melting-layer scores in floating point

The scores of `csu_fhc_winter` and of the melting-layer classifier (`csu_fhc_cold_newml1`) are within 0.004 of the exact ones.
-/
namespace Csu.Fhc
open Tables PyFloat IeeeFloat FhcSpec
variable {α : Type} [IeeeFloatPow α]

/-- weights whose exact values are `w`: from 0 to `2^20`, and of total at least `2^-20` if a weighted mean is taken -/
def ExactWeights (hybrid : Bool) (P : Key → Bool) (W : Key → α) (w : Key → ℝ) : Prop :=
  (∀ k, val (W k) = .fin (w k) ∧ 0 ≤ w k ∧ w k ≤ 2 ^ 20) ∧ ((hybrid = true → pol.any P = true) → 2 ^ (-20 : ℤ) ≤ totalWeight hybrid P w)

/-- the winter species of each regime, as rows of the parameter file -/
def winterSpecies (warm : Bool) : List Nat := if warm then [4, 5] else [0, 1, 2, 3]

/-- **C165.** The winter classifier: row number `n` holds the scores of the `n`-th winter species of the chosen regime (species `c` of the
parameter file), each within 0.004 of the exact score at every gate whose
values are finite and up to `2^20`, whatever the other gates hold. -/
theorem C165_winter (A : WinterArgs α) (I : Inputs α) (P : Key → Bool) (gs : List (Key → α)) (hybrid : Bool) (hA : GoodWinter A P hybrid)
    (hR : P .RH = false) (hL : P .LD = false) (hf : val A.tempFactor = .fin 1)
    (w : Nat → Key → ℝ) (hw : ∀ c ∈ winterSpecies A.warm, ExactWeights hybrid P (fun k => A.weights k c) (w c))
    (h : IsGates I P gs) :
    ∃ shape rows, csuFhcWinter A I = .ok (some (shape, rows)) ∧ rows.length = (if A.warm then 2 else 4) ∧
      ∀ n < (if A.warm then 2 else 4), (rows.getD n []).length = gs.length ∧ ∀ i (hi : i < gs.length),
        (∀ k, P k = true → ∃ y : ℝ, val (gs[i] k) = .fin y ∧ |y| ≤ 2 ^ (20 : ℤ)) →
        ∃ v : ℝ, val ((rows.getD n []).getD i PyFloat.nan) = .fin v ∧
          |v - exactScore hybrid P A.useTemp (w ((winterSpecies A.warm).getD n 0))
            (exactMember A.band .winter ((winterSpecies A.warm).getD n 0) gs[i])| ≤ 1 / 250 := by
  obtain ⟨dz, _, h2⟩ := winter_gates hA (noZeroWidth_winterF hA.band ⟨1, hf, by norm_num, by norm_num⟩) h
  refine ⟨_, _, h2, by cases A.warm <;> rfl, ?_⟩
  intro n hn
  have hlen : (winterTypes A.warm).length = (if A.warm then 2 else 4) := by cases A.warm <;> rfl
  have hn' : n < (winterTypes A.warm).length := by rw [hlen]; exact hn
  simp only [List.getD_eq_getElem?_getD, List.getElem?_map, List.getElem?_eq_getElem hn', Option.map_some, Option.getD_some, List.length_map, true_and]
  intro i hi hx
  simp only [List.getElem?_eq_getElem hi, Option.map_some, Option.getD_some]
  have hc := List.getElem_mem hn'
  have es : (winterSpecies A.warm)[n]?.getD 0 = (winterTypes A.warm)[n] := by
    show (winterTypes A.warm)[n]?.getD 0 = _
    rw [List.getElem?_eq_getElem hn', Option.getD_some]
  rw [es]
  obtain ⟨w1, w2⟩ := hw _ hc
  exact gScore_close hA.dz (fun _ => rfl) (fun k => (w1 k).1) (fun k => (w1 k).2.1) (fun k => (w1 k).2.2) (exactMember_unit _ _ _ _)
    (fun k hk hT => member_close (goodAt_winter hA.band P hR hL _ (winterTypes_lt _ _ hc)) hf hx k hk hT)
    (fun e hT => by simp [effTemp, hT, hA.linT e hT]) w2

/-- **C165.** The melting-layer classifier: the two rows hold scores within 0.004 of the exact ones at such gates. -/
theorem C165_ml (A : MlArgs α) (I : Inputs α) (P : Key → Bool) (gs : List (Key → α)) (hybrid : Bool) (hA : GoodMl A P hybrid)
    (hn : A.nTypes = 2) (hf : val A.tempFactor = .fin 1)
    (w : Nat → Key → ℝ) (hw : ∀ c < 2, ExactWeights hybrid P (fun k => A.weights k c) (w c))
    (h : IsGates I P gs) :
    ∃ shape rows, csuFhcMl A I = .ok (some (shape, rows)) ∧ rows.length = 2 ∧
      ∀ c < 2, (rows.getD c []).length = gs.length ∧ ∀ i (hi : i < gs.length),
        (∀ k, P k = true → ∃ y : ℝ, val (gs[i] k) = .fin y ∧ |y| ≤ 2 ^ (20 : ℤ)) →
        ∃ v : ℝ, val ((rows.getD c []).getD i PyFloat.nan) = .fin v ∧
          |v - exactScore hybrid P A.useTemp (w c) (exactMember A.band .ml c gs[i])| ≤ 1 / 250 := by
  obtain ⟨dz, _, h2⟩ := ml_gates hA hn (noZeroWidth_mlF hA.band ⟨1, hf, by norm_num, by norm_num⟩) h
  refine ⟨_, _, h2, rfl, ?_⟩
  intro c hc
  have e : ([0, 1] : List Nat)[c]? = some c := by
    rcases (show c = 0 ∨ c = 1 by omega) with rfl | rfl <;> rfl
  simp only [List.getD_eq_getElem?_getD, List.getElem?_map, e, Option.map_some, Option.getD_some, List.length_map, true_and]
  intro i hi hx
  simp only [List.getElem?_eq_getElem hi, Option.map_some, Option.getD_some]
  obtain ⟨w1, w2⟩ := hw c hc
  exact gScore_close hA.dz (fun _ => rfl) (fun k => (w1 k).1) (fun k => (w1 k).2.1) (fun k => (w1 k).2.2) (exactMember_unit _ _ _ _)
    (fun k hk hT => member_close (goodAt_ml hA.band P c hc) hf hx k hk hT)
    (fun e hT => by simp [effTemp, hT, hA.linT e hT]) w2

/-- the default winter weights are such weights: reflectivity always counts -/
theorem exactWeights_winter {P : Key → Bool} (hP : P .DZ = true) (warm : Bool) (c : Nat) (hc : c ∈ winterTypes warm) :
    ExactWeights (α := α) false P (fun k => winterWeights k c) (fun k => winterW k c) := by
  have hc6 := winterTypes_lt warm c hc
  have b : ∀ k, 0 ≤ winterW k c ∧ winterW k c ≤ 2 ^ 20 := by
    intro k
    rcases (show c = 0 ∨ c = 1 ∨ c = 2 ∨ c = 3 ∨ c = 4 ∨ c = 5 by omega) with rfl | rfl | rfl | rfl | rfl | rfl <;>
      cases k <;> norm_num [winterW]
  refine ⟨fun k => ⟨winterWeights_val k c, b k⟩, fun _ => ?_⟩
  have h1 := le_sum (fun k => winterW k c) ((meanVars false).filter P) (fun k _ => (b k).1) .DZ (List.mem_filter.mpr ⟨by simp [meanVars], hP⟩)
  refine _root_.le_trans ?_ h1
  rcases (show c = 0 ∨ c = 1 ∨ c = 2 ∨ c = 3 ∨ c = 4 ∨ c = 5 by omega) with rfl | rfl | rfl | rfl | rfl | rfl <;> norm_num [winterW]

/-- **C165.** The default winter call: reflectivity and temperature, with differential reflectivity and/or specific differential phase. -/
theorem C165_winter_default (band : String) (hb : band ∈ bands) (warm : Bool) (P : Key → Bool) (hP : P .DZ = true)
    (hpol : P .DR = true ∨ P .KD = true) (hR : P .RH = false) (hL : P .LD = false) (gs : List (Key → α)) :
    ∃ shape rows, csuFhcWinter ({ band := band, warm := warm } : WinterArgs α) (inputsOf P gs) = .ok (some (shape, rows)) ∧
      rows.length = (if warm then 2 else 4) ∧
      ∀ n < (if warm then 2 else 4), (rows.getD n []).length = gs.length ∧ ∀ i (hi : i < gs.length),
        (∀ k, P k = true → ∃ y : ℝ, val (gs[i] k) = .fin y ∧ |y| ≤ 2 ^ (20 : ℤ)) →
        ∃ v : ℝ, val ((rows.getD n []).getD i PyFloat.nan) = .fin v ∧
          |v - exactScore false P true (fun k => winterW k ((winterSpecies warm).getD n 0))
            (exactMember band .winter ((winterSpecies warm).getD n 0) gs[i])| ≤ 1 / 250 := by
  refine C165_winter { band := band, warm := warm } _ P gs false ⟨hb, by show methodOf "linear" = _; decide, hP, ?_, fun _ _ => rfl⟩ hR hL
    Ieee.vone (fun c k => winterW k c) (fun c hc => exactWeights_winter hP warm c hc) (isGates_inputsOf _ _)
  intro _
  rcases hpol with h | h
  · exact List.ne_nil_of_mem (List.mem_filter.mpr ⟨by simp [pol], h⟩)
  · exact List.ne_nil_of_mem (List.mem_filter.mpr ⟨by simp [pol], h⟩)

/-- binary64, S band, warm regime, reflectivity, temperature and differential reflectivity; the second gate is NaN -/
example : ∃ shape rows, csuFhcWinter ({ band := "S", warm := true } : WinterArgs Binary64)
      (inputsOf (fun k => k == .DZ || k == .DR || k == .T) [fun _ => 30, fun _ => PyFloat.nan]) = .ok (some (shape, rows)) ∧ rows.length = 2 ∧
      ∃ v : ℝ, val ((rows.getD 0 []).getD 0 PyFloat.nan) = .fin v := by
  obtain ⟨shape, rows, h1, h2, h3⟩ := C165_winter_default (α := Binary64) "S" (by simp [bands]) true (fun k => k == .DZ || k == .DR || k == .T)
    (by decide) (Or.inl (by decide)) (by decide) (by decide) [fun _ => 30, fun _ => PyFloat.nan]
  obtain ⟨v, hv, -⟩ := (h3 0 (by simp)).2 0 (by simp) (fun _ _ => ⟨30, Ieee.voflit 30 (by norm_num), by norm_num⟩)
  exact ⟨shape, rows, h1, h2, v, hv⟩

/-- binary64, X band, the melting-layer classifier with weights 1 -/
example : ∃ shape rows, csuFhcMl ({ band := "X", weights := fun _ _ => 1 } : MlArgs Binary64)
      (inputsOf (fun _ => true) [fun _ => 30]) = .ok (some (shape, rows)) ∧ rows.length = 2 ∧ ∃ v : ℝ, val ((rows.getD 0 []).getD 0 PyFloat.nan) = .fin v := by
  obtain ⟨shape, rows, h1, h2, h3⟩ := C165_ml ({ band := "X", weights := fun _ _ => 1 } : MlArgs Binary64) (inputsOf (fun _ => true) [fun _ => 30])
    (fun _ => true) [fun _ => 30] false ⟨by simp [bands], by show methodOf "linear" = _; decide, rfl, by decide, by simp⟩ rfl Ieee.vone
    (fun _ _ => 1) (fun _ _ => ⟨fun _ => ⟨Ieee.vone, by norm_num, by norm_num⟩, fun _ => by norm_num [totalWeight, meanVars]⟩)
    (isGates_inputsOf _ _)
  obtain ⟨v, hv, -⟩ := (h3 0 (by norm_num)).2 0 (by simp) (fun _ _ => ⟨30, Ieee.voflit 30 (by norm_num), by norm_num⟩)
  exact ⟨shape, rows, h1, h2, v, hv⟩

end Csu.Fhc
