import Verif.Model.Rain
import Verif.Spec.Rain
import Verif.Lemmas.Lists
/-! The array code of the rain functions equals the per-gate specification, for lists of gates. -/
set_option linter.unusedSimpArgs false
namespace Csu.Rain
open Csu PyFloat Csu.Common Csu.LiquidIce Csu.RainSpec
variable {α : Type} [PyFloat α]

theorem calcRainNexrad_map {ι : Type} (gs : List ι) (f : ι → α) (t a b : α) :
    calcRainNexrad (gs.map f) t a b = gs.map (fun g => rZRcap t a b (f g)) := by
  simp only [calcRainNexrad, List.map_map, maskSet_map]
  rfl

theorem calcZdp_map {ι : Type} (gs : List ι) (f g : ι → α) :
    calcZdp (gs.map f) (gs.map g) =
      gs.map (fun i => 10 * log10 (if (f i - g i) <=. 0 then 0.000000000001 else f i - g i)) := by
  simp only [calcZdp, zipWith_map_map, List.map_map, maskSet_map]
  apply List.map_congr_left; intro i _; rfl

theorem zdp_map (gs : List (α × α × α)) :
    calcZdp (gs.map (fun g => linearize g.1)) (gs.map (fun g => (calcZhZv g.1 g.2.1).2)) =
      gs.map (fun g => zdpDb g.1 g.2.1) := by
  rw [calcZdp_map]; rfl

theorem blendedArr_S (P : Params α) (fa fb : α) (hf : rainLine P = .ok (fa, fb)) (dt : DType)
    (gs : List (α × α × α)) :
    blendedArr P "S" dt (gs.map (·.1)) (gs.map (·.2.1)) (gs.map (·.2.2)) = .ok
      ⟨gs.map (fun g => store dt (rate P P.threshNexrad fa fb g.1 g.2.1 g.2.2 (methodS P fa fb g.1 g.2.1 g.2.2))),
       gs.map (fun g => methodS P fa fb g.1 g.2.1 g.2.2),
       some (gs.map (fun g => zdpDb g.1 g.2.1), gs.map (fun g => iceFraction fa fb g.1 g.2.1))⟩ := by
  simp only [blendedArr, if_true, List.map_map, zipWith_map_map, Function.comp_def, zdp_map, hf, calcRainNexrad_map,
    logicalAnd_map, logicalOr_map, invert_map, maskSet_map, maskCopy_map]
  simp only [bind, Except.bind, pure, Except.pure, List.map_map, zipWith_map_map, Function.comp_def, zdp_map, hf,
    calcRainNexrad_map, logicalAnd_map, logicalOr_map, invert_map, maskSet_map, maskCopy_map]
  congr 2
  · apply List.map_congr_left
    rintro ⟨d, z, k⟩ -
    simp only [methodS, rate, PyFloat.ge]
    change (if _ then _ else _) = _
    have e1 : (1 - (10:α) ^ ((fa * zdpDb d z + fb) / 10) / linearize d) = iceFraction fa fb d z := rfl
    simp only [e1]
    rcases Bool.eq_false_or_eq_true (iceFraction fa fb d z <. P.threshFracIce) with h4 | h4 <;> rcases Bool.eq_false_or_eq_true (P.threshDz <=. d) with h5 | h5 <;>
      rcases Bool.eq_false_or_eq_true (P.threshKdp <=. k) with h6 | h6 <;> rcases Bool.eq_false_or_eq_true (P.threshZdr <=. z) with h7 | h7 <;> simp [h4, h5, h6, h7] <;> rfl
  · apply List.map_congr_left
    rintro ⟨d, z, k⟩ -
    simp only [methodS, PyFloat.ge]
    have e1 : (1 - (10:α) ^ ((fa * zdpDb d z + fb) / 10) / linearize d) = iceFraction fa fb d z := rfl
    simp only [e1]
    rcases Bool.eq_false_or_eq_true (iceFraction fa fb d z <. P.threshFracIce) with h4 | h4 <;> rcases Bool.eq_false_or_eq_true (P.threshDz <=. d) with h5 | h5 <;>
      rcases Bool.eq_false_or_eq_true (P.threshKdp <=. k) with h6 | h6 <;> rcases Bool.eq_false_or_eq_true (P.threshZdr <=. z) with h7 | h7 <;> simp [h4, h5, h6, h7]

theorem blendedArr_other (P : Params α) (band : String) (hb : band ≠ "S") (dt : DType) (fa fb : α)
    (gs : List (α × α × α)) :
    blendedArr P band dt (gs.map (·.1)) (gs.map (·.2.1)) (gs.map (·.2.2)) = .ok
      ⟨gs.map (fun g => store dt (rate P P.threshNexrad fa fb g.1 g.2.1 g.2.2 (methodOther P g.1 g.2.2))),
       gs.map (fun g => methodOther P g.1 g.2.2), none⟩ := by
  simp only [blendedArr, if_neg hb, List.map_map, zipWith_map_map, Function.comp_def, calcRainNexrad_map,
    logicalAnd_map, logicalOr_map, invert_map, maskSet_map, maskCopy_map]
  simp only [pure, Except.pure]
  congr 2
  · apply List.map_congr_left
    rintro ⟨d, z, k⟩ -
    simp only [methodOther, rate, PyFloat.ge]
    rcases Bool.eq_false_or_eq_true (P.threshDz <=. d) with h5 | h5 <;> rcases Bool.eq_false_or_eq_true (P.threshKdp <=. k) with h6 | h6 <;> simp [h5, h6] <;> rfl
  · apply List.map_congr_left
    rintro ⟨d, z, k⟩ -
    simp only [methodOther, PyFloat.ge]
    rcases Bool.eq_false_or_eq_true (P.threshDz <=. d) with h5 | h5 <;> rcases Bool.eq_false_or_eq_true (P.threshKdp <=. k) with h6 | h6 <;> simp [h5, h6]

theorem hidroArr_S (P : Params α) (dt : DType) (gs : List (α × α × α × Int)) (fa fb : α) :
    hidroArr P "S" dt (gs.map (·.1)) (gs.map (·.2.1)) (gs.map (·.2.2.1)) (gs.map (·.2.2.2)) =
      (gs.map (fun g => if hidroMethodS P g.1 g.2.1 g.2.2.1 g.2.2.2 = 0 then 0 else
          store dt (rate P 53 fa fb g.1 g.2.1 g.2.2.1 (hidroMethodS P g.1 g.2.1 g.2.2.1 g.2.2.2))),
       gs.map (fun g => hidroMethodS P g.1 g.2.1 g.2.2.1 g.2.2.2)) := by
  simp only [hidroArr, if_true, List.map_map, zipWith_map_map, Function.comp_def, calcRainNexrad_map,
    logicalAnd_map, logicalOr_map, invert_map, maskSet_map, maskCopy_map]
  congr 1
  · apply List.map_congr_left
    rintro ⟨d, z, k, c⟩ -
    simp only [hidroMethodS, rate, PyFloat.ge, beq_iff_eq, Bool.or_eq_true]
    by_cases hc : c = 1 ∨ c = 2 ∨ c = 10
    · have h1 : c ≠ 5 ∧ c ≠ 7 ∧ c ≠ 8 ∧ c ≠ 9 := by omega
      have h2 : (c == 10 || (c == 1 || c == 2)) = true := by simp; omega
      rcases Bool.eq_false_or_eq_true (P.threshDz <=. d) with h5 | h5 <;> rcases Bool.eq_false_or_eq_true (P.threshKdp <=. k) with h6 | h6 <;> rcases Bool.eq_false_or_eq_true (P.threshZdr <=. z) with h7 | h7 <;>
        simp [h5, h6, h7, hc, h1, h2] <;> rfl
    · have h2 : (c == 10 || (c == 1 || c == 2)) = false := by simp; omega
      by_cases hi : c = 5 ∨ c = 7 ∨ c = 8 ∨ c = 9
      · have h3 : ((c == 5 || c == 7) || (c == 8 || c == 9)) = true := by simp; omega
        rcases Bool.eq_false_or_eq_true (P.threshDz <=. d) with h5 | h5 <;> rcases Bool.eq_false_or_eq_true (P.threshKdp <=. k) with h6 | h6 <;> rcases Bool.eq_false_or_eq_true (P.threshZdr <=. z) with h7 | h7 <;>
          simp [h5, h6, h7, hc, hi, h2, h3] <;> rfl
      · have h3 : ((c == 5 || c == 7) || (c == 8 || c == 9)) = false := by simp; omega
        rcases Bool.eq_false_or_eq_true (P.threshDz <=. d) with h5 | h5 <;> rcases Bool.eq_false_or_eq_true (P.threshKdp <=. k) with h6 | h6 <;> rcases Bool.eq_false_or_eq_true (P.threshZdr <=. z) with h7 | h7 <;>
          simp [h5, h6, h7, hc, hi, h2, h3]
  · apply List.map_congr_left
    rintro ⟨d, z, k, c⟩ -
    simp only [hidroMethodS, PyFloat.ge, beq_iff_eq, Bool.or_eq_true]
    by_cases hc : c = 1 ∨ c = 2 ∨ c = 10
    · have h1 : c ≠ 5 ∧ c ≠ 7 ∧ c ≠ 8 ∧ c ≠ 9 := by omega
      have h2 : (c == 10 || (c == 1 || c == 2)) = true := by simp; omega
      rcases Bool.eq_false_or_eq_true (P.threshDz <=. d) with h5 | h5 <;> rcases Bool.eq_false_or_eq_true (P.threshKdp <=. k) with h6 | h6 <;> rcases Bool.eq_false_or_eq_true (P.threshZdr <=. z) with h7 | h7 <;>
        simp [h5, h6, h7, hc, h1, h2]
    · have h2 : (c == 10 || (c == 1 || c == 2)) = false := by simp; omega
      by_cases hi : c = 5 ∨ c = 7 ∨ c = 8 ∨ c = 9
      · have h3 : ((c == 5 || c == 7) || (c == 8 || c == 9)) = true := by simp; omega
        rcases Bool.eq_false_or_eq_true (P.threshDz <=. d) with h5 | h5 <;> rcases Bool.eq_false_or_eq_true (P.threshKdp <=. k) with h6 | h6 <;> rcases Bool.eq_false_or_eq_true (P.threshZdr <=. z) with h7 | h7 <;>
          simp [h5, h6, h7, hc, hi, h2, h3]
      · have h3 : ((c == 5 || c == 7) || (c == 8 || c == 9)) = false := by simp; omega
        rcases Bool.eq_false_or_eq_true (P.threshDz <=. d) with h5 | h5 <;> rcases Bool.eq_false_or_eq_true (P.threshKdp <=. k) with h6 | h6 <;> rcases Bool.eq_false_or_eq_true (P.threshZdr <=. z) with h7 | h7 <;>
          simp [h5, h6, h7, hc, hi, h2, h3]

theorem hidroArr_other (P : Params α) (band : String) (hb : band ≠ "S") (dt : DType) (gs : List (α × α × α × Int))
    (fa fb : α) :
    hidroArr P band dt (gs.map (·.1)) (gs.map (·.2.1)) (gs.map (·.2.2.1)) (gs.map (·.2.2.2)) =
      (gs.map (fun g => if hidroRuleOther P g.1 g.2.2.1 g.2.2.2 = 0 then 0 else
          store dt (rate P 53 fa fb g.1 g.2.1 g.2.2.1 (hidroRuleOther P g.1 g.2.2.1 g.2.2.2))),
       gs.map (fun g => if hidroRuleOther P g.1 g.2.2.1 g.2.2.2 = 4 then 4 else 2)) := by
  simp only [hidroArr, if_neg hb, List.map_map, zipWith_map_map, Function.comp_def, calcRainNexrad_map,
    logicalAnd_map, logicalOr_map, invert_map, maskSet_map, maskCopy_map]
  congr 1
  · apply List.map_congr_left
    rintro ⟨d, z, k, c⟩ -
    simp only [hidroRuleOther, rate, PyFloat.ge]
    by_cases hc : c = 1 ∨ c = 2 ∨ c = 10
    · have h2 : (c == 10 || (c == 1 || c == 2)) = true := by simp; omega
      rcases Bool.eq_false_or_eq_true (P.threshDz <=. d) with h5 | h5 <;>
        rcases Bool.eq_false_or_eq_true (P.threshKdp <=. k) with h6 | h6 <;> simp [h5, h6, hc, h2] <;> rfl
    · have h2 : (c == 10 || (c == 1 || c == 2)) = false := by simp; omega
      rcases Bool.eq_false_or_eq_true (P.threshDz <=. d) with h5 | h5 <;>
        rcases Bool.eq_false_or_eq_true (P.threshKdp <=. k) with h6 | h6 <;> simp [h5, h6, hc, h2] <;> rfl
  · apply List.map_congr_left
    rintro ⟨d, z, k, c⟩ -
    simp only [PyFloat.ge, hidroRuleOther]
    by_cases hc : c = 1 ∨ c = 2 ∨ c = 10
    · have h2 : (c == 10 || (c == 1 || c == 2)) = true := by simp; omega
      rcases Bool.eq_false_or_eq_true (P.threshDz <=. d) with h5 | h5 <;>
        rcases Bool.eq_false_or_eq_true (P.threshKdp <=. k) with h6 | h6 <;> simp [h5, h6, hc, h2]
    · have h2 : (c == 10 || (c == 1 || c == 2)) = false := by simp; omega
      rcases Bool.eq_false_or_eq_true (P.threshDz <=. d) with h5 | h5 <;>
        rcases Bool.eq_false_or_eq_true (P.threshKdp <=. k) with h6 | h6 <;> simp [h5, h6, hc, h2]

/-- the rain type / class column of the gates, when supplied -/
def col {ι : Type} (on : Bool) (gs : List ι) (f : ι → Int) : Option (List Int) := if on then some (gs.map f) else none

/-- one gate of the tropical retrieval, as the code behaves (used by the property theorems) -/
def tropGate (P : TropParams α) (dt : DType) (csOn fhcOn : Bool) (d z k : α) (c f : Int) : α × Int :=
  let m := tropMethod P d z k (if csOn then some c else none)
  if d <. -10 then (0, -1)
  else if fhcOn && (decide (2 < f) && decide (f < 10)) then
    (if (f == 9) && ((P.threshKdp <=. k) && (P.threshDz <=. d)) then store dt (P.rKdpA * k ^ P.rKdpB) else 0, 2)
  else (if m = -1 then 0 else store dt (tropRate P d z k m), m)

theorem tropicalArr_gates (P0 : TropParams α) (predef band : String) (dt : DType) (csOn fhcOn : Bool)
    (gs : List (α × α × α × Int × Int)) :
    let P := tropPredef predef band P0
    tropicalArr P0 predef band dt (gs.map (·.1)) (gs.map (·.2.1)) (gs.map (·.2.2.1))
      (col csOn gs (·.2.2.2.1)) (col fhcOn gs (·.2.2.2.2)) =
      (gs.map (fun g => (tropGate P dt csOn fhcOn g.1 g.2.1 g.2.2.1 g.2.2.2.1 g.2.2.2.2).1),
       gs.map (fun g => (tropGate P dt csOn fhcOn g.1 g.2.1 g.2.2.1 g.2.2.2.1 g.2.2.2.2).2)) := by
  intro P
  simp only [tropicalArr]
  change _ = (gs.map (fun g => (tropGate P dt csOn fhcOn g.1 g.2.1 g.2.2.1 g.2.2.2.1 g.2.2.2.2).1), _)
  generalize hP : tropPredef predef band P0 = Q
  have : P = Q := hP
  rw [this]
  clear this hP P
  cases fhcOn
  · cases csOn <;>
    simp only [col, if_true, if_false, Bool.false_eq_true, List.map_map, zipWith_map_map, Function.comp_def,
      logicalAnd_map, logicalOr_map, invert_map, maskSet_map, maskCopy_map] <;>
    congr 1
    · apply List.map_congr_left
      rintro ⟨d, z, k, c, f⟩ -
      simp only [tropGate, tropMethod, tropRate, PyFloat.ge]
      rcases Bool.eq_false_or_eq_true (d <. -10) with h4 | h4
      · simp [h4]
      rcases Bool.eq_false_or_eq_true (Q.threshDz <=. d) with h5 | h5 <;> rcases Bool.eq_false_or_eq_true (Q.threshKdp <=. k) with h6 | h6 <;> rcases Bool.eq_false_or_eq_true (Q.threshZdr <=. z) with h7 | h7 <;>
      first
      | (simp [h4, h5, h6, h7]; done)
      | (simp [h4, h5, h6, h7]; rfl)
      | (by_cases h2 : c = 2
         · subst h2; simp [h4, h5, h6, h7] <;> rfl
         by_cases h1 : c = 1
         · subst h1; simp [h4, h5, h6, h7] <;> rfl
         by_cases h3 : c = 3
         · subst h3; simp [h4, h5, h6, h7] <;> rfl
         simp [h1, h2, h3, h4, h5, h6, h7])
    · apply List.map_congr_left
      rintro ⟨d, z, k, c, f⟩ -
      simp only [tropGate, tropMethod, PyFloat.ge]
      rcases Bool.eq_false_or_eq_true (d <. -10) with h4 | h4
      · simp [h4]
      rcases Bool.eq_false_or_eq_true (Q.threshDz <=. d) with h5 | h5 <;> rcases Bool.eq_false_or_eq_true (Q.threshKdp <=. k) with h6 | h6 <;> rcases Bool.eq_false_or_eq_true (Q.threshZdr <=. z) with h7 | h7 <;>
      first
      | (simp [h4, h5, h6, h7]; done)
      | (simp [h4, h5, h6, h7]; rfl)
      | (by_cases h2 : c = 2
         · subst h2; simp [h4, h5, h6, h7] <;> rfl
         by_cases h1 : c = 1
         · subst h1; simp [h4, h5, h6, h7] <;> rfl
         by_cases h3 : c = 3
         · subst h3; simp [h4, h5, h6, h7] <;> rfl
         simp [h1, h2, h3, h4, h5, h6, h7])
    · apply List.map_congr_left
      rintro ⟨d, z, k, c, f⟩ -
      simp only [tropGate, tropMethod, tropRate, PyFloat.ge]
      rcases Bool.eq_false_or_eq_true (d <. -10) with h4 | h4
      · simp [h4]
      rcases Bool.eq_false_or_eq_true (Q.threshDz <=. d) with h5 | h5 <;> rcases Bool.eq_false_or_eq_true (Q.threshKdp <=. k) with h6 | h6 <;> rcases Bool.eq_false_or_eq_true (Q.threshZdr <=. z) with h7 | h7 <;>
      first
      | (simp [h4, h5, h6, h7]; done)
      | (simp [h4, h5, h6, h7]; rfl)
      | (by_cases h2 : c = 2
         · subst h2; simp [h4, h5, h6, h7] <;> rfl
         by_cases h1 : c = 1
         · subst h1; simp [h4, h5, h6, h7] <;> rfl
         by_cases h3 : c = 3
         · subst h3; simp [h4, h5, h6, h7] <;> rfl
         simp [h1, h2, h3, h4, h5, h6, h7])
    · apply List.map_congr_left
      rintro ⟨d, z, k, c, f⟩ -
      simp only [tropGate, tropMethod, PyFloat.ge]
      rcases Bool.eq_false_or_eq_true (d <. -10) with h4 | h4
      · simp [h4]
      rcases Bool.eq_false_or_eq_true (Q.threshDz <=. d) with h5 | h5 <;> rcases Bool.eq_false_or_eq_true (Q.threshKdp <=. k) with h6 | h6 <;> rcases Bool.eq_false_or_eq_true (Q.threshZdr <=. z) with h7 | h7 <;>
      first
      | (simp [h4, h5, h6, h7]; done)
      | (simp [h4, h5, h6, h7]; rfl)
      | (by_cases h2 : c = 2
         · subst h2; simp [h4, h5, h6, h7] <;> rfl
         by_cases h1 : c = 1
         · subst h1; simp [h4, h5, h6, h7] <;> rfl
         by_cases h3 : c = 3
         · subst h3; simp [h4, h5, h6, h7] <;> rfl
         simp [h1, h2, h3, h4, h5, h6, h7])
  · cases csOn <;>
    simp only [col, if_true, if_false, Bool.false_eq_true, List.map_map, zipWith_map_map, Function.comp_def,
      logicalAnd_map, logicalOr_map, invert_map, maskSet_map, maskCopy_map] <;>
    congr 1
    · apply List.map_congr_left
      rintro ⟨d, z, k, c, f⟩ -
      simp only [tropGate, tropMethod, tropRate, PyFloat.ge]
      rcases Bool.eq_false_or_eq_true (d <. -10) with h4 | h4
      · simp [h4]
      by_cases hf : 2 < f ∧ f < 10
      · by_cases h9 : f = 9
        · subst h9
          rcases Bool.eq_false_or_eq_true (Q.threshDz <=. d) with h5 | h5 <;> rcases Bool.eq_false_or_eq_true (Q.threshKdp <=. k) with h6 | h6 <;>
            simp [h4, h5, h6] <;> rfl
        · simp [h4, hf, h9]
      · have h9 : f ≠ 9 := by omega
        rcases Bool.eq_false_or_eq_true (Q.threshDz <=. d) with h5 | h5 <;> rcases Bool.eq_false_or_eq_true (Q.threshKdp <=. k) with h6 | h6 <;> rcases Bool.eq_false_or_eq_true (Q.threshZdr <=. z) with h7 | h7 <;>
        first
        | (simp [h4, h5, h6, h7, hf, h9]; done)
        | (simp [h4, h5, h6, h7, hf, h9]; rfl)
        | (by_cases h2 : c = 2
           · subst h2; simp [h4, h5, h6, h7, hf, h9] <;> rfl
           by_cases h1 : c = 1
           · subst h1; simp [h4, h5, h6, h7, hf, h9] <;> rfl
           by_cases h3 : c = 3
           · subst h3; simp [h4, h5, h6, h7, hf, h9] <;> rfl
           simp [h1, h2, h3, h4, h5, h6, h7, hf, h9])
    · apply List.map_congr_left
      rintro ⟨d, z, k, c, f⟩ -
      simp only [tropGate, tropMethod, PyFloat.ge]
      rcases Bool.eq_false_or_eq_true (d <. -10) with h4 | h4
      · simp [h4]
      by_cases hf : 2 < f ∧ f < 10
      · by_cases h9 : f = 9
        · subst h9
          rcases Bool.eq_false_or_eq_true (Q.threshDz <=. d) with h5 | h5 <;> rcases Bool.eq_false_or_eq_true (Q.threshKdp <=. k) with h6 | h6 <;>
            simp [h4, h5, h6] <;> rfl
        · simp [h4, hf, h9]
      · have h9 : f ≠ 9 := by omega
        rcases Bool.eq_false_or_eq_true (Q.threshDz <=. d) with h5 | h5 <;> rcases Bool.eq_false_or_eq_true (Q.threshKdp <=. k) with h6 | h6 <;> rcases Bool.eq_false_or_eq_true (Q.threshZdr <=. z) with h7 | h7 <;>
        first
        | (simp [h4, h5, h6, h7, hf, h9]; done)
        | (simp [h4, h5, h6, h7, hf, h9]; rfl)
        | (by_cases h2 : c = 2
           · subst h2; simp [h4, h5, h6, h7, hf, h9] <;> rfl
           by_cases h1 : c = 1
           · subst h1; simp [h4, h5, h6, h7, hf, h9] <;> rfl
           by_cases h3 : c = 3
           · subst h3; simp [h4, h5, h6, h7, hf, h9] <;> rfl
           simp [h1, h2, h3, h4, h5, h6, h7, hf, h9])
    · apply List.map_congr_left
      rintro ⟨d, z, k, c, f⟩ -
      simp only [tropGate, tropMethod, tropRate, PyFloat.ge]
      rcases Bool.eq_false_or_eq_true (d <. -10) with h4 | h4
      · simp [h4]
      by_cases hf : 2 < f ∧ f < 10
      · by_cases h9 : f = 9
        · subst h9
          rcases Bool.eq_false_or_eq_true (Q.threshDz <=. d) with h5 | h5 <;> rcases Bool.eq_false_or_eq_true (Q.threshKdp <=. k) with h6 | h6 <;>
            simp [h4, h5, h6] <;> rfl
        · simp [h4, hf, h9]
      · have h9 : f ≠ 9 := by omega
        rcases Bool.eq_false_or_eq_true (Q.threshDz <=. d) with h5 | h5 <;> rcases Bool.eq_false_or_eq_true (Q.threshKdp <=. k) with h6 | h6 <;> rcases Bool.eq_false_or_eq_true (Q.threshZdr <=. z) with h7 | h7 <;>
        first
        | (simp [h4, h5, h6, h7, hf, h9]; done)
        | (simp [h4, h5, h6, h7, hf, h9]; rfl)
        | (by_cases h2 : c = 2
           · subst h2; simp [h4, h5, h6, h7, hf, h9] <;> rfl
           by_cases h1 : c = 1
           · subst h1; simp [h4, h5, h6, h7, hf, h9] <;> rfl
           by_cases h3 : c = 3
           · subst h3; simp [h4, h5, h6, h7, hf, h9] <;> rfl
           simp [h1, h2, h3, h4, h5, h6, h7, hf, h9])
    · apply List.map_congr_left
      rintro ⟨d, z, k, c, f⟩ -
      simp only [tropGate, tropMethod, PyFloat.ge]
      rcases Bool.eq_false_or_eq_true (d <. -10) with h4 | h4
      · simp [h4]
      by_cases hf : 2 < f ∧ f < 10
      · by_cases h9 : f = 9
        · subst h9
          rcases Bool.eq_false_or_eq_true (Q.threshDz <=. d) with h5 | h5 <;> rcases Bool.eq_false_or_eq_true (Q.threshKdp <=. k) with h6 | h6 <;>
            simp [h4, h5, h6] <;> rfl
        · simp [h4, hf, h9]
      · have h9 : f ≠ 9 := by omega
        rcases Bool.eq_false_or_eq_true (Q.threshDz <=. d) with h5 | h5 <;> rcases Bool.eq_false_or_eq_true (Q.threshKdp <=. k) with h6 | h6 <;> rcases Bool.eq_false_or_eq_true (Q.threshZdr <=. z) with h7 | h7 <;>
        first
        | (simp [h4, h5, h6, h7, hf, h9]; done)
        | (simp [h4, h5, h6, h7, hf, h9]; rfl)
        | (by_cases h2 : c = 2
           · subst h2; simp [h4, h5, h6, h7, hf, h9] <;> rfl
           by_cases h1 : c = 1
           · subst h1; simp [h4, h5, h6, h7, hf, h9] <;> rfl
           by_cases h3 : c = 3
           · subst h3; simp [h4, h5, h6, h7, hf, h9] <;> rfl
           simp [h1, h2, h3, h4, h5, h6, h7, hf, h9])

end Csu.Rain

namespace Csu.Rain
open Csu PyFloat Csu.Common Csu.LiquidIce Csu.RainSpec
variable {α : Type} [PyFloat α]

theorem rainLine_of (P : Params α) (fa fb : α) (h : IsRainLine P fa fb) : rainLine P = .ok (fa, fb) := by
  rcases h with ⟨h1, h2⟩ | ⟨h1, h2, rfl, rfl⟩ | ⟨h1, h2, rfl, rfl⟩ | ⟨h1, h2, h3, rfl, rfl⟩
  · simp [rainLine, h1, h2]
  · simp [rainLine, h1, getLinearFits, h2]
  · simp [rainLine, h1, getLinearFits, h2]
  · simp [rainLine, h1, getLinearFits, h2, h3]

theorem SameShape.lengths {β γ δ : Type} {a : NdArray β} {b : NdArray γ} {c : NdArray δ} (h : SameShape a b c) :
    a.data.length = b.data.length ∧ a.data.length = c.data.length := by
  obtain ⟨h1, h2, h3, h4, h5⟩ := h
  rw [NdArray.WF] at h1 h2 h3
  rw [h1, h2, h3, ← h4, ← h5]
  exact ⟨rfl, rfl⟩


/-- reading a gate back from the three columns -/
theorem gate_of_cols {β γ δ : Type} {gs : List (β × γ × δ)} {a : List β} {b : List γ} {c : List δ}
    (h1 : gs.map (·.1) = a) (h2 : gs.map (·.2.1) = b) (h3 : gs.map (·.2.2) = c) {i : Nat} {x : β} {y : γ} {w : δ}
    (hx : a[i]? = some x) (hy : b[i]? = some y) (hw : c[i]? = some w) : gs[i]? = some (x, y, w) := by
  rw [← h1, List.getElem?_map] at hx
  rw [← h2, List.getElem?_map] at hy
  rw [← h3, List.getElem?_map] at hw
  cases hg : gs[i]? with
  | none => simp [hg] at hx
  | some g =>
    simp only [hg, Option.map_some, Option.some.injEq] at hx hy hw
    subst hx hy hw
    rfl

theorem gate_of_cols4 {β γ δ ε : Type} {gs : List (β × γ × δ × ε)} {a : List β} {b : List γ} {c : List δ}
    {e : List ε}
    (h1 : gs.map (·.1) = a) (h2 : gs.map (·.2.1) = b) (h3 : gs.map (·.2.2.1) = c) (h4 : gs.map (·.2.2.2) = e)
    {i : Nat} {x : β} {y : γ} {w : δ} {v : ε}
    (hx : a[i]? = some x) (hy : b[i]? = some y) (hw : c[i]? = some w) (hv : e[i]? = some v) :
    gs[i]? = some (x, y, w, v) := by
  rw [← h1, List.getElem?_map] at hx
  rw [← h2, List.getElem?_map] at hy
  rw [← h3, List.getElem?_map] at hw
  rw [← h4, List.getElem?_map] at hv
  cases hg : gs[i]? with
  | none => simp [hg] at hx
  | some g =>
    simp only [hg, Option.map_some, Option.some.injEq] at hx hy hw hv
    subst hx hy hw hv
    rfl

theorem calcBlendedRain_arr {P : Params α} {band : String} {ice : Bool} {d z k : NdArray α} {o : Out α}
    (hs : SameShape d z k) (hi : ice = false ∨ band ≠ "S")
    (h : blendedArr P band d.dtype d.data z.data k.data = .ok o) :
    calcBlendedRain P band ice (some (.arr d)) (some (.arr z)) (some (.arr k)) =
      .ok (some (.arr ⟨d.dtype, d.shape, o.rain⟩ ⟨.int, d.shape, o.meth⟩ none)) := by
  have hc : (!ice || decide (band ≠ "S")) = true := by
    rcases hi with rfl | hi
    · rfl
    · simp [hi]
  simp only [calcBlendedRain, hs.2.2.2.1.symm, hs.2.2.2.2.symm, and_self, if_true, h, bind, Except.bind, hc]
  rfl

theorem csuHidroRain_arr {P : Params α} {band : String} {d z k : NdArray α} {c : NdArray Int} {o : List α × List Int}
    (hs : SameShape d z k) (hcs : d.shape = c.shape)
    (h : hidroArr P band d.dtype d.data z.data k.data c.data = o) :
    csuHidroRain P band (some (.arr d)) (some (.arr z)) (some (.arr k)) (some (.arr c)) =
      .ok (some (.arr ⟨d.dtype, d.shape, o.1⟩ ⟨.int, d.shape, o.2⟩ none)) := by
  simp only [csuHidroRain, hs.2.2.2.1.symm, hs.2.2.2.2.symm, hcs.symm, and_self, if_true, h]

end Csu.Rain
