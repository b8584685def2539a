import Verif.Props.Csv3
import Verif.Props.Plot
/-!
# C114, and examples for C113, C115 and C116
-/
namespace Csu.Csv
open Csu PyFloat Tables Fhc CsvSpec
variable {α : Type} [PyFloat α]

/-! ## C114: the separator at the end of `fdir` -/

/-- C114, full statement: a directory can be given with or without the separator at its end. -/
def C114Full : Prop := ∀ (fs : Files) (dir : String), Installed fs (dir ++ "/") → ∀ (A : SummerArgs XR) (I : Inputs XR),
  csuFhcSummerF fs dir false A I = csuFhcSummerF fs (dir ++ "/") false A I

/-- C114: whatever the file system, without the separator the classifier looks for files whose names begin with the name of
the directory, beside the directory; if there are none it raises FileNotFoundError. -/
theorem C114_no_separator_partial {fs : Files} {dir : String} (verbose : Bool) (A : SummerArgs α) (I : Inputs α)
    (dz : NdArray α) (hdz : I.dz = some dz) (h : fs (dir ++ fileName A.band .summer .DZ) = none) :
    csuFhcSummerF fs dir verbose A I = .error .fileNotFoundError := by
  have hs : ∀ u, getMbfSetsF fs dir .summer u A.tempFactor A.band = .error .fileNotFoundError := by
    intro u; unfold getMbfSetsF; dsimp only; rw [missing h]; rfl
  unfold csuFhcSummerF
  rw [hdz]
  dsimp only
  rw [hs]; rfl

theorem C114_no_separator_winter_partial {fs : Files} {dir : String} (verbose : Bool) (A : WinterArgs α) (I : Inputs α)
    (dz : NdArray α) (hdz : I.dz = some dz) (h : fs (dir ++ fileName A.band .winter .DZ) = none) :
    csuFhcWinterF fs dir verbose A I = .error .fileNotFoundError := by
  have hs : ∀ u, getMbfSetsF fs dir .winter u A.tempFactor A.band = .error .fileNotFoundError := by
    intro u; unfold getMbfSetsF; dsimp only; rw [missing h]; rfl
  unfold csuFhcWinterF
  rw [hdz]
  dsimp only
  rw [hs]; rfl

theorem C114_no_separator_ml_partial {fs : Files} {dir : String} (verbose : Bool) (A : MlArgs α) (I : Inputs α)
    (dz : NdArray α) (hdz : I.dz = some dz) (h : fs (dir ++ fileName A.band .ml .DZ) = none) :
    csuFhcMlF fs dir verbose A I = .error .fileNotFoundError := by
  have hs : ∀ u, getMbfSetsF fs dir .ml u A.tempFactor A.band = .error .fileNotFoundError := by
    intro u; unfold getMbfSetsF; dsimp only; rw [missing h]; rfl
  unfold csuFhcMlF
  rw [hdz]
  dsimp only
  rw [hs]; rfl

/-- C114: the full statement is false: with the package in `/pkg/`, a call with `/pkg/` works and one with `/pkg` does not. -/
theorem C114_full_false : ¬ C114Full := by
  intro h
  have hA : GoodCall ({} : SummerArgs XR) (fun _ => true) true :=
    ⟨by simp [bands], by show methodOf "hybrid" = _; decide, rfl, by simp, by simp⟩
  obtain ⟨s, c, h1, _⟩ := C21_first_best_finite _ (inputsOf (fun _ => true) _) (fun _ => true)
    [fun _ => 30, fun _ => -2] true defaultW 1 hA rfl rfl one_pos (by show (1 : XR) = _; simp) defaultW_eq
    (goodWeights_default _ _ _ rfl) (by simp) (isGates_inputsOf _ _)
  have h := h (installedAt "/pkg/") "/pkg" (installed_at "/pkg/") {} (inputsOf (fun _ => true)
    ([fun _ => 30, fun _ => -2].map (fun x k => XR.fin (x k))))
  rw [C111_summer (dir := "/pkg" ++ "/") (installed_at "/pkg/"), summerV_plain, h1,
    C114_no_separator_partial _ _ _ _ rfl] at h
  · cases h
  · show (relative "/pkg/" ("/pkg" ++ "S-band_Reflectivity.csv")).bind _ = none
    have : relative "/pkg/" ("/pkg" ++ "S-band_Reflectivity.csv") = none := by decide
    rw [this]; rfl

/-! ## Examples -/

/-- a table with the columns in another order, a comment column, and numbers in various notations -/
def exSheet : Sheet where
  header := ["species", "b", "note", "m", "a"]
  rows := [["big rain", "1e1", "my own", "+41.50", " 15.5"], ["hail", "10", "", ".55E+2", "-5"]]

example : exSheet.text ['\n'] = "species,b,note,m,a\nbig rain,1e1,my own,+41.50, 15.5\nhail,10,,.55E+2,-5\n" := by decide

theorem exSheet_valid : exSheet.Valid where
  wide := by decide
  rect := by decide
  plainHeader := by unfold Plain; decide
  plain := by unfold Plain; decide

def exNumbers : List Numbers := [⟨41.5, 15.5, 10⟩, ⟨55, -5, 10⟩]

theorem exHolds : Holds (exSheet.text ['\n']) exNumbers := by
  refine ⟨exSheet, ['\n'], 3, 4, 1, exSheet_valid, Or.inl rfl, rfl, ⟨by decide, by decide, by decide⟩,
    ⟨by decide, by decide, by decide⟩, ⟨by decide, by decide, by decide⟩, ?_⟩
  refine List.Forall₂.cons ⟨?_, ?_, ?_⟩ (List.Forall₂.cons ⟨?_, ?_, ?_⟩ List.Forall₂.nil)
  · exact ⟨⟨0, .plus, [4, 1], some [5, 0], none, 0⟩, ⟨by simp, by simp⟩, by decide, by
      norm_num [Decimal.value, Sign.val, natOf, Nat.ofDigits, expVal]⟩
  · exact ⟨⟨1, .none, [1, 5], some [5], none, 0⟩, ⟨by simp, by simp⟩, by decide, by
      norm_num [Decimal.value, Sign.val, natOf, Nat.ofDigits, expVal]⟩
  · exact ⟨⟨0, .none, [1], none, some ⟨false, .none, [1]⟩, 0⟩, ⟨by simp, by simp⟩, by decide, by
      norm_num [Decimal.value, Sign.val, natOf, Nat.ofDigits, expVal, Exponent.val]⟩
  · exact ⟨⟨0, .none, [], some [5, 5], some ⟨true, .plus, [2]⟩, 0⟩, ⟨by simp, by simp⟩, by decide, by
      norm_num [Decimal.value, Sign.val, natOf, Nat.ofDigits, expVal, Exponent.val]⟩
  · exact ⟨⟨0, .minus, [5], none, none, 0⟩, ⟨by simp, by simp⟩, by decide, by
      norm_num [Decimal.value, Sign.val, natOf, Nat.ofDigits, expVal]⟩
  · exact ⟨⟨0, .none, [1, 0], none, none, 0⟩, ⟨by simp, by simp⟩, by decide, by
      norm_num [Decimal.value, Sign.val, natOf, Nat.ofDigits, expVal]⟩

/-- every file of the directory `/my/` is this table -/
def exFiles : Files := fun p => (relative "/my/" p).map (fun _ => exSheet.text ['\n'])

theorem exHoldsAll (s : Season) (band : String) (u : Bool) : HoldsAll exFiles "/my/" s band u (fun _ => exNumbers) := by
  intro k _
  exact ⟨_, by unfold exFiles; rw [relative_append]; rfl, exHolds⟩

theorem exUsable (P : Key → Bool) (u : Bool) : Usable (fun _ => exNumbers) P u (List.range 2) := by
  intro k _ _ c hc
  have : c = 0 ∨ c = 1 := by have := List.mem_range.mp hc; omega
  rcases this with rfl | rfl
  · exact ⟨_, rfl, by norm_num, by norm_num⟩
  · exact ⟨_, rfl, by norm_num, by norm_num⟩

/-- two species of one's own, all variables, hybrid method, a band that does not exist in the package -/
example : ∃ cats, csuFhcSummerF exFiles "/my/" false ({ band := "Ka", nTypes := 2 } : SummerArgs XR)
    (inputsOf (fun _ => true) ([fun _ => 30, fun _ => -2].map (fun x k => XR.fin (x k)))) = .ok (some (.hid [2] cats)) ∧
    cats.length = 2 := by
  have hg := goodWeights_default true (fun _ => true) true rfl
  obtain ⟨dz, h1, _, h3⟩ := C115_summer ({ band := "Ka", nTypes := 2 } : SummerArgs XR) (inputsOf (fun _ => true) _)
    (fun _ => true) [fun _ => 30, fun _ => -2] true defaultW 1 (fun _ => exNumbers)
    ⟨by show methodOf "hybrid" = _; decide, rfl, by simp, by simp⟩ rfl one_pos (by show (1 : XR) = _; simp) defaultW_eq
    ⟨fun _ hp => (hg.total_hyb hp).ne', by simp⟩ rfl (by simp) (exUsable _ _) (exHoldsAll _ _ _) (isGates_inputsOf _ _)
  obtain ⟨cats, h4, h5, _⟩ := h3 rfl
  cases h1
  exact ⟨cats, h4, h5⟩

/-- with `n_types` left at 10 the same call cannot return anything -/
example : ∀ out, csuFhcSummerF exFiles "/my/" false ({ band := "Ka" } : SummerArgs XR)
    (inputsOf (fun _ => true) ([fun _ => 30, fun _ => -2].map (fun x k => XR.fin (x k)))) ≠ .ok (some out) := by
  intro out h
  obtain ⟨rows, h1, h2, _⟩ := C116_count false _ _ _ rfl (by simp) out h
  have := getBetaSetF_holds (fs := exFiles) (p := "/my/" ++ fileName "Ka" .summer .DZ) (1.0 : XR)
    (by unfold exFiles; rw [relative_append]; rfl) exHolds
  rw [this] at h1
  cases h1
  simp [exNumbers] at h2

end Csu.Csv
