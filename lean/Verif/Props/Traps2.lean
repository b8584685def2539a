import Verif.Props.Traps
/-! # C142: integer temperatures and the trapezoids -/
namespace Csu.Traps
open Csu PyFloat Common XR TrapSpec

/-- **C142, full statement**: whole-degree temperatures give the same values whether the array is an integer or a float array. -/
def C142Full : Prop := ∀ (c : Int) (ts : List Int),
  getHidTraps c .int (ts.map (fun t : Int => fin (t : ℝ))) = getHidTraps c .float (ts.map (fun t : Int => fin (t : ℝ)))

/-- one trapezoid, element by element -/
macro "trap_trunc" d:ident : tactic => `(tactic| (
  simp only [$d:ident, between, List.map_map, maskSet_map, maskCopy_map, logicalAnd_map]
  apply List.map_congr_left
  intro x _
  simp only [Function.comp_def, store]
  split_ifs <;> rfl))

section
variable {α : Type} [PyFloat α] (l : List α) (a b c d : α)
theorem truncDz : tTrapDz .int l a b = (tTrapDz .float l a b).map PyFloat.trunc := by trap_trunc tTrapDz
theorem truncRain : tTrapRain .int l a b = (tTrapRain .float l a b).map PyFloat.trunc := by trap_trunc tTrapRain
theorem truncIc : tTrapIc .int l a b = (tTrapIc .float l a b).map PyFloat.trunc := by trap_trunc tTrapIc
theorem truncAgg : tTrapAgg .int l a b c d = (tTrapAgg .float l a b c d).map PyFloat.trunc := by trap_trunc tTrapAgg
theorem truncWs : tTrapWs .int l a b = (tTrapWs .float l a b).map PyFloat.trunc := by trap_trunc tTrapWs
theorem truncLdg : tTrapLdg .int l a b c d = (tTrapLdg .float l a b c d).map PyFloat.trunc := by trap_trunc tTrapLdg
theorem truncHdg : tTrapHdg .int l a b c d = (tTrapHdg .float l a b c d).map PyFloat.trunc := by trap_trunc tTrapHdg
theorem truncHa : tTrapHa .int l a b c d = (tTrapHa .float l a b c d).map PyFloat.trunc := by trap_trunc tTrapHa
theorem truncBd : tTrapBd .int l a b = (tTrapBd .float l a b).map PyFloat.trunc := by trap_trunc tTrapBd
end

/-- The values for an integer array are those for a float array with the fraction cut off (any arithmetic). -/
theorem C142_truncates_partial {α : Type} [PyFloat α] (c : Int) (xs : List α) :
    getHidTraps c .int xs = (getHidTraps c .float xs).map (fun ys => ys.map PyFloat.trunc) := by
  simp only [getHidTraps, truncDz, truncRain, truncIc, truncAgg, truncWs, truncLdg, truncHdg, truncHa, truncBd, apply_ite (Option.map _),
    Option.map_some, Option.map_none]

theorem trunc_unit {r : ℝ} (h0 : 0 ≤ r) (h1 : r < 1) : PyFloat.trunc (fin r) = fin 0 := by
  rw [ftrunc]
  have : truncR r = 0 := by
    unfold truncR
    rw [if_pos h0, Int.floor_eq_zero_iff]
    exact ⟨h0, h1⟩
  rw [this]; simp

/-- With integer temperatures hail gets the value 0 at every temperature (0.2 to 0.8 with float temperatures, `C29_hail_bounded`). -/
theorem C142_hail_zero_partial (ts : List Int) :
    getHidTraps 8 .int (ts.map (fun t : Int => fin (t : ℝ))) = some (ts.map (fun _ => fin 0)) := by
  rw [C142_truncates_partial]
  have := finite_values 8 (by norm_num) (ts.map (fun t : Int => (t : ℝ)))
  rw [List.map_map] at this
  rw [show (fun t : Int => fin (t : ℝ)) = fin ∘ fun t : Int => (t : ℝ) from rfl, show (8 : Int) = ((8 : Nat) : Int) from rfl, this]
  simp only [Option.map_some, List.map_map, Option.some.injEq]
  apply List.map_congr_left
  intro t _
  have h : 0 ≤ curve 8 (t : ℝ) ∧ curve 8 (t : ℝ) < 1 := by
    simp only [curve]; split_ifs <;> constructor <;> norm_num <;> linarith
  exact trunc_unit h.1 h.2

/-- Where the float result is a whole number (on the plateaus at -1, 0 and 1) integer temperatures give the same value. -/
theorem C142_plateaus_partial (c : Nat) (hc : c < 10) (ts : List Int) (h : ∀ t ∈ ts, ∃ n : Int, curve c (t : ℝ) = n) :
    getHidTraps c .int (ts.map (fun t : Int => fin (t : ℝ))) = getHidTraps c .float (ts.map (fun t : Int => fin (t : ℝ))) := by
  rw [C142_truncates_partial]
  have := finite_values c hc (ts.map (fun t : Int => (t : ℝ)))
  rw [List.map_map] at this
  rw [show (fun t : Int => fin (t : ℝ)) = fin ∘ fun t : Int => (t : ℝ) from rfl, this]
  simp only [Option.map_some, List.map_map, Option.some.injEq]
  apply List.map_congr_left
  intro t ht
  obtain ⟨n, hn⟩ := h t ht
  simp only [Function.comp_apply, hn, ftrunc]
  have : truncR (n : ℝ) = n := by unfold truncR; split_ifs <;> simp
  rw [this]

/-- **C142 is false**: hail at -20 degrees. -/
theorem C142_full_false : ¬ C142Full := by
  intro h
  have h1 := h 8 [-20]
  rw [C142_hail_zero_partial] at h1
  have := finite_values 8 (by norm_num) [-20]
  simp only [List.map_cons, List.map_nil] at this h1
  push_cast at h1
  rw [show (8 : Int) = ((8 : Nat) : Int) from rfl, this] at h1
  simp only [curve] at h1
  norm_num at h1

/-- rain at -20, -5 and 4 degrees: -1, 0.625 cut to 0, and 1 -/
example : getHidTraps 1 .int [fin (-20), fin (-5), fin 4] = some [fin (-1), fin 0, fin 1] ∧ curve 1 (-20) = (-1 : Int) := by
  constructor
  · have := finite_values 1 (by norm_num) [-20, -5, 4]
    rw [C142_truncates_partial]
    simp only [List.map_cons, List.map_nil] at this
    rw [show (1 : Int) = ((1 : Nat) : Int) from rfl, this]
    simp only [curve, Option.map_some, List.map_cons, List.map_nil, ftrunc, truncR]
    norm_num
  · simp only [curve]; norm_num

end Csu.Traps
