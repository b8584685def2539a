import Verif.Model.Common
import Verif.XReal
/-!
# Properties C49, C50: unit conversions

Finite arithmetic is exact here (`XR`).
-/
namespace Csu.Units
open Csu PyFloat Csu.Common XR

/-- `f` maps every real to a real and `g` undoes it. -/
def UndoneBy (f g : XR → XR) : Prop := ∀ x : ℝ, ∃ y : ℝ, f (fin x) = fin y ∧ g (fin y) = fin x

/-- `f` is a strictly increasing function on the reals. -/
def StrictlyIncreasing (f : XR → XR) : Prop :=
  ∀ x y : ℝ, x < y → ∃ a b : ℝ, f (fin x) = fin a ∧ f (fin y) = fin b ∧ a < b

theorem dbz2z_fin (d : ℝ) : linearize (fin d) = fin ((10 : ℝ) ^ (d / 10)) := by
  simp only [linearize, foflit]
  rw [fdiv (by norm_num), fpow (by norm_num)]

theorem z2dbz_fin {z : ℝ} (h : 0 < z) : z2dbz (fin z) = fin (10 * Real.logb 10 z) := by
  simp only [z2dbz, foflit, flog10 h, fmul]

theorem kmh_fin (x : ℝ) : si2kmh (fin x) = fin (x * 3600 / 1000) ∧ kmh2si (fin x) = fin (x * 1000 / 3600) := by
  simp only [si2kmh, kmh2si, foflit, fmul]
  rw [fdiv (by norm_num), fdiv (by norm_num)]; exact ⟨rfl, rfl⟩

theorem mph_fin (x : ℝ) : si2mph (fin x) = fin (x * 0.62137 / 1000 * 3600) ∧
    mph2si (fin x) = fin (x * 1000 / (0.62137 * 3600)) := by
  simp only [si2mph, mph2si, foflit, fsci, fmul]
  rw [fdiv (by norm_num), fdiv (by norm_num)]; exact ⟨rfl, rfl⟩

theorem kts_fin (x : ℝ) : si2kts (fin x) = fin (x * 0.51) ∧ kts2si (fin x) = fin (x / 0.51) := by
  exact ⟨by simp only [si2kts, fsci, fmul], by simp only [kts2si, fsci]; rw [fdiv (by norm_num)]⟩

/-- **C49.** Reflectivity: dB to linear and back is the identity on every real; linear to dB and back on every
positive `z`; the linear value is always positive. -/
theorem C49_dbz_z_inverse :
    UndoneBy linearize z2dbz ∧
    (∀ z : ℝ, 0 < z → ∃ d : ℝ, z2dbz (fin z) = fin d ∧ linearize (fin d) = fin z) ∧
    (∀ d : ℝ, ∃ z : ℝ, 0 < z ∧ linearize (fin d) = fin z) := by
  refine ⟨fun d => ⟨_, dbz2z_fin d, ?_⟩, fun z h => ⟨_, z2dbz_fin h, ?_⟩, fun d =>
    ⟨_, Real.rpow_pos_of_pos (by norm_num) _, dbz2z_fin d⟩⟩
  · rw [z2dbz_fin (Real.rpow_pos_of_pos (by norm_num) _), Real.logb_rpow (by norm_num) (by norm_num)]
    congr 1; ring
  · rw [dbz2z_fin]
    congr 1
    rw [show 10 * Real.logb 10 z / 10 = Real.logb 10 z by ring]
    exact Real.rpow_logb (by norm_num) (by norm_num) h

/-- **C49.** Speeds: each conversion from m/s is undone by its converse and conversely. -/
theorem C49_speed_inverse :
    UndoneBy si2kmh kmh2si ∧ UndoneBy kmh2si si2kmh ∧ UndoneBy si2mph mph2si ∧ UndoneBy mph2si si2mph ∧
    UndoneBy si2kts kts2si ∧ UndoneBy kts2si si2kts := by
  refine ⟨fun x => ⟨_, (kmh_fin x).1, ?_⟩, fun x => ⟨_, (kmh_fin x).2, ?_⟩, fun x => ⟨_, (mph_fin x).1, ?_⟩,
    fun x => ⟨_, (mph_fin x).2, ?_⟩, fun x => ⟨_, (kts_fin x).1, ?_⟩, fun x => ⟨_, (kts_fin x).2, ?_⟩⟩
  · rw [(kmh_fin _).2]; congr 1; ring
  · rw [(kmh_fin _).1]; congr 1; ring
  · rw [(mph_fin _).2]; congr 1; field_simp
  · rw [(mph_fin _).1]; congr 1; field_simp
  · rw [(kts_fin _).2]; congr 1; field_simp
  · rw [(kts_fin _).1]; congr 1; field_simp

/-- **C49.** All conversions are strictly increasing; `z2dbz` on positive arguments. -/
theorem C49_strictly_increasing :
    StrictlyIncreasing linearize ∧ StrictlyIncreasing si2kmh ∧ StrictlyIncreasing kmh2si ∧
    StrictlyIncreasing si2mph ∧ StrictlyIncreasing mph2si ∧ StrictlyIncreasing si2kts ∧ StrictlyIncreasing kts2si ∧
    ∀ x y : ℝ, 0 < x → x < y → ∃ a b : ℝ, z2dbz (fin x) = fin a ∧ z2dbz (fin y) = fin b ∧ a < b := by
  refine ⟨fun x y h => ⟨_, _, dbz2z_fin x, dbz2z_fin y, ?_⟩, fun x y h => ⟨_, _, (kmh_fin x).1, (kmh_fin y).1, ?_⟩,
    fun x y h => ⟨_, _, (kmh_fin x).2, (kmh_fin y).2, ?_⟩, fun x y h => ⟨_, _, (mph_fin x).1, (mph_fin y).1, ?_⟩,
    fun x y h => ⟨_, _, (mph_fin x).2, (mph_fin y).2, ?_⟩, fun x y h => ⟨_, _, (kts_fin x).1, (kts_fin y).1, ?_⟩,
    fun x y h => ⟨_, _, (kts_fin x).2, (kts_fin y).2, ?_⟩,
    fun x y h0 h => ⟨_, _, z2dbz_fin h0, z2dbz_fin (h0.trans h), ?_⟩⟩
  · exact Real.rpow_lt_rpow_of_exponent_lt (by norm_num) (by linarith)
  · linarith
  · linarith
  · norm_num; linarith
  · apply div_lt_div_of_pos_right _ (by norm_num); linarith
  · norm_num; linarith
  · apply div_lt_div_of_pos_right h (by norm_num)
  · have := Real.logb_lt_logb (b := 10) (by norm_num) h0 h
    linarith

/-- **C49**, anchoring the factors: 1 m/s is 3.6 km/h and 2.236932 mph (the statute mile of 1000/0.62137 m); 10 dBZ is
a factor 10. -/
theorem C49_factors : si2kmh (fin 1) = fin 3.6 ∧ si2mph (fin 1) = fin 2.236932 ∧ linearize (fin 10) = fin 10 := by
  refine ⟨?_, ?_, ?_⟩
  · rw [(kmh_fin 1).1]; norm_num
  · rw [(mph_fin 1).1]; norm_num
  · rw [dbz2z_fin]; norm_num

/-- Full statement of C50: with one knot worth `k` m/s (0.5144, or 0.51 as in the code), si2kts divides by it. -/
def KnotsRight (k : ℝ) : Prop := ∀ v : ℝ, si2kts (fin v) = fin (v / k)

/-- **C50 is false of the code**, for the true knot and for the rounded one. -/
theorem C50_knots_false : ¬ KnotsRight 0.5144 ∧ ¬ KnotsRight 0.51 := by
  constructor <;> intro h <;> have := h 1 <;> rw [(kts_fin 1).1] at this <;> norm_num at this

/-- **C50**, what the code does: si2kts and kts2si each apply the other's factor, so the round trip holds but si2kts is
smaller than the right value by 0.51² for every speed. -/
theorem C50_knots_partial (v : ℝ) :
    kts2si (fin v) = fin (v / 0.51) ∧ ∃ y : ℝ, si2kts (fin v) = fin y ∧ y = (v / 0.51) * 0.51 ^ 2 := by
  refine ⟨(kts_fin v).2, _, (kts_fin v).1, by field_simp⟩

example : (0 : ℝ) < 1000 ∧ (0 : ℝ) < 5 := by norm_num

end Csu.Units
