import Mathlib.Data.Real.Basic
/-!
# Specification of the temperature trapezoids

The value each trapezoid takes at a finite temperature `t` (degrees C), written from the shape of the curve:
plateaus and straight edges.  Where two pieces meet, the edge wins.
-/
namespace Csu.TrapSpec
noncomputable section

/-- `curve c t` for hydrometeor type `c` (0 drizzle, 1 rain, 2 ice crystals, 3 aggregates, 4 wet snow, 5 vertical ice,
6 low-density graupel, 7 high-density graupel, 8 hail, 9 big drops). -/
def curve (c : Nat) (t : ℝ) : ℝ :=
  match c with
  | 0 => if t < -3 then -1 else if t ≤ -1 then (t + 3) / 4 else 1
  | 1 => if t < -10 then -1 else if t ≤ -2 then (t + 10) / 12 else 1
  | 2 => if t < 0 then 1 else if t ≤ 5 then 1 - t / 5 else -1
  | 3 => if t < -35 then 1 / 2 else if t ≤ -25 then 1 / 2 + (t + 35) / 20 else if t < 0 then 1
         else if t ≤ 5 then 1 - t / 5 else -1
  | 4 => if t < -3 then -1 else if t ≤ 3 then 1 else -1
  | 5 => if t < 0 then 1 else if t ≤ 5 then 1 - t / 5 else -1
  | 6 => if t < -40 then 1 / 2 else if t ≤ -30 then 1 / 2 + (t + 40) / 20 else if t < 0 then 1
         else if t ≤ 5 then 1 - t / 5 else -1
  | 7 => if t < -30 then 3 / 10 else if t ≤ -20 then 3 / 10 + 7 / 100 * (t + 30) else if t < 5 then 1
         else if t ≤ 30 then 1 - 2 / 25 * (t - 5) else -1
  | 8 => if t < -30 then 1 / 5 else if t ≤ -20 then 1 / 5 + 6 / 100 * (t + 30) else if t < 5 then 4 / 5
         else if t ≤ 15 then 4 / 5 - 6 / 100 * (t - 5) else 1 / 5
  | 9 => if t < -2 then -1 else if t ≤ 1 then 2 / 9 * (t + 2) else 1
  | _ => 0

end
end Csu.TrapSpec
