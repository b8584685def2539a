import Verif.XReal
/-!
# Specification of the KDP numerics

Written from the English properties, without reference to the model.
-/
namespace Csu.KdpSpec

/-- population standard deviation -/
noncomputable def popStd (l : List ℝ) : ℝ :=
  √((l.map (fun x => (x - l.sum / l.length) ^ 2)).sum / l.length)

/-- sum of squared residuals of the line `y = a x + b` -/
def sse (pts : List (ℝ × ℝ)) (a b : ℝ) : ℝ := (pts.map (fun p => (p.2 - (a * p.1 + b)) ^ 2)).sum

/-- the line `y = a x + b` fits the points better than any other line -/
def IsLeastSquares (pts : List (ℝ × ℝ)) (a b : ℝ) : Prop :=
  ∀ a' b', sse pts a b ≤ sse pts a' b' ∧ (sse pts a' b' = sse pts a b → a' = a ∧ b' = b)

/-- at least two distinct abscissae -/
def TwoAbscissae (pts : List (ℝ × ℝ)) : Prop := ∃ p ∈ pts, ∃ q ∈ pts, p.1 ≠ q.1

end Csu.KdpSpec

namespace Csu.KdpSpec

/-- the gates `lo, lo + 1, ..., lo + len - 1` -/
def window (lo : Int) (len : Nat) : List Int := (List.range len).map (fun (k : Nat) => lo + Int.ofNat k)

end Csu.KdpSpec
