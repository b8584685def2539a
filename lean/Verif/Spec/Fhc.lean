import Verif.Model.Tables
import Verif.XReal
import Mathlib.Analysis.SpecialFunctions.Pow.Real
/-!
# Specification of the fuzzy-logic classifiers on real numbers

Plain formulas: bell-shaped membership functions, weighted means, and the two ways of combining them.
Only the parameter tables (`Model/Tables.lean`, generated from the CSVs) are shared with the model.
-/
namespace Csu.FhcSpec
open Csu Tables
noncomputable section

/-- the text `p` occurs somewhere in the text `s` -/
def Occurs (p s : String) : Prop := ∃ before after : String, s = before ++ p ++ after

/-- A bell: centre, width, slope. -/
structure Bell where
  m : ℝ
  a : ℝ
  b : ℝ

/-- `1 / (1 + (((x - m)/a)²)^b)` -/
def Bell.mu (B : Bell) (x : ℝ) : ℝ := 1 / (1 + (((x - B.m) / B.a) ^ 2) ^ B.b)

/-- the bell of a CSV row (entries are thousandths) -/
def bellOf (r : RawRow) : Bell := ⟨(r.m.getD 0 : ℤ) / 1000, (r.a.getD 0 : ℤ) / 1000, (r.b.getD 0 : ℤ) / 1000⟩

/-- the bell of species `c` (counted from 0) in variable `k` -/
def bell (band : String) (s : Season) (k : Key) (c : Nat) : Bell :=
  bellOf ((((csv band s k).getD []).getD c ⟨none, none, none⟩))

/-- all three parameters divided by `f` (what `temp_factor` does to the temperature bells) -/
def Bell.scale (B : Bell) (f : ℝ) : Bell := ⟨B.m / f, B.a / f, B.b / f⟩

/-- the bell used for variable `k`: temperature bells are divided by `temp_factor` -/
def bellT (band : String) (s : Season) (f : ℝ) (k : Key) (c : Nat) : Bell :=
  if k = .T then (bell band s k c).scale f else bell band s k c

/-- weighted mean of the memberships `μ` over the variables `ks` -/
def wmean (ks : List Key) (w : Key → ℝ) (μ : Key → ℝ) : ℝ :=
  (ks.map (fun k => w k * μ k)).sum / (ks.map w).sum

/-- polarimetric variables -/
def pol : List Key := [.DR, .KD, .RH, .LD]
/-- all variables -/
def allKeys : List Key := [.DR, .KD, .RH, .LD, .T, .DZ]

/-- Score by the 'hybrid' method: weighted mean over the supplied polarimetric variables (1 if there are none), times
the temperature membership (if used), times the reflectivity membership.  `P` says which variables are supplied. -/
def hybridScore (P : Key → Bool) (useT : Bool) (w : Key → ℝ) (μ : Key → ℝ) : ℝ :=
  (if pol.filter P = [] then 1 else wmean (pol.filter P) w μ) * (if useT then μ .T else 1) * μ .DZ

/-- Score by the 'linear' method: weighted mean over all supplied variables (temperature only if used). -/
def linearScore (P : Key → Bool) (useT : Bool) (w : Key → ℝ) (μ : Key → ℝ) : ℝ :=
  wmean (allKeys.filter (fun k => P k && (k != .T || useT))) w μ

/-- the score by either method -/
def score (hybrid : Bool) (P : Key → Bool) (useT : Bool) (w : Key → ℝ) (μ : Key → ℝ) : ℝ :=
  if hybrid then hybridScore P useT w μ else linearScore P useT w μ

/-- Score by the 'linear' method with the trapezoid value `t` as it comes out of the code: the temperature term is `t`
itself, not `w .T * t`, and is there whenever temperature is supplied, even if it is not used; the divisor is the sum of
the weights of the variables that are used. -/
def linearTrapScore (P : Key → Bool) (useT : Bool) (w : Key → ℝ) (μ : Key → ℝ) (t : ℝ) : ℝ :=
  ((allKeys.filter P).map (fun k => if k = .T then t else w k * μ k)).sum /
    ((allKeys.filter (fun k => P k && (k != .T || useT))).map w).sum

/-- the sum of weights that the method divides by -/
def totalWeight (hybrid : Bool) (P : Key → Bool) (useT : Bool) (w : Key → ℝ) : ℝ :=
  (((if hybrid then pol else allKeys).filter (fun k => P k && (k != .T || useT))).map w).sum

/-- `k` (counted from 1) is the lowest-numbered species whose score is maximal. -/
def FirstBest (l : List ℝ) (k : Nat) : Prop :=
  1 ≤ k ∧ k ≤ l.length ∧ (∀ j, j < l.length → l.getD j 0 ≤ l.getD (k - 1) 0) ∧
    (∀ j, j < k - 1 → l.getD j 0 < l.getD (k - 1) 0)

/-- The same for scores that may be NaN or infinite: if a score is NaN, `k` is the first NaN; otherwise the
lowest-numbered species whose score is maximal. -/
def FirstBestX (l : List XR) (k : Nat) : Prop :=
  1 ≤ k ∧ k ≤ l.length ∧
    ((l.getD (k - 1) XR.nan = XR.nan ∧ ∀ j, j < k - 1 → l.getD j XR.nan ≠ XR.nan) ∨
     (XR.nan ∉ l ∧ (∀ j, j < l.length → XR.le (l.getD j XR.nan) (l.getD (k - 1) XR.nan) = true) ∧
       (∀ j, j < k - 1 → XR.lt (l.getD j XR.nan) (l.getD (k - 1) XR.nan) = true)))

end
end Csu.FhcSpec
