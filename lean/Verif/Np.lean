import Verif.PyFloat
/-!
# NumPy / SciPy primitives used by the modelled code

Each definition states the NumPy behaviour it stands for; these are part of the trusted base.
-/
namespace Csu
open PyFloat

variable {α β γ : Type}

/-- NumPy `a[mask] = v` (scalar right-hand side) for a boolean `mask` of the same shape as `a`. -/
def maskSet (mask : List Bool) (v : β) (a : List β) : List β :=
  List.zipWith (fun c x => if c then v else x) mask a

/-- NumPy `a[mask] = src[mask]` for arrays of equal shape. -/
def maskCopy (mask : List Bool) (src a : List β) : List β :=
  List.zipWith (fun c (p : β × β) => if c then p.1 else p.2) mask (List.zip src a)

/-- `np.logical_and`. -/
def logicalAnd (a b : List Bool) : List Bool := List.zipWith (· && ·) a b
/-- `np.logical_or`. -/
def logicalOr (a b : List Bool) : List Bool := List.zipWith (· || ·) a b
/-- `~mask` on a boolean array. -/
def invert (a : List Bool) : List Bool := a.map (!·)

section
variable [PyFloat α]
/-- `np.argmax` of a list (index of the first maximum; the first NaN wins), used at
csu_liquid_ice_mass.py:110 and, per gate, at csu_fhc.py:123,134,289 and csu_fhc_melt.py:40. `best` is the
current best value at index `bi`, `i` is the index of the head of the list. -/
def argmaxGo (best : α) (bi i : Nat) : List α → Nat
  | [] => bi
  | y :: ys => if isnan best then bi else if y <=. best then argmaxGo best bi (i + 1) ys
               else argmaxGo y i (i + 1) ys

/-- `np.argmax`, raising ValueError on an empty array. -/
def argmax : List α → Except PyErr Nat
  | [] => .error .valueError
  | x :: xs => .ok (argmaxGo x 0 1 xs)

end

section lemmas
variable {ι : Type}

@[simp] theorem maskSet_map (l : List ι) (m : ι → Bool) (v : β) (f : ι → β) :
    maskSet (l.map m) v (l.map f) = l.map (fun g => if m g then v else f g) := by
  simp [maskSet, List.zipWith_map, List.zipWith_self]

@[simp] theorem maskCopy_map (l : List ι) (m : ι → Bool) (s f : ι → β) :
    maskCopy (l.map m) (l.map s) (l.map f) = l.map (fun g => if m g then s g else f g) := by
  induction l with
  | nil => rfl
  | cons x xs ih => simp [maskCopy] at ih ⊢; exact ih

@[simp] theorem logicalAnd_map (l : List ι) (p q : ι → Bool) :
    logicalAnd (l.map p) (l.map q) = l.map (fun g => p g && q g) := by
  simp [logicalAnd, List.zipWith_map, List.zipWith_self]

@[simp] theorem logicalOr_map (l : List ι) (p q : ι → Bool) :
    logicalOr (l.map p) (l.map q) = l.map (fun g => p g || q g) := by
  simp [logicalOr, List.zipWith_map, List.zipWith_self]

@[simp] theorem invert_map (l : List ι) (p : ι → Bool) :
    invert (l.map p) = l.map (fun g => !p g) := by
  simp [invert]

@[simp] theorem zipWith_map_map (l : List ι) (f : α → β → γ) (p : ι → α) (q : ι → β) :
    List.zipWith f (l.map p) (l.map q) = l.map (fun g => f (p g) (q g)) := by
  simp [List.zipWith_map, List.zipWith_self]
end lemmas

end Csu
