import Verif.Heap
/-!
# Specification: what a call may do to the caller's arrays
-/
namespace Csu.Heap
variable {α : Type}

/-- every array object of `h` exists in `h'` with the same contents -/
def Unchanged (h h' : Heap α) : Prop := ∀ (r : Ref) (c : Cell α), h[r]? = some c → h'[r]? = some c

/-- `r` is not an array object of `h` -/
def IsNew (h : Heap α) (r : Ref) : Prop := h[r]? = none

end Csu.Heap
