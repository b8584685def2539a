import Verif.Lemmas.CsvRender
import Verif.Props.Csv
import Verif.Props.Fhc2
import Mathlib.Data.Rat.Cast.Order
/-!
# C113–C116: parameter files of one's own
-/
namespace Csu.Csv
open Csu PyFloat Tables Fhc CsvSpec

/-! ## Specification -/

/-- The directory holds, for every variable that a call reads, a file with the numbers `tab`. -/
def HoldsAll (fs : Files) (d : String) (s : Season) (band : String) (useTemp : Bool) (tab : Key → List Numbers) : Prop :=
  ∀ k, Reads useTemp k → ∃ text, fs (d ++ fileName band s k) = some text ∧ Holds text (tab k)

/-- the bell of line `c` (counted from 0) of variable `k`; the numbers of the temperature file are divided by `f` -/
noncomputable def bellAt (tab : Key → List Numbers) (f : ℝ) (k : Key) (c : Nat) : FhcSpec.Bell :=
  let n := (tab k).getD c ⟨0, 0, 0⟩
  if k = .T then ⟨n.m / f, n.a / f, n.b / f⟩ else ⟨n.m, n.a, n.b⟩

/-! ## C113 -/

section
variable {α : Type} [PyFloat α]

/-- the rows of a table divided by a factor -/
def rowsOf (ns : List Numbers) (f : α) : List (Row α) :=
  ns.map (fun n => ⟨PyFloat.lit n.m / f, PyFloat.lit n.a / f, PyFloat.lit n.b / f⟩)

/-- the parameter sets of a table -/
def setsOfTab (tab : Key → List Numbers) (useTemp : Bool) (tf : α) : Sets α := fun k => match k with
  | .T => if useTemp then some (rowsOf (tab .T) tf) else none
  | k => some (rowsOf (tab k) 1.0)

/-- C113: files with columns `m`, `a`, `b` are read as the numbers written in them, line by line, whatever the species
names, the order of the columns, further columns, the notation of the numbers and the line ends. -/
theorem C113_sets {fs : Files} {d : String} {s : Season} {band : String} {useTemp : Bool} {tab : Key → List Numbers}
    (h : HoldsAll fs d s band useTemp tab) (tf : α) :
    getMbfSetsF fs d s useTemp tf band = .ok (setsOfTab tab useTemp tf) := by
  have rd : ∀ (k : Key) (f : α), Reads useTemp k →
      getBetaSetF fs (d ++ fileName band s k) f = .ok (rowsOf (tab k) f) := by
    intro k f hk
    obtain ⟨text, h1, h2⟩ := h k hk
    exact getBetaSetF_holds f h1 h2
  unfold getMbfSetsF
  dsimp only
  rw [rd .DZ _ (by simp [Reads]), rd .DR _ (by simp [Reads]), rd .KD _ (by simp [Reads]), rd .LD _ (by simp [Reads]),
    rd .RH _ (by simp [Reads])]
  cases useTemp with
  | false =>
    show Except.ok _ = Except.ok _
    congr 1; funext k; cases k <;> rfl
  | true =>
    rw [rd .T _ (by simp [Reads])]
    show Except.ok _ = Except.ok _
    congr 1; funext k; cases k <;> rfl

/-- C113: two directories with the same numbers classify alike. -/
theorem C113_summer {fs fs' : Files} {d d' : String} {tab : Key → List Numbers} (verbose : Bool) (A : SummerArgs α)
    (I : Inputs α) (h : HoldsAll fs d .summer A.band (tempUsed A.useTemp I) tab)
    (h' : HoldsAll fs' d' .summer A.band (tempUsed A.useTemp I) tab) :
    csuFhcSummerF fs d verbose A I = csuFhcSummerF fs' d' verbose A I := by
  unfold csuFhcSummerF
  cases I.dz with
  | none => rfl
  | some dz =>
    have := (C113_sets h A.tempFactor).trans (C113_sets h' A.tempFactor).symm
    unfold tempUsed at this; dsimp only; rw [this]

theorem C113_winter {fs fs' : Files} {d d' : String} {tab : Key → List Numbers} (verbose : Bool) (A : WinterArgs α)
    (I : Inputs α) (h : HoldsAll fs d .winter A.band (tempUsed A.useTemp I) tab)
    (h' : HoldsAll fs' d' .winter A.band (tempUsed A.useTemp I) tab) :
    csuFhcWinterF fs d verbose A I = csuFhcWinterF fs' d' verbose A I := by
  unfold csuFhcWinterF
  cases I.dz with
  | none => rfl
  | some dz =>
    have := (C113_sets h A.tempFactor).trans (C113_sets h' A.tempFactor).symm
    unfold tempUsed at this; dsimp only; rw [this]

theorem C113_ml {fs fs' : Files} {d d' : String} {tab : Key → List Numbers} (verbose : Bool) (A : MlArgs α)
    (I : Inputs α) (h : HoldsAll fs d .ml A.band (tempUsed A.useTemp I) tab)
    (h' : HoldsAll fs' d' .ml A.band (tempUsed A.useTemp I) tab) :
    csuFhcMlF fs d verbose A I = csuFhcMlF fs' d' verbose A I := by
  unfold csuFhcMlF
  cases I.dz with
  | none => rfl
  | some dz =>
    have := (C113_sets h A.tempFactor).trans (C113_sets h' A.tempFactor).symm
    unfold tempUsed at this; dsimp only; rw [this]

/-! ## C116: the number of species -/

theorem bind_ok {β γ : Type} {x : Except PyErr β} {f : β → Except PyErr γ} {r : γ} (h : (x >>= f) = .ok r) :
    ∃ a, x = .ok a ∧ f a = .ok r := by
  cases x with
  | error e => cases h
  | ok a => exact ⟨a, rfl, h⟩

/-- the result fits the arguments: scores for `n_types` species, or one category between 1 and `n_types` per gate -/
def Consistent (A : SummerArgs α) (dz : NdArray α) : Out α → Prop
  | .scores shape sc => A.returnScores = true ∧ shape = A.nTypes :: dz.shape ∧ sc.length = A.nTypes
  | .hid shape cats => A.returnScores = false ∧ shape = dz.shape ∧ cats.length = dz.data.length ∧
      ∀ v ∈ cats, 1 ≤ v ∧ v ≤ A.nTypes

/-- C116, in any arithmetic and whatever the files: if `csu_fhc_summer` returns something for a nonempty reflectivity array,
`n_types` is the number of lines of the reflectivity file, and categories lie between 1 and `n_types`. -/
theorem C116_count {fs : Files} {d : String} (verbose : Bool) (A : SummerArgs α) (I : Inputs α) (dz : NdArray α)
    (hdz : I.dz = some dz) (hne : dz.data ≠ []) (out : Out α) (h : csuFhcSummerF fs d verbose A I = .ok (some out)) :
    ∃ rows, getBetaSetF fs (d ++ fileName A.band .summer .DZ) (1.0 : α) = .ok rows ∧ rows.length = A.nTypes ∧
      Consistent A dz out := by
  unfold csuFhcSummerF at h
  rw [hdz] at h
  dsimp only at h
  obtain ⟨sets, hs, h⟩ := bind_ok h
  have hz : ∃ rows, getBetaSetF fs (d ++ fileName A.band .summer .DZ) (1.0 : α) = .ok rows ∧ sets .DZ = some rows := by
    unfold getMbfSetsF at hs
    obtain ⟨r, h1, hs⟩ := bind_ok hs
    obtain ⟨_, _, hs⟩ := bind_ok hs
    obtain ⟨_, _, hs⟩ := bind_ok hs
    obtain ⟨_, _, hs⟩ := bind_ok hs
    obtain ⟨_, _, hs⟩ := bind_ok hs
    obtain ⟨_, _, hs⟩ := bind_ok hs
    cases hs
    exact ⟨r, h1, rfl⟩
  obtain ⟨rows, h1, h2⟩ := hz
  refine ⟨rows, h1, ?_⟩
  split at h
  · cases h
  rename_i hybrid _
  obtain ⟨sc, h3, h⟩ := bind_ok h
  have hlen : sc.length = rows.length := by
    have := mapM_length h3
    rw [this, List.length_range, h2]; rfl
  have hb : ∃ h', (if sc.length * dz.data.length ≠ A.nTypes * dz.data.length then Except.error PyErr.valueError
      else if A.returnScores then .ok (some (.scores (A.nTypes :: dz.shape) sc))
      else if A.nTypes = 0 then .error .valueError
      else .ok (some (.hid dz.shape (classify dz.data.length sc))) : Except PyErr (Option (Out α))) = h' ∧
      h' = .ok (some out) := by
    refine ⟨_, rfl, ?_⟩
    cases verbose with
    | false => exact h
    | true =>
      obtain ⟨_, _, h⟩ := bind_ok h
      exact h
  obtain ⟨_, rfl, h⟩ := hb
  have hpos : 0 < dz.data.length := List.length_pos_iff.mpr hne
  split_ifs at h with h4 h5 h6
  · cases h
    have hn := Nat.eq_of_mul_eq_mul_right hpos (not_not.mp h4)
    exact ⟨hlen ▸ hn, h5, rfl, hn⟩
  · cases h
    have hn := Nat.eq_of_mul_eq_mul_right hpos (not_not.mp h4)
    refine ⟨hlen ▸ hn, by simpa using h5, rfl, by simp [classify], ?_⟩
    intro v hv
    obtain ⟨i, _, rfl⟩ := List.mem_map.mp hv
    have := argmaxPlus1_range (column sc i) (by
      intro hc; have := congrArg List.length hc; simp [column, hn, h6] at this)
    simpa [column, hn] using this

end
end Csu.Csv
