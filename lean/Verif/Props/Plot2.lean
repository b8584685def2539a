import Verif.Props.MeltPpi
/-!
# C100: when `plot_beta_functions` can draw every species
-/
namespace Csu.Fhc
open Csu PyFloat Tables
variable {α : Type} [PyFloat α]

theorem getBetaExample_cases (var : List α) (rows : List (Row α)) (i : Nat) :
    (i < rows.length ∧ ∃ ys, getBetaExample var (some rows) i = .ok ys) ∨
      (rows.length ≤ i ∧ getBetaExample var (some rows) i = .error .indexError) := by
  by_cases h : i < rows.length
  · exact Or.inl ⟨h, getBetaExample_isOk h⟩
  · refine Or.inr ⟨by omega, ?_⟩
    unfold getBetaExample
    dsimp only
    rw [List.getElem?_eq_none (by omega)]

theorem plotSpecies_cases (rows : Key → List (Row α)) (band pdir : String) (i : Nat) :
    ((i < 10 ∧ ∀ k, i < (rows k).length) ∧ ∃ f, plotSpecies (fun k => some (rows k)) band pdir i = .ok f) ∨
      (¬ (i < 10 ∧ ∀ k, i < (rows k).length) ∧ plotSpecies (fun k => some (rows k)) band pdir i = .error .indexError) := by
  unfold plotSpecies
  have no : ∀ k, (rows k).length ≤ i → ¬ (i < 10 ∧ ∀ k, i < (rows k).length) := by
    intro k h hh
    have := hh.2 k
    omega
  rcases getBetaExample_cases (plotAxis .DZ) (rows .DZ) i with ⟨l1, y1, e1⟩ | ⟨l, e⟩
  swap; · exact Or.inr ⟨no _ l, by simp only [e, bind, Except.bind]⟩
  rcases getBetaExample_cases (plotAxis .KD) (rows .KD) i with ⟨l2, y2, e2⟩ | ⟨l, e⟩
  swap; · exact Or.inr ⟨no _ l, by simp only [e1, e, bind, Except.bind]⟩
  rcases getBetaExample_cases (plotAxis .DR) (rows .DR) i with ⟨l3, y3, e3⟩ | ⟨l, e⟩
  swap; · exact Or.inr ⟨no _ l, by simp only [e1, e2, e, bind, Except.bind]⟩
  rcases getBetaExample_cases (plotAxis .LD) (rows .LD) i with ⟨l4, y4, e4⟩ | ⟨l, e⟩
  swap; · exact Or.inr ⟨no _ l, by simp only [e1, e2, e3, e, bind, Except.bind]⟩
  rcases getBetaExample_cases (plotAxis .RH) (rows .RH) i with ⟨l5, y5, e5⟩ | ⟨l, e⟩
  swap; · exact Or.inr ⟨no _ l, by simp only [e1, e2, e3, e4, e, bind, Except.bind]⟩
  rcases getBetaExample_cases (plotAxis .T) (rows .T) i with ⟨l6, y6, e6⟩ | ⟨l, e⟩
  swap; · exact Or.inr ⟨no _ l, by simp only [e1, e2, e3, e4, e5, e, bind, Except.bind]⟩
  simp only [e1, e2, e3, e4, e5, e6, bind, Except.bind]
  by_cases h : i < 10
  · left
    refine ⟨⟨h, fun k => by cases k <;> assumption⟩, ?_⟩
    have : i < plotLabels.length := h
    rw [List.getElem?_eq_getElem this]
    exact ⟨_, rfl⟩
  · right
    refine ⟨fun hh => h hh.1, ?_⟩
    have : plotLabels.length ≤ i := by show 10 ≤ i; omega
    rw [List.getElem?_eq_none this]

/-- C100: with six tables (of any sizes, for instance a user's own), `plot_beta_functions` draws `n_types` figures exactly when no table has fewer rows and
there are at most the ten species it has names for; otherwise it raises IndexError. -/
theorem C100_number_of_species (rows : Key → List (Row α)) (band pdir : String) (nTypes : Nat) :
    ((nTypes ≤ 10 ∧ ∀ k, nTypes ≤ (rows k).length) →
      ∃ figs, plotBetaFunctions (fun k => some (rows k)) band pdir nTypes = .ok figs ∧ figs.length = nTypes) ∧
    (¬ (nTypes ≤ 10 ∧ ∀ k, nTypes ≤ (rows k).length) →
      plotBetaFunctions (fun k => some (rows k)) band pdir nTypes = .error .indexError) := by
  unfold plotBetaFunctions
  constructor
  · rintro ⟨h1, h2⟩
    obtain ⟨r, hr⟩ := mapM_isOk (f := plotSpecies (fun k => some (rows k)) band pdir) (l := List.range nTypes) (by
      intro i hi
      have hi := List.mem_range.mp hi
      rcases plotSpecies_cases rows band pdir i with ⟨_, h⟩ | ⟨h, _⟩
      · exact h
      · exact absurd ⟨by omega, fun k => by have := h2 k; omega⟩ h)
    exact ⟨r, hr, by rw [mapM_length hr, List.length_range]⟩
  · intro h
    apply mapM_bad
    · intro i _
      rcases plotSpecies_cases rows band pdir i with ⟨_, h⟩ | ⟨_, h⟩
      · exact Or.inl h
      · exact Or.inr h
    · have : ∃ i, i < nTypes ∧ ¬ (i < 10 ∧ ∀ k, i < (rows k).length) := by
        by_cases h1 : nTypes ≤ 10
        · have : ∃ k, (rows k).length < nTypes := by
            by_contra hc
            push Not at hc
            exact h ⟨h1, hc⟩
          obtain ⟨k, hk⟩ := this
          exact ⟨_, hk, fun hh => absurd (hh.2 k) (by omega)⟩
        · exact ⟨10, by omega, fun hh => absurd hh.1 (by omega)⟩
      obtain ⟨i, hi, hn⟩ := this
      refine ⟨i, List.mem_range.mpr hi, ?_⟩
      rcases plotSpecies_cases rows band pdir i with ⟨h, _⟩ | ⟨_, h⟩
      · exact absurd h hn
      · exact h

/-- twelve species: the tables suffice, the names do not -/
example : plotBetaFunctions (fun _ => some (List.replicate 12 (⟨0, 1, 1⟩ : Row QF))) "S" "./" 12 = .error .indexError :=
  (C100_number_of_species (fun _ => List.replicate 12 (⟨0, 1, 1⟩ : Row QF)) "S" "./" 12).2 (by omega)

example : ∃ figs, plotBetaFunctions (fun _ => some (List.replicate 12 (⟨0, 1, 1⟩ : Row QF))) "S" "./" 10 = .ok figs ∧ figs.length = 10 :=
  (C100_number_of_species (fun _ => List.replicate 12 (⟨0, 1, 1⟩ : Row QF)) "S" "./" 10).1 ⟨by omega, fun _ => by simp⟩

end Csu.Fhc
