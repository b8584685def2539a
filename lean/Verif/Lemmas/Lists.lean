import Verif.Np
/-! Helper lemmas about lists of gates. -/
namespace Csu

theorem map_zip_snd {α β γ : Type} (a : List α) (g : List β) (f : β → γ) (h : g.length ≤ a.length) :
    (a.zip g).map (fun x => f x.2) = g.map f := by
  have := List.map_snd_zip (l₁ := a) (l₂ := g) h
  calc _ = ((a.zip g).map Prod.snd).map f := by rw [List.map_map]; rfl
    _ = _ := by rw [this]

theorem exists_gates2 {α β : Type} (a : List α) (b : List β) (h : a.length = b.length) :
    ∃ gs : List (α × β), gs.map (·.1) = a ∧ gs.map (·.2) = b :=
  ⟨a.zip b, List.map_fst_zip (by omega), List.map_snd_zip (by omega)⟩

theorem exists_gates3 {α β γ : Type} (a : List α) (b : List β) (c : List γ) (h : a.length = b.length)
    (h' : a.length = c.length) :
    ∃ gs : List (α × β × γ), gs.map (·.1) = a ∧ gs.map (·.2.1) = b ∧ gs.map (·.2.2) = c := by
  obtain ⟨g, h1, h2⟩ := exists_gates2 b c (by omega)
  have hg : g.length = b.length := by rw [← h1]; simp
  refine ⟨a.zip g, List.map_fst_zip (by omega), ?_, ?_⟩
  · rw [map_zip_snd a g (fun x => x.1) (by omega), h1]
  · rw [map_zip_snd a g (fun x => x.2) (by omega), h2]

theorem exists_gates4 {α β γ δ : Type} (a : List α) (b : List β) (c : List γ) (d : List δ) (h : a.length = b.length)
    (h' : a.length = c.length) (h'' : a.length = d.length) :
    ∃ gs : List (α × β × γ × δ), gs.map (·.1) = a ∧ gs.map (·.2.1) = b ∧ gs.map (·.2.2.1) = c ∧
      gs.map (·.2.2.2) = d := by
  obtain ⟨g, h1, h2, h3⟩ := exists_gates3 b c d (by omega) (by omega)
  have hg : g.length = b.length := by rw [← h1]; simp
  refine ⟨a.zip g, List.map_fst_zip (by omega), ?_, ?_, ?_⟩
  · rw [map_zip_snd a g (fun x => x.1) (by omega), h1]
  · rw [map_zip_snd a g (fun x => x.2.1) (by omega), h2]
  · rw [map_zip_snd a g (fun x => x.2.2) (by omega), h3]

end Csu
