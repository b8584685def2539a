import Verif.Model.Fhc
import Verif.Spec.Fhc
import Verif.XReal
import Mathlib.Tactic.Linarith
/-! # `np.argmax(...) + 1` -/
namespace Csu.Fhc
open Csu PyFloat XR FhcSpec

theorem argmaxGo_bound {α : Type} [PyFloat α] (ys : List α) (best : α) (bi i : Nat) (h : bi < i) :
    argmaxGo best bi i ys < i + ys.length := by
  induction ys generalizing best bi i with
  | nil => simpa [argmaxGo] using h
  | cons y ys ih =>
    simp only [argmaxGo, List.length_cons]
    split_ifs
    · omega
    · have := ih best bi (i + 1) (by omega); omega
    · have := ih y i (i + 1) (by omega); omega

/-- in any arithmetic the category is one of the species -/
theorem argmaxPlus1_range {α : Type} [PyFloat α] (l : List α) (h : l ≠ []) :
    1 ≤ argmaxPlus1 l ∧ argmaxPlus1 l ≤ l.length := by
  cases l with
  | nil => exact absurd rfl h
  | cons x xs =>
    have := argmaxGo_bound xs x 0 1 (by omega)
    simp only [argmaxPlus1, List.length_cons]; omega

theorem argmaxGo_spec (pre ys : List ℝ) (best : ℝ) (bi : Nat) (hb : bi < pre.length) (hbest : pre.getD bi 0 = best)
    (h1 : ∀ j, j < pre.length → pre.getD j 0 ≤ best) (h2 : ∀ j, j < bi → pre.getD j 0 < best) :
    FirstBest (pre ++ ys) (argmaxGo (fin best) bi pre.length (ys.map fin) + 1) := by
  induction ys generalizing pre best bi with
  | nil =>
    simp only [List.map_nil, argmaxGo, List.append_nil, FirstBest, Nat.add_sub_cancel]
    refine ⟨by omega, by omega, ?_, ?_⟩
    · rw [hbest]; exact h1
    · rw [hbest]; exact h2
  | cons y ys ih =>
    simp only [List.map_cons, argmaxGo, fisnan, fle, Bool.false_eq_true, if_false, decide_eq_true_eq]
    have happ : pre ++ y :: ys = (pre ++ [y]) ++ ys := by simp
    have hlen : pre.length + 1 = (pre ++ [y]).length := by simp
    have hget : ∀ j, j < pre.length → (pre ++ [y]).getD j 0 = pre.getD j 0 := by
      intro j hj; simp [List.getD, List.getElem?_append_left hj]
    have hlast : (pre ++ [y]).getD pre.length 0 = y := by simp [List.getD]
    split_ifs with hy
    · rw [happ, hlen]
      apply ih (pre ++ [y]) best bi (by simp; omega)
      · rw [hget bi hb, hbest]
      · intro j hj
        rcases Nat.lt_or_ge j pre.length with h | h
        · rw [hget j h]; exact h1 j h
        · have : j = pre.length := by simp at hj; omega
          subst this; rw [hlast]; exact hy
      · intro j hj
        rw [hget j (by omega)]; exact h2 j hj
    · have hy : best < y := not_le.mp hy
      rw [happ, hlen]
      apply ih (pre ++ [y]) y pre.length (by simp)
      · exact hlast
      · intro j hj
        rcases Nat.lt_or_ge j pre.length with h | h
        · rw [hget j h]; exact (h1 j h).trans hy.le
        · have : j = pre.length := by simp at hj; omega
          subst this; rw [hlast]
      · intro j hj
        rw [hget j hj]; exact (h1 j hj).trans_lt hy

/-- `np.argmax + 1` of finite scores -/
theorem argmaxPlus1_fin (l : List ℝ) (h : l ≠ []) : FirstBest l (argmaxPlus1 (l.map fin)) := by
  cases l with
  | nil => exact absurd rfl h
  | cons x xs =>
    have := argmaxGo_spec [x] xs x 0 (by simp) (by simp) (by simp) (by simp)
    simpa [argmaxPlus1] using this

/-- the first best species is unique -/
theorem FirstBest.unique {l : List ℝ} {k k' : Nat} (h : FirstBest l k) (h' : FirstBest l k') : k = k' := by
  obtain ⟨a1, a2, a3, a4⟩ := h
  obtain ⟨b1, b2, b3, b4⟩ := h'
  rcases Nat.lt_trichotomy k k' with hlt | heq | hgt
  · have := b4 (k - 1) (by omega)
    have := a3 (k' - 1) (by omega)
    linarith
  · exact heq
  · have := a4 (k' - 1) (by omega)
    have := b3 (k - 1) (by omega)
    linarith

theorem isnan_iff (x : XR) : PyFloat.isnan x = true ↔ x = XR.nan := by
  cases x <;> simp [PyFloat.isnan, PyFloat.eq, XR.eq]

theorem le_trans' {a b c : XR} (h1 : XR.le a b = true) (h2 : XR.le b c = true) : XR.le a c = true := by
  cases a <;> cases b <;> cases c <;> simp_all [XR.le]
  linarith
theorem lt_of_not_le {a b : XR} (ha : a ≠ XR.nan) (hb : b ≠ XR.nan) (h : XR.le a b = false) : XR.lt b a = true := by
  cases a <;> cases b <;> simp_all [XR.le, XR.lt]
theorem le_of_lt' {a b : XR} (h : XR.lt a b = true) : XR.le a b = true := by
  cases a <;> cases b <;> simp_all [XR.le, XR.lt]
  linarith
theorem lt_of_le_of_lt' {a b c : XR} (h1 : XR.le a b = true) (h2 : XR.lt b c = true) : XR.lt a c = true := by
  cases a <;> cases b <;> cases c <;> simp_all [XR.le, XR.lt]
  linarith
theorem le_refl' {a : XR} (h : a ≠ XR.nan) : XR.le a a = true := by
  cases a <;> simp_all [XR.le]

theorem getD_app {β : Type} (a b : List β) (j : Nat) (d : β) (h : j < a.length) : (a ++ b).getD j d = a.getD j d := by
  rw [List.getD, List.getD, List.getElem?_append_left h]

theorem argmaxGo_specX (pre ys : List XR) (best : XR) (bi : Nat) (hb : bi < pre.length)
    (hbest : pre.getD bi XR.nan = best) (hpre : ∀ j, j < pre.length → j ≠ bi → pre.getD j XR.nan ≠ XR.nan)
    (hlast : best = XR.nan → bi + 1 = pre.length)
    (h1 : best ≠ XR.nan → ∀ j, j < pre.length → XR.le (pre.getD j XR.nan) best = true)
    (h2 : best ≠ XR.nan → ∀ j, j < bi → XR.lt (pre.getD j XR.nan) best = true) :
    FirstBestX (pre ++ ys) (argmaxGo best bi pre.length ys + 1) := by
  have hl : ∀ (ys : List XR) j, j < pre.length → (pre ++ ys).getD j XR.nan = pre.getD j XR.nan := by
    intro ys j hj; simp [List.getD, List.getElem?_append_left hj]
  by_cases hn : best = XR.nan
  · have hgo : argmaxGo best bi pre.length ys = bi := by
      cases ys <;> simp [argmaxGo, hn]
    rw [hgo]
    refine ⟨by omega, by simp; omega, Or.inl ⟨?_, ?_⟩⟩
    · rw [Nat.add_sub_cancel, hl _ _ hb, hbest, hn]
    · intro j hj
      rw [Nat.add_sub_cancel] at hj
      rw [hl _ _ (by omega)]
      exact hpre j (by omega) (by omega)
  · induction ys generalizing pre best bi with
    | nil =>
      simp only [argmaxGo, List.append_nil]
      refine ⟨by omega, by omega, Or.inr ⟨?_, ?_, ?_⟩⟩
      · intro hmem
        obtain ⟨j, hj, e⟩ := List.mem_iff_getElem.mp hmem
        have e' : pre.getD j XR.nan = XR.nan := by simp [List.getD, hj, e]
        by_cases hjb : j = bi
        · subst hjb; exact hn (hbest ▸ e')
        · exact hpre j hj hjb e'
      · rw [Nat.add_sub_cancel, hbest]; exact h1 hn
      · rw [Nat.add_sub_cancel, hbest]; exact h2 hn
    | cons y ys ih =>
      have happ : pre ++ y :: ys = (pre ++ [y]) ++ ys := by simp
      have hlen : pre.length + 1 = (pre ++ [y]).length := by simp
      have hlasty : (pre ++ [y]).getD pre.length XR.nan = y := by simp [List.getD]
      have hbn : PyFloat.isnan best = false := by
        rw [← Bool.not_eq_true]; exact fun h => hn ((isnan_iff best).mp h)
      have hlt : ∀ j, j < (pre ++ [y]).length → j < pre.length ∨ j = pre.length := by
        intro j hj; simp at hj; omega
      simp only [argmaxGo, hbn, Bool.false_eq_true, if_false]
      by_cases hy : (y <=. best) = true
      · rw [if_pos hy, happ, hlen]
        have hyn : y ≠ XR.nan := by rintro rfl; simp at hy
        refine ih (pre ++ [y]) best bi (by simp; omega) ?_ ?_ (fun h => absurd h hn) ?_ ?_
          (fun ys j hj => getD_app _ _ _ _ hj) hn
        · rw [hl _ _ hb, hbest]
        · intro j hj hjb
          rcases hlt j hj with h | h
          · rw [hl _ _ h]; exact hpre j h hjb
          · subst h; rw [hlasty]; exact hyn
        · intro _ j hj
          rcases hlt j hj with h | h
          · rw [hl _ _ h]; exact h1 hn j h
          · subst h; rw [hlasty]; exact hy
        · intro _ j hj
          rw [hl _ _ (by omega)]; exact h2 hn j hj
      · rw [if_neg hy, happ, hlen]
        have hle : XR.le y best = false := Bool.eq_false_iff.mpr hy
        have hpre' : ∀ j, j < pre.length → pre.getD j XR.nan ≠ XR.nan := by
          intro j hj
          by_cases hjb : j = bi
          · subst hjb; rw [hbest]; exact hn
          · exact hpre j hj hjb
        by_cases hyn : y = XR.nan
        · have hgo : argmaxGo y pre.length (pre ++ [y]).length ys = pre.length := by
            cases ys <;> simp [argmaxGo, hyn]
          rw [hgo]
          refine ⟨by omega, by simp, Or.inl ⟨?_, ?_⟩⟩
          · simp [List.getD, hyn]
          · intro j hj
            rw [Nat.add_sub_cancel] at hj
            rw [List.append_assoc, hl _ _ hj]
            exact hpre' j hj
        · have hby : XR.lt best y = true := lt_of_not_le hyn hn hle
          refine ih (pre ++ [y]) y pre.length (by simp) hlasty ?_ (fun h => absurd h hyn) ?_ ?_
            (fun ys j hj => getD_app _ _ _ _ hj) hyn
          · intro j hj hjb
            rcases hlt j hj with h | h
            · rw [hl _ _ h]; exact hpre' j h
            · exact absurd h hjb
          · intro _ j hj
            rcases hlt j hj with h | h
            · rw [hl _ _ h]; exact le_of_lt' (lt_of_le_of_lt' (h1 hn j h) hby)
            · subst h; rw [hlasty]; exact le_refl' hyn
          · intro _ j hj
            rw [hl _ _ hj]; exact lt_of_le_of_lt' (h1 hn j hj) hby

/-- `np.argmax + 1` of arbitrary scores -/
theorem argmaxPlus1_spec (l : List XR) (h : l ≠ []) : FirstBestX l (argmaxPlus1 l) := by
  cases l with
  | nil => exact absurd rfl h
  | cons x xs =>
    have := argmaxGo_specX [x] xs x 0 (by simp) (by simp) (by simp) (by simp)
      (by intro hx j hj; have : j = 0 := by simpa using hj
          subst this; exact le_refl' hx) (by simp)
    simpa [argmaxPlus1] using this

/-- a NaN in front wins -/
theorem argmaxPlus1_nan (xs : List XR) : argmaxPlus1 (XR.nan :: xs) = 1 := by
  cases xs <;> simp [argmaxPlus1, argmaxGo]

end Csu.Fhc
