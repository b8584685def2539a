import Verif.Lemmas.FhcLink
/-!
# C20-C24: the summer classifier

`IsGates I P gs` (Lemmas/FhcApi.lean): the supplied measurands are those with `P k`, and the array of each of them is the
list of the values of that variable at the gates `gs` — i.e. all supplied arrays have the same number of elements.
-/
namespace Csu.Fhc
open Csu PyFloat Tables XR FhcSpec

/-- the 1-D inputs made of the gates `gs`, with the variables `P` supplied -/
def inputsOf {α : Type} (P : Key → Bool) (gs : List (Key → α)) : Inputs α :=
  let a := fun k => if P k then some (⟨.float, [gs.length], gs.map (fun g => g k)⟩ : NdArray α) else none
  ⟨a .DZ, a .DR, a .KD, a .RH, a .LD, a .T⟩

theorem isGates_inputsOf {α : Type} (P : Key → Bool) (gs : List (Key → α)) : IsGates (inputsOf P gs) P gs := by
  intro k
  cases k <;> simp only [inputsOf, Inputs.get] <;> split_ifs <;> rfl

theorem inputsOf_dz {α : Type} (P : Key → Bool) (gs : List (Key → α)) (h : P .DZ = true) :
    (inputsOf P gs).dz = some ⟨.float, [gs.length], gs.map (fun g => g .DZ)⟩ := by
  simp [inputsOf, h]

/-! ## C20 -/

/-- weights that can be averaged over: none negative, and the sum the method divides by is positive -/
structure GoodWeights (hybrid : Bool) (P : Key → Bool) (useTemp : Bool) (w : Key → ℝ) : Prop where
  nonneg : ∀ k, 0 ≤ w k
  hyb : hybrid = true → (∃ k ∈ pol, P k = true) → ∃ k ∈ pol, P k = true ∧ 0 < w k
  lin : hybrid = false → ∃ k, P k = true ∧ (k = .T → useTemp = true) ∧ 0 < w k

theorem sum_pos_of {ι : Type} (ks : List ι) (w : ι → ℝ) (h0 : ∀ k ∈ ks, 0 ≤ w k) (h : ∃ k ∈ ks, 0 < w k) :
    0 < (ks.map w).sum := by
  induction ks with
  | nil => obtain ⟨k, hk, _⟩ := h; cases hk
  | cons a ks ih =>
    have h0' : ∀ k ∈ ks, 0 ≤ w k := fun k hk => h0 k (by simp [hk])
    have hs : 0 ≤ (ks.map w).sum := List.sum_nonneg (by
      intro x hx; obtain ⟨k, hk, rfl⟩ := List.mem_map.mp hx; exact h0' k hk)
    have ha := h0 a (by simp)
    simp only [List.map_cons, List.sum_cons]
    obtain ⟨k, hk, hw⟩ := h
    rcases List.mem_cons.mp hk with rfl | hk
    · linarith
    · have := ih h0' ⟨k, hk, hw⟩; linarith

theorem GoodWeights.total_hyb {P : Key → Bool} {u : Bool} {w : Key → ℝ} (h : GoodWeights true P u w)
    (hp : pol.filter P ≠ []) : 0 < totalWeight true P (effTemp P u) w := by
  unfold totalWeight
  simp only [if_true, filter_pol]
  apply sum_pos_of _ _ (fun k _ => h.nonneg k)
  obtain ⟨k, hk⟩ := List.exists_mem_of_ne_nil _ hp
  have hk' := List.mem_filter.mp hk
  obtain ⟨k, h1, h2, h3⟩ := h.hyb rfl ⟨k, hk'.1, hk'.2⟩
  exact ⟨k, List.mem_filter.mpr ⟨h1, h2⟩, h3⟩

theorem mem_allKeys (k : Key) : k ∈ allKeys := by cases k <;> simp [allKeys]

theorem GoodWeights.total_lin {P : Key → Bool} {u : Bool} {w : Key → ℝ} (h : GoodWeights false P u w) :
    0 < totalWeight false P (effTemp P u) w := by
  unfold totalWeight
  apply sum_pos_of _ _ (fun k _ => h.nonneg k)
  obtain ⟨k, h1, h2, h3⟩ := h.lin rfl
  refine ⟨k, List.mem_filter.mpr ⟨mem_allKeys k, ?_⟩, h3⟩
  simp only [h1, Bool.true_and, Bool.or_eq_true, bne_iff_ne, ne_eq]
  by_cases hk : k = .T
  · subst hk; right; simp [effTemp, h1, h2 rfl]
  · left; exact hk

theorem wmean_unit (ks : List Key) (w μ : Key → ℝ) (hw : ∀ k, 0 ≤ w k) (hs : 0 < (ks.map w).sum)
    (h0 : ∀ k, 0 ≤ μ k) (h1 : ∀ k, μ k ≤ 1) : 0 ≤ wmean ks w μ ∧ wmean ks w μ ≤ 1 := by
  unfold wmean
  constructor
  · apply div_nonneg _ hs.le
    apply List.sum_nonneg
    intro x hx; obtain ⟨k, _, rfl⟩ := List.mem_map.mp hx
    exact mul_nonneg (hw k) (h0 k)
  · rw [div_le_one hs]
    apply List.sum_le_sum
    intro k _
    have := hw k
    have := h1 k
    nlinarith

theorem score_unit (hybrid : Bool) (P : Key → Bool) (u : Bool) (w μ : Key → ℝ) (hw : GoodWeights hybrid P u w)
    (h0 : ∀ k, 0 ≤ μ k) (h1 : ∀ k, μ k ≤ 1) :
    0 ≤ score hybrid P (effTemp P u) w μ ∧ score hybrid P (effTemp P u) w μ ≤ 1 := by
  cases hybrid with
  | true =>
    simp only [score, if_true, hybridScore]
    have ha : ∀ b : Bool, 0 ≤ (if b then μ .T else 1) ∧ (if b then μ .T else 1) ≤ 1 := by
      intro b; cases b <;> simp [h0, h1]
    have hp : 0 ≤ (if pol.filter P = [] then 1 else wmean (pol.filter P) w μ) ∧
        (if pol.filter P = [] then 1 else wmean (pol.filter P) w μ) ≤ 1 := by
      split_ifs with h
      · norm_num
      · have := hw.total_hyb h
        unfold totalWeight at this
        simp only [if_true, filter_pol] at this
        exact wmean_unit _ _ _ hw.nonneg this h0 h1
    have := ha (effTemp P u)
    exact ⟨mul_nonneg (mul_nonneg hp.1 this.1) (h0 _),
      mul_le_one₀ (mul_le_one₀ hp.2 this.1 this.2) (h0 _) (h1 _)⟩
  | false =>
    simp only [score, Bool.false_eq_true, if_false, linearScore]
    have := hw.total_lin
    unfold totalWeight at this
    simp only [Bool.false_eq_true, if_false] at this
    exact wmean_unit _ _ _ hw.nonneg this h0 h1

/-- C20: every score is a real number between 0 and 1, for finite gates, any subset of variables for which the call
succeeds, any band, both methods, any usable weights and any positive `temp_factor` (trapezoids off for `linear`). -/
theorem C20_scores_in_unit_interval (A : SummerArgs XR) (I : Inputs XR) (P : Key → Bool) (xs : List (Key → ℝ))
    (hybrid : Bool) (w : Key → ℝ) (f : ℝ) (hA : GoodCall A P hybrid) (hn : A.nTypes = 10)
    (hret : A.returnScores = true) (hf : 0 < f) (hfe : A.tempFactor = fin f) (hw : ∀ k, A.weights k = fin (w k))
    (hgw : GoodWeights hybrid P A.useTemp w) (htrap : hybrid = false → A.useTrap = false)
    (h : IsGates I P (xs.map (fun x k => fin (x k)))) :
    ∃ shape rows, csuFhcSummer A I = .ok (some (.scores shape rows)) ∧ rows.length = 10 ∧
      ∀ row ∈ rows, row.length = xs.length ∧ ∀ v ∈ row, ∃ r : ℝ, v = fin r ∧ 0 ≤ r ∧ r ≤ 1 := by
  obtain ⟨dz, _, h2⟩ := summer_fin hA hn hf hfe hw htrap
    (fun e hp => by subst e; exact (hgw.total_hyb hp).ne') (fun e => by subst e; exact hgw.total_lin.ne') h
  simp only [hret, if_true] at h2
  refine ⟨_, _, h2, by simp, ?_⟩
  intro row hrow
  obtain ⟨c, _, rfl⟩ := List.mem_map.mp hrow
  refine ⟨by simp, ?_⟩
  intro v hv
  obtain ⟨x, _, rfl⟩ := List.mem_map.mp hv
  exact ⟨_, rfl, score_unit hybrid P A.useTemp w _ hgw (fun k => (mu_pos _ _).le) (fun k => mu_le_one _ _)⟩

/-- the default weights as real numbers -/
noncomputable def defaultW : Key → ℝ
  | .DZ => 1.5
  | .DR => 0.8
  | .KD => 1.0
  | .RH => 0.8
  | .LD => 0.5
  | .T => 0.4

theorem defaultW_eq (k : Key) : (defaultWeights k : XR) = fin (defaultW k) := by
  cases k <;> simp [defaultWeights, defaultW]

theorem defaultW_pos (k : Key) : 0 < defaultW k := by cases k <;> norm_num [defaultW]

theorem goodWeights_default (hybrid : Bool) (P : Key → Bool) (u : Bool) (hP : P .DZ = true) :
    GoodWeights hybrid P u defaultW where
  nonneg k := (defaultW_pos k).le
  hyb _ h := by obtain ⟨k, h1, h2⟩ := h; exact ⟨k, h1, h2, defaultW_pos k⟩
  lin _ := ⟨.DZ, hP, by simp, defaultW_pos _⟩

/-- a linear call with reflectivity, differential reflectivity and temperature, X band, two gates, default weights -/
noncomputable def exArgs : SummerArgs XR := { method := "linear", band := "X", returnScores := true }
/-- the variables of `exArgs` -/
def exP : Key → Bool := fun k => k == .DZ || k == .DR || k == .T

theorem exGood : GoodCall exArgs exP false where
  band := by simp [exArgs, bands]
  method := by show methodOf "linear" = _; decide
  dz := rfl
  lin := by intro _; decide
  linT := by intro _ _; left; rfl

example : ∃ shape rows, csuFhcSummer exArgs (inputsOf exP ([fun _ => 30, fun _ => -2].map (fun x k => fin (x k)))) =
    .ok (some (.scores shape rows)) ∧ rows.length = 10 ∧
      ∀ row ∈ rows, row.length = 2 ∧ ∀ v ∈ row, ∃ r : ℝ, v = fin r ∧ 0 ≤ r ∧ r ≤ 1 :=
  C20_scores_in_unit_interval exArgs _ exP [fun _ => 30, fun _ => -2] false defaultW 1 exGood rfl rfl one_pos
    (by show (1 : XR) = _; simp) defaultW_eq (goodWeights_default _ _ _ rfl) (by intro _; rfl) (isGates_inputsOf _ _)

end Csu.Fhc
