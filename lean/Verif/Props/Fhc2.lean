import Verif.Props.Fhc
/-!
# C21-C24: the summer classifier (category, gatewise, prototypes, weight ratios)
-/
namespace Csu.Fhc
open Csu PyFloat Tables XR FhcSpec

/-! ## C21 -/

theorem mapM_length {ι β ε : Type} {F : ι → Except ε β} {l : List ι} {r : List β} (h : l.mapM F = .ok r) :
    r.length = l.length := by
  induction l generalizing r with
  | nil => cases h; rfl
  | cons x xs ih =>
    rw [List.mapM_cons] at h
    cases hx : F x with
    | error e => rw [hx] at h; cases h
    | ok y =>
      cases hxs : xs.mapM F with
      | error e => rw [hx, hxs] at h; cases h
      | ok ys =>
        rw [hx, hxs] at h
        cases h
        simp [ih hxs]

/-- every set of score rows has ten rows -/
theorem summerRows_length {α : Type} [PyFloat α] {A : SummerArgs α} {I : Inputs α} {dz : NdArray α}
    {rows : List (List α)} (h : summerRows A I = .ok (some (dz, rows))) : I.dz = some dz ∧ rows.length = 10 := by
  unfold summerRows at h
  cases hd : I.dz with
  | none => rw [hd] at h; cases h
  | some d =>
    rw [hd] at h
    simp only [bind, Except.bind] at h
    generalize hu : (if I.T.isNone = true then false else A.useTemp) = u at h
    cases hs : (getMbfSets .summer u A.tempFactor A.band : Except PyErr (Sets α)) with
    | error e => rw [hs] at h; cases h
    | ok sets =>
      rw [hs] at h
      cases hm : methodOf A.method with
      | none => rw [hm] at h; cases h
      | some hyb =>
        rw [hm] at h
        simp only at h
        split at h
        · cases h
        · rename_i r hr
          cases h
          refine ⟨rfl, ?_⟩
          have hl := mapM_length hr
          rw [hl, List.length_range]
          have hb : A.band ∈ bands := by
            rw [← C19_bands A.band .summer .DZ]
            by_contra hc
            have : (csv A.band .summer .DZ).isNone = true := by
              cases hcsv : csv A.band .summer .DZ <;> simp_all
            simp [getMbfSets, this] at hs
          rw [getMbfSets_ok _ _ _ _ (isSome_of_mem hb _ _)] at hs
          cases hs
          obtain ⟨rows, h1, h2, _⟩ := C19_summer A.band hb .DZ
          rw [setsOf_eq _ _ _ _ _ (by simp), h1]
          simpa [getBetaSet] using h2

/-- C21, in any arithmetic and whatever the arguments: a returned category array has the shape of `dz`, one category per
element, each between 1 and 10. -/
theorem C21_category_range {α : Type} [PyFloat α] (A : SummerArgs α) (I : Inputs α) (shape : List Nat) (cats : List Nat)
    (h : csuFhcSummer A I = .ok (some (.hid shape cats))) :
    ∃ dz, I.dz = some dz ∧ shape = dz.shape ∧ cats.length = dz.data.length ∧ ∀ v ∈ cats, 1 ≤ v ∧ v ≤ 10 := by
  unfold csuFhcSummer at h
  cases hr : summerRows A I with
  | error e => rw [hr] at h; cases h
  | ok o =>
    rw [hr] at h
    rcases o with _ | ⟨dz, rows⟩
    · cases h
    · obtain ⟨h1, h2⟩ := summerRows_length hr
      simp only [bind, Except.bind] at h
      split_ifs at h
      · simp at h
      simp only [Except.ok.injEq, Option.some.injEq, Out.hid.injEq] at h
      refine ⟨dz, h1, h.1.symm, by rw [← h.2]; simp [classify], ?_⟩
      intro v hv
      rw [← h.2] at hv
      obtain ⟨i, _, rfl⟩ := List.mem_map.mp hv
      have := argmaxPlus1_range (column rows i) (by
        intro hc; have := congrArg List.length hc; simp [column, h2] at this)
      simpa [column, h2] using this

/-- C21, in any arithmetic: a returned score array has shape `(n_types,) + dz.shape` and ten rows (`n_types` is 10
unless there are no gates). -/
theorem C21_scores_shape {α : Type} [PyFloat α] (A : SummerArgs α) (I : Inputs α) (shape : List Nat)
    (rows : List (List α)) (h : csuFhcSummer A I = .ok (some (.scores shape rows))) :
    ∃ dz, I.dz = some dz ∧ shape = A.nTypes :: dz.shape ∧ rows.length = 10 ∧ (dz.data ≠ [] → A.nTypes = 10) := by
  unfold csuFhcSummer at h
  cases hr : summerRows A I with
  | error e => rw [hr] at h; cases h
  | ok o =>
    rw [hr] at h
    rcases o with _ | ⟨dz, rows'⟩
    · cases h
    · obtain ⟨h1, h2⟩ := summerRows_length hr
      simp only [bind, Except.bind] at h
      split_ifs at h with h3
      swap
      · simp at h
      simp only [Except.ok.injEq, Option.some.injEq, Out.scores.injEq] at h
      refine ⟨dz, h1, h.1.symm, by rw [← h.2]; exact h2, ?_⟩
      intro hne
      have hpos : 0 < dz.data.length := List.length_pos_iff.mpr hne
      rw [h2] at h3
      exact (Nat.eq_of_mul_eq_mul_right hpos (not_not.mp h3)).symm

/-- C21: the category at each gate is the first best-scoring species, NaN scores counting as best; `scores` is what the
same call returns with `return_scores=True`. -/
theorem C21_first_best (A : SummerArgs XR) (I : Inputs XR) (shape : List Nat) (cats : List Nat)
    (hret : A.returnScores = false) (h : csuFhcSummer A I = .ok (some (.hid shape cats))) :
    ∃ shape' scores, csuFhcSummer { A with returnScores := true } I = .ok (some (.scores shape' scores)) ∧
      ∀ i, i < cats.length → FirstBestX (scores.map (fun row => row.getD i XR.nan)) (cats.getD i 0) := by
  unfold csuFhcSummer at h
  cases hr : summerRows A I with
  | error e => rw [hr] at h; cases h
  | ok o =>
    rw [hr] at h
    rcases o with _ | ⟨dz, rows⟩
    · cases h
    · obtain ⟨h1, h2⟩ := summerRows_length hr
      simp only [bind, Except.bind, hret, Bool.false_eq_true, if_false] at h
      split_ifs at h with h3
      simp only [Except.ok.injEq, Option.some.injEq, Out.hid.injEq] at h
      have hr' : summerRows { A with returnScores := true } I = .ok (some (dz, rows)) := hr
      refine ⟨A.nTypes :: dz.shape, rows, ?_, ?_⟩
      · unfold csuFhcSummer
        rw [hr']
        simp only [bind, Except.bind]
        rw [if_neg h3]; rfl
      · intro i hi
        have hlen : cats.length = dz.data.length := by rw [← h.2]; simp [classify]
        have : cats.getD i 0 = argmaxPlus1 (column rows i) := by
          rw [← h.2]; simp [classify, List.getD, hlen ▸ hi]
        rw [this]
        exact argmaxPlus1_spec _ (by intro hc; have := congrArg List.length hc; simp [column, h2] at this)

/-- C21: on finite gates with usable weights, a category is returned and is the first best-scoring species in the
ordinary sense. -/
theorem C21_first_best_finite (A : SummerArgs XR) (I : Inputs XR) (P : Key → Bool) (xs : List (Key → ℝ))
    (hybrid : Bool) (w : Key → ℝ) (f : ℝ) (hA : GoodCall A P hybrid) (hn : A.nTypes = 10)
    (hret : A.returnScores = false) (hf : 0 < f) (hfe : A.tempFactor = fin f) (hw : ∀ k, A.weights k = fin (w k))
    (hgw : GoodWeights hybrid P A.useTemp w) (htrap : hybrid = false → A.useTrap = false)
    (h : IsGates I P (xs.map (fun x k => fin (x k)))) :
    ∃ shape cats, csuFhcSummer A I = .ok (some (.hid shape cats)) ∧ cats.length = xs.length ∧
      ∀ i (hi : i < xs.length), FirstBest ((List.range 10).map (fun c => score hybrid P (P .T && A.useTemp) w
        (fun k => (bellT A.band .summer f k c).mu (xs[i] k)))) (cats.getD i 0) := by
  obtain ⟨dz, _, h2⟩ := summer_fin hA hn hf hfe hw htrap
    (fun e hp => by subst e; exact (hgw.total_hyb hp).ne') (fun e => by subst e; exact hgw.total_lin.ne') h
  simp only [hret, Bool.false_eq_true, if_false] at h2
  refine ⟨_, _, h2, by simp, ?_⟩
  intro i hi
  simp only [List.getD, List.getElem?_map, List.getElem?_eq_getElem hi, Option.map_some, Option.getD_some]
  exact argmaxPlus1_fin _ (by simp)

example : ∃ shape cats, csuFhcSummer ({ band := "C" } : SummerArgs XR)
    (inputsOf (fun _ => true) ([fun _ => 30, fun _ => -2].map (fun x k => fin (x k)))) =
      .ok (some (.hid shape cats)) ∧ cats.length = 2 := by
  have hA : GoodCall ({ band := "C" } : SummerArgs XR) (fun _ => true) true :=
    ⟨by simp [bands], by show methodOf "hybrid" = _; decide, rfl, by simp, by simp⟩
  obtain ⟨s, c, h1, h2, _⟩ := C21_first_best_finite _ (inputsOf (fun _ => true) _) (fun _ => true)
    [fun _ => 30, fun _ => -2] true defaultW 1 hA rfl rfl one_pos (by show (1 : XR) = _; simp) defaultW_eq
    (goodWeights_default _ _ _ rfl) (by simp) (isGates_inputsOf _ _)
  exact ⟨s, c, h1, h2⟩

/-! ## C22 -/

/-- C22, in any arithmetic (rounding, NaN, infinities): for given arguments and set of supplied variables there is one
function of a single gate that gives every score and category of every call, whatever the number, order and shape of
the gates. -/
theorem C22_gatewise {α : Type} [PyFloat α] (A : SummerArgs α) (P : Key → Bool) (hybrid : Bool)
    (hA : GoodCall A P hybrid) (hn : A.nTypes = 10) (hw : NoZeroWidth α .summer A.band A.tempFactor) :
    ∃ (sc : Nat → (Key → α) → α) (cat : (Key → α) → Nat), ∀ (I : Inputs α) (gs : List (Key → α)), IsGates I P gs →
      ∃ dz, I.dz = some dz ∧ csuFhcSummer A I = .ok (some (if A.returnScores
        then .scores (10 :: dz.shape) ((List.range 10).map (fun c => gs.map (sc c)))
        else .hid dz.shape (gs.map cat))) := by
  refine ⟨fun c => gScore (cfg P A.useTemp (fun k _ => A.weights k)
        (setsOf .summer (effTemp P A.useTemp) A.tempFactor A.band) hybrid A.useTrap) c, fun g => argmaxPlus1 ((List.range 10).map (fun c => gScore (cfg P A.useTemp
        (fun k _ => A.weights k) (setsOf .summer (effTemp P A.useTemp) A.tempFactor A.band) hybrid A.useTrap) c g)), ?_⟩
  intro I gs h
  exact summer_gates hA hn hw h

/-- C22: classifying a concatenation of gates is concatenating the classifications. -/
theorem C22_concat {α : Type} [PyFloat α] (A : SummerArgs α) (P : Key → Bool) (hybrid : Bool)
    (hA : GoodCall A P hybrid) (hn : A.nTypes = 10) (hw : NoZeroWidth α .summer A.band A.tempFactor)
    (hret : A.returnScores = false) (gs gs' : List (Key → α)) :
    ∃ r r', csuFhcSummer A (inputsOf P gs) = .ok (some (.hid [gs.length] r)) ∧
      csuFhcSummer A (inputsOf P gs') = .ok (some (.hid [gs'.length] r')) ∧
      csuFhcSummer A (inputsOf P (gs ++ gs')) = .ok (some (.hid [gs.length + gs'.length] (r ++ r'))) := by
  obtain ⟨sc, cat, h⟩ := C22_gatewise A P hybrid hA hn hw
  have key : ∀ gs, csuFhcSummer A (inputsOf P gs) = .ok (some (.hid [gs.length] (gs.map cat))) := by
    intro gs
    obtain ⟨dz, h1, h2⟩ := h (inputsOf P gs) gs (isGates_inputsOf P gs)
    rw [inputsOf_dz P gs hA.dz] at h1
    cases h1
    rw [h2]; simp [hret]
  refine ⟨_, _, key gs, key gs', ?_⟩
  rw [key]; simp

/-- C22: the same for scores, species by species. -/
theorem C22_concat_scores {α : Type} [PyFloat α] (A : SummerArgs α) (P : Key → Bool) (hybrid : Bool)
    (hA : GoodCall A P hybrid) (hn : A.nTypes = 10) (hw : NoZeroWidth α .summer A.band A.tempFactor)
    (hret : A.returnScores = true) (gs gs' : List (Key → α)) :
    ∃ r r', csuFhcSummer A (inputsOf P gs) = .ok (some (.scores [10, gs.length] r)) ∧
      csuFhcSummer A (inputsOf P gs') = .ok (some (.scores [10, gs'.length] r')) ∧
      csuFhcSummer A (inputsOf P (gs ++ gs')) =
        .ok (some (.scores [10, gs.length + gs'.length] (List.zipWith (· ++ ·) r r'))) := by
  obtain ⟨sc, cat, h⟩ := C22_gatewise A P hybrid hA hn hw
  have key : ∀ gs, csuFhcSummer A (inputsOf P gs) =
      .ok (some (.scores [10, gs.length] ((List.range 10).map (fun c => gs.map (sc c))))) := by
    intro gs
    obtain ⟨dz, h1, h2⟩ := h (inputsOf P gs) gs (isGates_inputsOf P gs)
    rw [inputsOf_dz P gs hA.dz] at h1
    cases h1
    rw [h2]; simp [hret]
  refine ⟨_, _, key gs, key gs', ?_⟩
  rw [key, zipWith_map_map]
  simp

/-- the width hypothesis holds for the shipped tables in the extended reals -/
example : NoZeroWidth XR .summer exArgs.band exArgs.tempFactor := by
  have := noZeroWidth_summer (band := "X") (by simp [bands]) one_pos
  have e : exArgs.tempFactor = fin 1 := by show (1 : XR) = _; simp
  rw [e]; exact this
example : GoodCall exArgs exP false := exGood

end Csu.Fhc
