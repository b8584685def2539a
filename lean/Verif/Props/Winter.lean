import Verif.Lemmas.Winter
/-!
# C31, C32: the winter classifier
-/
namespace Csu.Fhc
open Csu PyFloat Tables XR FhcSpec

/-! ## C31 -/

/-- C31, in any arithmetic and for every input: a winter result has one score row per species, 2 when warm and 4 when
cold, and shape `(2 or 4,) + dz.shape`. -/
theorem C31_row_count {α : Type} [PyFloat α] (A : WinterArgs α) (I : Inputs α) (shape : List Nat) (rows : List (List α))
    (h : csuFhcWinter A I = .ok (some (shape, rows))) :
    rows.length = (if A.warm then 2 else 4) ∧
      ∃ dz, I.dz = some dz ∧ shape = (if A.warm then 2 else 4) :: dz.shape := by
  unfold csuFhcWinter at h
  cases hd : I.dz with
  | none => rw [hd] at h; cases h
  | some d =>
    rw [hd] at h
    simp only [bind, Except.bind] at h
    generalize (if I.T.isNone = true then false else A.useTemp) = u at h
    cases hs : (getMbfSets .winter u A.tempFactor A.band : Except PyErr (Sets α)) with
    | error e => rw [hs] at h; cases h
    | ok sets =>
      rw [hs] at h
      cases hm : methodOf A.method with
      | none => rw [hm] at h; cases h
      | some hyb =>
        rw [hm] at h
        simp only at h
        split at h
        · cases h
        · rename_i r hr
          cases h
          have hl := mapM_length hr
          have hl2 : (winterTypes A.warm).length = if A.warm then 2 else 4 := by
            cases A.warm <;> rfl
          exact ⟨hl.trans hl2, d, rfl, by rw [hl2]⟩

/-- C31: scores are real numbers in [0,1], for finite gates with reflectivity and any of differential reflectivity,
differential phase and temperature, any band, method and usable weights. -/
theorem C31_scores_in_unit_interval (A : WinterArgs XR) (I : Inputs XR) (P : Key → Bool) (xs : List (Key → ℝ))
    (hybrid : Bool) (w : Key → Nat → ℝ) (f : ℝ) (hA : GoodWinter A P hybrid) (hR : P .RH = false) (hL : P .LD = false)
    (hf : 0 < f) (hfe : A.tempFactor = fin f) (hw : ∀ k c, A.weights k c = fin (w k c))
    (hgw : ∀ c ∈ winterTypes A.warm, GoodWeights hybrid P A.useTemp (fun k => w k c))
    (h : IsGates I P (xs.map (fun x k => fin (x k)))) :
    ∃ shape rows, csuFhcWinter A I = .ok (some (shape, rows)) ∧ rows.length = (if A.warm then 2 else 4) ∧
      ∀ row ∈ rows, row.length = xs.length ∧ ∀ v ∈ row, ∃ r : ℝ, v = fin r ∧ 0 ≤ r ∧ r ≤ 1 := by
  obtain ⟨dz, _, h2⟩ := winter_fin hA hR hL hf hfe hw
    (fun e hp c hc => by subst e; exact ((hgw c hc).total_hyb hp).ne')
    (fun e c hc => by subst e; exact (hgw c hc).total_lin.ne') h
  refine ⟨_, _, h2, by cases A.warm <;> rfl, ?_⟩
  intro row hrow
  obtain ⟨c, hc, rfl⟩ := List.mem_map.mp hrow
  refine ⟨by simp, ?_⟩
  intro v hv
  obtain ⟨x, _, rfl⟩ := List.mem_map.mp hv
  exact ⟨_, rfl, score_unit hybrid P A.useTemp _ _ (hgw c hc) (fun k => (mu_pos _ _).le) (fun k => mu_le_one _ _)⟩

/-- the default winter weights as real numbers -/
def winterW (k : Key) (c : Nat) : ℝ :=
  match k with
  | .DZ => [5, 5, 5, 5, 10, 10].getD c 0
  | .DR => [9, 9, 9, 10, 0, 0].getD c 0
  | .KD => [11, 11, 11, 10, 0, 0].getD c 0
  | .RH => [0, 0, 0, 0, 0, 0].getD c 0
  | .LD => [0, 0, 0, 0, 0, 0].getD c 0
  | .T => [0, 0, 0, 0, 20, 20].getD c 0

theorem getD_fin (l : List ℝ) (c : Nat) : (l.map fin).getD c (0 : XR) = fin (l.getD c 0) := by
  by_cases h : c < l.length <;> simp [List.getD, h]

theorem winterW_eq (k : Key) (c : Nat) : (winterWeights k c : XR) = fin (winterW k c) := by
  cases k <;> simp only [winterWeights, winterW, ← getD_fin] <;> simp

theorem goodWeights_winter (P : Key → Bool) (u : Bool) (hP : P .DZ = true) (warm : Bool) :
    ∀ c ∈ winterTypes warm, GoodWeights false P u (fun k => winterW k c) := by
  intro c hc
  have hc6 := winterTypes_lt warm c hc
  refine ⟨?_, by simp, ?_⟩
  · intro k
    rcases (show c = 0 ∨ c = 1 ∨ c = 2 ∨ c = 3 ∨ c = 4 ∨ c = 5 by omega) with rfl | rfl | rfl | rfl | rfl | rfl <;>
      cases k <;> simp [winterW]
  · intro _
    refine ⟨.DZ, hP, by simp, ?_⟩
    rcases (show c = 0 ∨ c = 1 ∨ c = 2 ∨ c = 3 ∨ c = 4 ∨ c = 5 by omega) with rfl | rfl | rfl | rfl | rfl | rfl <;>
      simp [winterW]

/-- C31 for the default call: finite dz, T and zdr and/or kdp. -/
theorem C31_default (band : String) (hb : band ∈ bands) (warm : Bool) (P : Key → Bool) (hP : P .DZ = true)
    (hpol : P .DR = true ∨ P .KD = true) (hR : P .RH = false) (hL : P .LD = false) (xs : List (Key → ℝ)) :
    ∃ shape rows, csuFhcWinter ({ band := band, warm := warm } : WinterArgs XR)
        (inputsOf P (xs.map (fun x k => fin (x k)))) = .ok (some (shape, rows)) ∧
      rows.length = (if warm then 2 else 4) ∧
      ∀ row ∈ rows, row.length = xs.length ∧ ∀ v ∈ row, ∃ r : ℝ, v = fin r ∧ 0 ≤ r ∧ r ≤ 1 := by
  apply C31_scores_in_unit_interval { band := band, warm := warm } _ P xs false winterW 1
    ⟨hb, by show methodOf "linear" = _; decide, hP, ?_, fun _ _ => rfl⟩ hR hL one_pos (by show (1 : XR) = _; simp)
    winterW_eq (goodWeights_winter P true hP warm) (isGates_inputsOf _ _)
  intro _
  rcases hpol with h | h
  · exact List.ne_nil_of_mem (List.mem_filter.mpr ⟨by simp [pol], h⟩)
  · exact List.ne_nil_of_mem (List.mem_filter.mpr ⟨by simp [pol], h⟩)

example : ∃ shape rows, csuFhcWinter ({ band := "X", warm := false } : WinterArgs XR)
    (inputsOf (fun k => k == .DZ || k == .KD || k == .T) ([fun _ => 1, fun _ => 2].map (fun x k => fin (x k)))) =
      .ok (some (shape, rows)) ∧ rows.length = 4 ∧
      ∀ row ∈ rows, row.length = 2 ∧ ∀ v ∈ row, ∃ r : ℝ, v = fin r ∧ 0 ≤ r ∧ r ≤ 1 :=
  C31_default "X" (by simp [bands]) false _ rfl (Or.inr rfl) rfl rfl _

/-- C31: without any polarimetric variable the default call raises. -/
theorem C31_needs_pol {α : Type} [PyFloat α] (A : WinterArgs α) (I : Inputs α) (P : Key → Bool) (gs : List (Key → α))
    (hb : A.band ∈ bands) (hm : methodOf A.method = some false) (hP : P .DZ = true) (hpol : ∀ k ∈ pol, P k = false)
    (h : IsGates I P gs) : csuFhcWinter A I = .error .unboundLocalError := by
  obtain ⟨dz, hd, _⟩ := h.dz hP
  have hu : (if I.T.isNone then false else A.useTemp) = effTemp P A.useTemp := by
    rw [h.T_isNone]; cases hp : P .T <;> simp [effTemp, hp]
  have hp : pol.filter P = [] := by
    rw [List.filter_eq_nil_iff]; intro k hk; simp [hpol k hk]
  have he : ∀ c, testFor (mkCfg I dz (effTemp P A.useTemp) A.weights
      (setsOf .winter (effTemp P A.useTemp) A.tempFactor A.band) false false) c = .error .unboundLocalError := by
    intro c
    have : polFlag (mkCfg I dz (effTemp P A.useTemp) A.weights
        (setsOf .winter (effTemp P A.useTemp) A.tempFactor A.band) false false) = false := by
      rw [polFlag_gates h, hp]; rfl
    unfold testFor
    rw [this]; rfl
  have hl : ∃ c cs, winterTypes A.warm = c :: cs := by cases A.warm <;> exact ⟨_, _, rfl⟩
  obtain ⟨c, cs, hl⟩ := hl
  simp only [csuFhcWinter, hd, hu, getMbfSets_ok .winter (effTemp P A.useTemp) A.tempFactor A.band
    (isSome_of_mem hb _ _), hm, bind, Except.bind, getTestList, hl]
  rw [mapM_error _ _ _ (he c)]

/-! ## C32 -/

/-- The full claim: supplying `rho` or `ldr` does not change the winter scores (default arguments). -/
def C32Full : Prop := ∀ (warm : Bool) (P Q : Key → Bool) (xs : List (Key → ℝ)),
  (∀ k, k ≠ .RH → k ≠ .LD → Q k = P k) → P .DZ = true → P .DR = true →
  csuFhcWinter ({ warm := warm } : WinterArgs XR) (inputsOf Q (xs.map (fun x k => fin (x k)))) =
    csuFhcWinter ({ warm := warm } : WinterArgs XR) (inputsOf P (xs.map (fun x k => fin (x k))))

/-- a supplied `rho` or `ldr` makes every winter score NaN -/
theorem gScore_winter_nan {band : String} (hb : band ∈ bands) {P : Key → Bool} {k : Key} (hk : k = .RH ∨ k = .LD)
    (hP : P k = true) (u : Bool) (w : Key → Nat → XR) (f : XR) (hybrid : Bool) (c : Nat) (hc : c < 6) (g : Key → XR) :
    gScore (cfg P u w (setsOf .winter (effTemp P u) f band) hybrid false) c g = XR.nan := by
  obtain ⟨rows, h1, h2, h3⟩ := C19_winter_nan band hb k hk
  have hkT : k ≠ .T := by rcases hk with rfl | rfl <;> simp
  have hc' : c < rows.length := by omega
  have hm : gMember (setsOf .winter (effTemp P u) f band) c k g = XR.nan := by
    have h4 := (h3 rows[c] (List.getElem_mem _))
    have hbb : ∃ b : ℤ, 0 < b ∧ rows[c].b = some b := by
      have : bands.all (fun b => [Key.RH, Key.LD].all (fun k => match csv b .winter k with
        | none => false
        | some rows => rows.all (fun r => match r.b with | some b => decide (0 < b) | none => false))) = true := by decide
      have := List.all_eq_true.mp (List.all_eq_true.mp this band hb) k (by simpa using hk)
      rw [h1] at this
      have := List.all_eq_true.mp this rows[c] (List.getElem_mem _)
      split at this
      · rename_i b hb; exact ⟨b, by simpa using this, hb⟩
      · cases this
    obtain ⟨b, hb0, hb1⟩ := hbb
    have hb' : (0 : ℝ) < b := by exact_mod_cast hb0
    have hone : (1.0 : XR) = fin 1 := by rw [fsci]; norm_num
    unfold gMember
    rw [setsOf_eq _ _ _ _ _ (fun e => absurd e hkT), h1]
    simp only [Option.map_some, Option.bind_some, getBetaSet, List.getElem?_map, List.getElem?_eq_getElem hc',
      if_neg hkT, hone, h4.1, h4.2, rawVal, hb1, beta]
    simp only [fnan, nan_div, sub_nan, flit]
    rw [two_eq, nan_pow (by norm_num), fdiv one_ne_zero, nan_pow (by push_cast; positivity)]
    simp
  generalize hC : cfg P u w (setsOf .winter (effTemp P u) f band) hybrid false = C
  have hs : C.sets = setsOf .winter (effTemp P u) f band := by rw [← hC]; rfl
  have hkm : k ∈ usedKeys C := by
    apply List.mem_filter.mpr
    constructor
    · rcases hk with rfl | rfl <;> cases C.hybrid <;> simp [varlist]
    · rw [← hC]; simp [cfg, hP]
  have htr : C.trap = false := by rw [← hC]; rfl
  have ht : gTerm C c g k = XR.nan := by simp [gTerm, hs, hm, htr]
  have hpol : gPol C c g = XR.nan := by
    unfold gPol
    rw [npSum_nan _ (List.mem_map.mpr ⟨k, hkm, ht⟩)]
    simp
  have hpf : polFlag C = true := by
    unfold polFlag
    have : C.vars k = 1 := by rw [← hC]; simp [cfg, hP, hkT]
    rcases hk with rfl | rfl <;> simp [this]
  unfold gScore
  rw [hpol, hpf]
  cases C.hybrid <;> cases C.useTemp <;> simp

/-- C32, what the code does: as soon as `rho` or `ldr` is supplied every winter score of every gate is NaN, whatever the
weights (so the category is always the first one). -/
theorem C32_nan_partial (A : WinterArgs XR) (I : Inputs XR) (P : Key → Bool) (gs : List (Key → XR)) (hybrid : Bool)
    (hA : GoodWinter A P hybrid) (hw : NoZeroWidth XR .winter A.band A.tempFactor)
    (hk : P .RH = true ∨ P .LD = true) (h : IsGates I P gs) :
    ∃ shape rows, csuFhcWinter A I = .ok (some (shape, rows)) ∧ rows.length = (if A.warm then 2 else 4) ∧
      ∀ row ∈ rows, row = gs.map (fun _ => XR.nan) := by
  obtain ⟨dz, _, h2⟩ := winter_gates hA hw h
  refine ⟨_, _, h2, by cases A.warm <;> rfl, ?_⟩
  intro row hrow
  obtain ⟨c, hc, rfl⟩ := List.mem_map.mp hrow
  apply List.map_congr_left
  intro g _
  rcases hk with hk | hk
  · exact gScore_winter_nan hA.band (Or.inl rfl) hk _ _ _ _ c (winterTypes_lt _ c hc) g
  · exact gScore_winter_nan hA.band (Or.inr rfl) hk _ _ _ _ c (winterTypes_lt _ c hc) g

/-- C32 is false of the code. -/
theorem C32_full_false : ¬ C32Full := by
  intro hf
  have h := hf true (fun k => k == .DZ || k == .DR) (fun k => k == .DZ || k == .DR || k == .RH) [fun _ => 1]
    (by intro k h1 h2; simp [h1]) rfl rfl
  obtain ⟨s1, r1, e1, l1, c1⟩ := C31_default "S" (by simp [bands]) true (fun k => k == .DZ || k == .DR) rfl (Or.inl rfl)
    rfl rfl [fun _ => 1]
  obtain ⟨s2, r2, e2, l2, c2⟩ := C32_nan_partial ({ warm := true } : WinterArgs XR)
    (inputsOf (fun k => k == .DZ || k == .DR || k == .RH) ([fun _ => 1].map (fun x k => fin (x k)))) _ _ false
    ⟨by simp [bands], by show methodOf "linear" = _; decide, rfl, by intro _; decide, fun _ _ => rfl⟩
    (by have := noZeroWidth_winter (band := "S") (by simp [bands]) one_pos
        rw [← fone] at this; exact this) (Or.inl rfl) (isGates_inputsOf _ _)
  have hS : ({ band := "S", warm := true } : WinterArgs XR) = { warm := true } := rfl
  rw [hS] at e1
  rw [e1, e2] at h
  have hrr : r2 = r1 := by
    simp only [Except.ok.injEq, Option.some.injEq, Prod.mk.injEq] at h; exact h.2
  subst hrr
  cases r2 with
  | nil => simp at l1
  | cons row rest =>
    have a := c2 row (by simp)
    obtain ⟨_, b⟩ := c1 row (by simp)
    obtain ⟨r, hr, _⟩ := b XR.nan (by rw [a]; simp)
    cases hr

end Csu.Fhc
