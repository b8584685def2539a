import Verif.Props.RunWinter
/-!
# C120-C123: the winter and melting-layer classifiers gate by gate, their weights, their failures, and NaN
-/
namespace Csu.Fhc
open Csu PyFloat Tables XR FhcSpec

/-! ## C120: exact scores, gate by gate -/

/-- **C120**: the score rows of `csu_fhc_winter`: for every number of finite gates and every shape, row `j` holds the weighted
means (linear method) or products (hybrid method) of the bells of species 4 and 5 (warm) or 0 to 3 (cold), in that
order, with the weights of that species; the array has shape (number of species, shape of the reflectivity). -/
theorem C120_winter_scores (A : WinterArgs XR) (I : Inputs XR) (P : Key → Bool) (xs : List (Key → ℝ)) (hybrid : Bool)
    (w : Key → Nat → ℝ) (f : ℝ) (hA : GoodWinter A P hybrid) (hR : P .RH = false) (hL : P .LD = false)
    (hf : 0 < f) (hfe : A.tempFactor = fin f) (hw : ∀ k c, A.weights k c = fin (w k c))
    (hgw : ∀ c ∈ (if A.warm then [4, 5] else [0, 1, 2, 3]), GoodWeights hybrid P A.useTemp (fun k => w k c))
    (h : IsGates I P (xs.map (fun x k => fin (x k)))) :
    ∃ dz, I.dz = some dz ∧ csuFhcWinter A I = .ok (some ((if A.warm then 2 else 4) :: dz.shape,
      (if A.warm then [4, 5] else [0, 1, 2, 3]).map (fun c => xs.map (fun x =>
        fin (score hybrid P (P .T && A.useTemp) (fun k => w k c) (fun k => (bellT A.band .winter f k c).mu (x k))))))) := by
  obtain ⟨dz, h1, h2⟩ := winter_fin hA hR hL hf hfe hw
    (fun e hp c hc => by subst e; exact ((hgw c hc).total_hyb hp).ne')
    (fun e c hc => by subst e; exact (hgw c hc).total_lin.ne') h
  refine ⟨dz, h1, ?_⟩
  rw [h2]
  cases A.warm <;> rfl

/-- **C120**: the score rows of `csu_fhc_cold_newml1`, likewise, for the two species of the melting-layer tables. -/
theorem C120_ml_scores (A : MlArgs XR) (I : Inputs XR) (P : Key → Bool) (xs : List (Key → ℝ)) (hybrid : Bool)
    (w : Key → Nat → ℝ) (f : ℝ) (hA : GoodMl A P hybrid) (hn : A.nTypes = 2)
    (hf : 0 < f) (hfe : A.tempFactor = fin f) (hw : ∀ k c, A.weights k c = fin (w k c))
    (hgw : ∀ c ∈ [0, 1], GoodWeights hybrid P A.useTemp (fun k => w k c))
    (h : IsGates I P (xs.map (fun x k => fin (x k)))) :
    ∃ dz, I.dz = some dz ∧ csuFhcMl A I = .ok (some (2 :: dz.shape,
      [0, 1].map (fun c => xs.map (fun x =>
        fin (score hybrid P (P .T && A.useTemp) (fun k => w k c) (fun k => (bellT A.band .ml f k c).mu (x k))))))) :=
  ml_fin hA hn hf hfe hw
    (fun e hp c hc => by subst e; exact ((hgw c (by interval_cases c <;> simp)).total_hyb hp).ne')
    (fun e c hc => by subst e; exact (hgw c (by interval_cases c <;> simp)).total_lin.ne') h

/-- the default call of the winter classifier, cold, at C band, with reflectivity and differential reflectivity: the score of
dendrites (species 2) is (9 mu_DR + 5 mu_DZ)/14 -/
example (z d : ℝ) : ∃ rows, csuFhcWinter ({ band := "C" } : WinterArgs XR)
      (inputsOf (fun k => k == .DZ || k == .DR) ([fun k => if k = .DZ then z else d].map (fun x k => fin (x k)))) =
        .ok (some ([4, 1], rows)) ∧
      rows[2]? = some [fin ((9 * (bell "C" .winter .DR 2).mu d + 5 * (bell "C" .winter .DZ 2).mu z) / 14)] := by
  obtain ⟨dz, h1, h2⟩ := C120_winter_scores ({ band := "C" } : WinterArgs XR) _ (fun k => k == .DZ || k == .DR)
    [fun k => if k = .DZ then z else d] false winterW 1
    ⟨by simp [bands], by show methodOf "linear" = _; decide, rfl, by intro _; decide, fun _ _ => rfl⟩ rfl rfl one_pos
    (by show (1 : XR) = _; simp) winterW_eq (goodWeights_winter _ true rfl false) (isGates_inputsOf _ _)
  rw [inputsOf_dz _ _ rfl] at h1
  cases h1
  refine ⟨_, h2, ?_⟩
  simp [score, linearScore, wmean, allKeys, winterW, bellT, Bell.scale]
  norm_num

section gatewise
variable {α : Type} [PyFloat α]

/-- **C120**: the scores of a gate depend on that gate only, in any arithmetic (`csu_fhc_winter`). -/
theorem C120_winter_gatewise (A : WinterArgs α) (P : Key → Bool) (hybrid : Bool) (hA : GoodWinter A P hybrid)
    (hw : NoZeroWidth α .winter A.band A.tempFactor) :
    ∃ sc : Nat → (Key → α) → α, ∀ (I : Inputs α) (gs : List (Key → α)), IsGates I P gs →
      ∃ dz, I.dz = some dz ∧ csuFhcWinter A I = .ok (some ((if A.warm then 2 else 4) :: dz.shape,
        (if A.warm then [4, 5] else [0, 1, 2, 3]).map (fun c => gs.map (sc c)))) := by
  refine ⟨fun c => gScore (cfg P A.useTemp A.weights (setsOf .winter (effTemp P A.useTemp) A.tempFactor A.band) hybrid false) c, ?_⟩
  intro I gs h
  obtain ⟨dz, h1, h2⟩ := winter_gates hA hw h
  refine ⟨dz, h1, ?_⟩
  rw [h2]
  cases A.warm <;> rfl

/-- **C120**: the scores of a gate depend on that gate only, in any arithmetic (`csu_fhc_cold_newml1`). -/
theorem C120_ml_gatewise (A : MlArgs α) (P : Key → Bool) (hybrid : Bool) (hA : GoodMl A P hybrid) (hn : A.nTypes = 2)
    (hw : NoZeroWidth α .ml A.band A.tempFactor) :
    ∃ sc : Nat → (Key → α) → α, ∀ (I : Inputs α) (gs : List (Key → α)), IsGates I P gs →
      ∃ dz, I.dz = some dz ∧ csuFhcMl A I = .ok (some (2 :: dz.shape, [0, 1].map (fun c => gs.map (sc c)))) := by
  refine ⟨fun c => gScore (cfg P A.useTemp A.weights (setsOf .ml (effTemp P A.useTemp) A.tempFactor A.band) hybrid false) c, ?_⟩
  intro I gs h
  exact ml_gates hA hn hw h

/-- **C120**: classifying the gates of two sets together gives the scores of each set, one after the other, for both
classifiers. -/
theorem C120_concat (gs gs' : List (Key → α)) (P : Key → Bool) (hybrid : Bool) :
    (∀ A : WinterArgs α, GoodWinter A P hybrid → NoZeroWidth α .winter A.band A.tempFactor →
      ∃ r r', csuFhcWinter A (inputsOf P gs) = .ok (some ([if A.warm then 2 else 4, gs.length], r)) ∧
        csuFhcWinter A (inputsOf P gs') = .ok (some ([if A.warm then 2 else 4, gs'.length], r')) ∧
        csuFhcWinter A (inputsOf P (gs ++ gs')) =
          .ok (some ([if A.warm then 2 else 4, gs.length + gs'.length], List.zipWith (· ++ ·) r r'))) ∧
    (∀ A : MlArgs α, GoodMl A P hybrid → A.nTypes = 2 → NoZeroWidth α .ml A.band A.tempFactor →
      ∃ r r', csuFhcMl A (inputsOf P gs) = .ok (some ([2, gs.length], r)) ∧
        csuFhcMl A (inputsOf P gs') = .ok (some ([2, gs'.length], r')) ∧
        csuFhcMl A (inputsOf P (gs ++ gs')) = .ok (some ([2, gs.length + gs'.length], List.zipWith (· ++ ·) r r'))) := by
  constructor
  · intro A hA hw
    obtain ⟨sc, h⟩ := C120_winter_gatewise A P hybrid hA hw
    have key : ∀ gs, csuFhcWinter A (inputsOf P gs) = .ok (some ([if A.warm then 2 else 4, gs.length],
        (if A.warm then [4, 5] else [0, 1, 2, 3]).map (fun c => gs.map (sc c)))) := by
      intro gs
      obtain ⟨dz, h1, h2⟩ := h (inputsOf P gs) gs (isGates_inputsOf P gs)
      rw [inputsOf_dz P gs hA.dz] at h1
      cases h1
      rw [h2]
    refine ⟨_, _, key gs, key gs', ?_⟩
    rw [key, zipWith_map_map]
    simp only [List.map_append, List.length_append]
  · intro A hA hn hw
    obtain ⟨sc, h⟩ := C120_ml_gatewise A P hybrid hA hn hw
    have key : ∀ gs, csuFhcMl A (inputsOf P gs) = .ok (some ([2, gs.length], [0, 1].map (fun c => gs.map (sc c)))) := by
      intro gs
      obtain ⟨dz, h1, h2⟩ := h (inputsOf P gs) gs (isGates_inputsOf P gs)
      rw [inputsOf_dz P gs hA.dz] at h1
      cases h1
      rw [h2]
    refine ⟨_, _, key gs, key gs', ?_⟩
    rw [key, zipWith_map_map]
    simp only [List.map_append, List.length_append]

end gatewise

/-! ## C121: weights act only by ratio, species by species -/

/-- a species' score uses the weights of that species only -/
theorem testFor_own (C : Cfg XR) (c : Nat) : testFor C c = testFor { C with w := fun k _ => C.w k c } c := rfl

theorem testFor_ratio (C : Cfg XR) (w : Key → Nat → ℝ) (hC : ∀ k c, C.w k c = fin (w k c)) (lam : Nat → ℝ) (c : Nat)
    (hl : 0 < lam c) (ht : C.trap = false) :
    testFor { C with w := fun k c => fin (lam c * w k c) } c = testFor C c := by
  rw [testFor_own, testFor_own C]
  have := testFor_sc (C := { C with w := fun k _ => C.w k c }) (w := fun k => w k c) hl (fun k _ => hC k c) (fun _ => ht) c
  exact this

/-- **C121**: multiplying all the weights of a species by a positive constant — a different one for each species, if one
likes — changes nothing in either classifier: same scores, same errors, for every input, band, method and flag. -/
theorem C121_weight_ratio (I : Inputs XR) (w : Key → Nat → ℝ) (lam : Nat → ℝ) (hl : ∀ c, 0 < lam c) :
    (∀ A : WinterArgs XR, (∀ k c, A.weights k c = fin (w k c)) →
      csuFhcWinter { A with weights := fun k c => fin (lam c * w k c) } I = csuFhcWinter A I) ∧
    (∀ A : MlArgs XR, (∀ k c, A.weights k c = fin (w k c)) →
      csuFhcMl { A with weights := fun k c => fin (lam c * w k c) } I = csuFhcMl A I) := by
  have key : ∀ (dz : NdArray XR) (u : Bool) (W : Key → Nat → XR) (sets : Sets XR) (hyb : Bool) (l : List Nat),
      (∀ k c, W k c = fin (w k c)) →
      getTestList (mkCfg I dz u (fun k c => fin (lam c * w k c)) sets hyb false) l =
        getTestList (mkCfg I dz u W sets hyb false) l := by
    intro dz u W sets hyb l hW
    apply mapM_congr'
    intro c _
    exact testFor_ratio (mkCfg I dz u W sets hyb false) w hW lam c (hl c) rfl
  constructor
  · intro A hw
    unfold csuFhcWinter
    cases I.dz with
    | none => rfl
    | some dz =>
      simp only [bind, Except.bind]
      cases (getMbfSets .winter (if I.T.isNone = true then false else A.useTemp) A.tempFactor A.band : Except PyErr (Sets XR)) with
      | error e => rfl
      | ok sets =>
        cases methodOf A.method with
        | none => rfl
        | some hyb => simp only [key _ _ _ _ _ _ hw]
  · intro A hw
    unfold csuFhcMl
    cases I.dz with
    | none => rfl
    | some dz =>
      simp only [bind, Except.bind]
      cases (getMbfSets .ml (if I.T.isNone = true then false else A.useTemp) A.tempFactor A.band : Except PyErr (Sets XR)) with
      | error e => rfl
      | ok sets =>
        cases methodOf A.method with
        | none => rfl
        | some hyb => simp only [key _ _ _ _ _ _ hw]

/-- the default winter weights, those of species `c` multiplied by `c + 1` -/
example (I : Inputs XR) : csuFhcWinter { ({} : WinterArgs XR) with weights := fun k c => fin (((c : ℝ) + 1) * winterW k c) } I =
    csuFhcWinter {} I :=
  (C121_weight_ratio I winterW (fun c => (c : ℝ) + 1) (fun c => by positivity)).1 {} winterW_eq

/-! ## C122: failures -/

section failures
variable {α : Type} [PyFloat α]

/-- **C122**: without reflectivity both classifiers return None. -/
theorem C122_no_dz (I : Inputs α) (h : I.dz = none) :
    (∀ A : WinterArgs α, csuFhcWinter A I = .ok none) ∧ (∀ A : MlArgs α, csuFhcMl A I = .ok none) := by
  constructor <;> intro A <;> simp [csuFhcWinter, csuFhcMl, h]

/-- **C122**: a band without parameter files makes both raise FileNotFoundError (if there is reflectivity). -/
theorem C122_bad_band (I : Inputs α) (dz : NdArray α) (hd : I.dz = some dz) :
    (∀ A : WinterArgs α, A.band ∉ bands → csuFhcWinter A I = .error .fileNotFoundError) ∧
    (∀ A : MlArgs α, A.band ∉ bands → csuFhcMl A I = .error .fileNotFoundError) := by
  have key : ∀ (b : String) (s : Season), b ∉ bands → (csv b s .DZ).isNone = true := by
    intro b s hb
    cases h : csv b s .DZ with
    | none => rfl
    | some r => exact absurd ((C19_bands b s .DZ).mp (by simp [h])) hb
  constructor
  · intro A hb
    simp only [csuFhcWinter, hd, bind, Except.bind, getMbfSets, key _ _ hb, if_true]
  · intro A hb
    simp only [csuFhcMl, hd, bind, Except.bind, getMbfSets, key _ _ hb, if_true]

/-- **C122**: `n_types` other than 2 makes the melting-layer classifier raise ValueError as soon as there is a gate. -/
theorem C122_bad_n_types (A : MlArgs α) (I : Inputs α) (P : Key → Bool) (hybrid : Bool) (hA : GoodMl A P hybrid)
    (hw : NoZeroWidth α .ml A.band A.tempFactor) (g : Key → α) (gs : List (Key → α)) (hn : A.nTypes ≠ 2)
    (h : IsGates I P (g :: gs)) : csuFhcMl A I = .error .valueError := by
  obtain ⟨dz, hd, hdz⟩ := h.dz hA.dz
  have hu : (if I.T.isNone then false else A.useTemp) = effTemp P A.useTemp := by
    rw [h.T_isNone]; cases hp : P .T <;> simp [effTemp, hp]
  have hlen : ((setsOf .ml (effTemp P A.useTemp) A.tempFactor A.band .DZ).getD []).length = 2 := by
    obtain ⟨rows, h1, h2, _⟩ := C19_ml A.band hA.band .DZ
    rw [setsOf_eq _ _ _ _ _ (by simp), h1]
    simpa [getBetaSet] using h2
  have hl := list_gates .ml A.band A.tempFactor 2 hA.band (length_ml hA.band) hw h hA.dz dz hdz A.useTemp A.weights
    hybrid hA.lin hA.linT [0, 1] (by simp)
  have hr : List.range 2 = [0, 1] := by decide
  have hpos : 0 < dz.data.length := by rw [hdz]; simp
  have hne : 2 * dz.data.length ≠ A.nTypes * dz.data.length := fun e => hn (Nat.eq_of_mul_eq_mul_right hpos e).symm
  simp only [csuFhcMl, hd, hu, getMbfSets_ok .ml (effTemp P A.useTemp) A.tempFactor A.band
    (isSome_of_mem hA.band _ _), hA.method, bind, Except.bind, hlen, hr, hl]
  rw [if_pos]
  simpa using hne

/-- the condition of C122_bad_n_types on the tables holds for the default call -/
example : NoZeroWidth XR .ml "S" 1 := by
  have := noZeroWidth_ml (band := "S") (by simp [bands]) one_pos
  rwa [← fone] at this

/-- **C122**: the linear method without any polarimetric variable makes both raise UnboundLocalError, whatever the number
of gates. -/
theorem C122_linear_no_pol (I : Inputs α) (P : Key → Bool) (gs : List (Key → α)) (hP : P .DZ = true)
    (hpol : ∀ k ∈ pol, P k = false) (h : IsGates I P gs) :
    (∀ A : WinterArgs α, A.band ∈ bands → methodOf A.method = some false → csuFhcWinter A I = .error .unboundLocalError) ∧
    (∀ A : MlArgs α, A.band ∈ bands → methodOf A.method = some false → csuFhcMl A I = .error .unboundLocalError) := by
  refine ⟨fun A hb hm => C31_needs_pol A I P gs hb hm hP hpol h, fun A hb hm => ?_⟩
  obtain ⟨dz, hd, _⟩ := h.dz hP
  have hu : (if I.T.isNone then false else A.useTemp) = effTemp P A.useTemp := by
    rw [h.T_isNone]; cases hp : P .T <;> simp [effTemp, hp]
  have hp : pol.filter P = [] := by
    rw [List.filter_eq_nil_iff]; intro k hk; simp [hpol k hk]
  have he : ∀ c, testFor (mkCfg I dz (effTemp P A.useTemp) A.weights
      (setsOf .ml (effTemp P A.useTemp) A.tempFactor A.band) false false) c = .error .unboundLocalError := by
    intro c
    have : polFlag (mkCfg I dz (effTemp P A.useTemp) A.weights
        (setsOf .ml (effTemp P A.useTemp) A.tempFactor A.band) false false) = false := by
      rw [polFlag_gates h, hp]; rfl
    unfold testFor
    rw [this]; rfl
  have hlen : ((setsOf .ml (effTemp P A.useTemp) A.tempFactor A.band .DZ).getD []).length = 2 := by
    obtain ⟨rows, h1, h2, _⟩ := C19_ml A.band hb .DZ
    rw [setsOf_eq _ _ _ _ _ (by simp), h1]
    simpa [getBetaSet] using h2
  have hr : List.range 2 = 0 :: [1] := by decide
  simp only [csuFhcMl, hd, hu, getMbfSets_ok .ml (effTemp P A.useTemp) A.tempFactor A.band
    (isSome_of_mem hb _ _), hm, bind, Except.bind, getTestList, hlen, hr]
  rw [mapM_error _ _ _ (he 0)]

/-- **C122**: in all other cases the hybrid method returns scores: any set of variables that includes reflectivity, any
weights. -/
theorem C122_hybrid (I : Inputs α) (P : Key → Bool) (gs : List (Key → α)) (hP : P .DZ = true) (h : IsGates I P gs) :
    (∀ A : WinterArgs α, A.band ∈ bands → methodOf A.method = some true → NoZeroWidth α .winter A.band A.tempFactor →
      ∃ r, csuFhcWinter A I = .ok (some r)) ∧
    (∀ A : MlArgs α, A.band ∈ bands → methodOf A.method = some true → A.nTypes = 2 → NoZeroWidth α .ml A.band A.tempFactor →
      ∃ r, csuFhcMl A I = .ok (some r)) := by
  constructor
  · intro A hb hm hw
    obtain ⟨dz, _, h2⟩ := winter_gates (hybrid := true) ⟨hb, hm, hP, by simp, by simp⟩ hw h
    exact ⟨_, h2⟩
  · intro A hb hm hn hw
    obtain ⟨dz, _, h2⟩ := ml_gates (hybrid := true) ⟨hb, hm, hP, by simp, by simp⟩ hn hw h
    exact ⟨_, h2⟩

end failures

end Csu.Fhc
