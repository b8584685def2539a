import Verif.Props.Fhc5
/-!
# C26, C27, C81: trapezoids in the classifier, temperature factor
-/
namespace Csu.Fhc
open Csu PyFloat Tables XR FhcSpec TrapSpec

/-! ## C26 -/

/-- C26: `use_trap` has no effect with the hybrid method: same result (or same error) for every input, in any
arithmetic. -/
theorem C26_hybrid_no_effect {α : Type} [PyFloat α] (A : SummerArgs α) (I : Inputs α) (trap : Bool)
    (hm : methodOf A.method = some true) : csuFhcSummer { A with useTrap := trap } I = csuFhcSummer A I := by
  have h : summerRows { A with useTrap := trap } I = summerRows A I := by
    unfold summerRows
    cases hd : I.dz with
    | none => rfl
    | some dz =>
      simp only [bind, Except.bind, hm]
      generalize (if I.T.isNone = true then false else A.useTemp) = u
      cases hs : (getMbfSets .summer u A.tempFactor A.band : Except PyErr (Sets α)) with
      | error e => rfl
      | ok sets =>
        simp only
        have : ∀ l, getTestList (mkCfg I dz u (fun k _ => A.weights k) sets true trap) l =
            getTestList (mkCfg I dz u (fun k _ => A.weights k) sets true A.useTrap) l := by
          intro l
          apply mapM_congr'
          intro c _
          have hp : polTest (mkCfg I dz u (fun k _ => A.weights k) sets true trap) c =
              polTest (mkCfg I dz u (fun k _ => A.weights k) sets true A.useTrap) c := by
            rw [polTest_hybrid _ rfl, polTest_hybrid _ rfl]; rfl
          unfold testFor
          rw [hp]; rfl
        rw [this]
  unfold csuFhcSummer
  rw [h]

theorem trapVal_fin (c : Nat) (hc : c < 10) (x : ℝ) : trapVal c (fin x) = fin (curve c x) := by
  unfold trapVal
  rw [show ([fin x] : List XR) = [x].map fin from rfl, Traps.finite_values c hc [x]]
  rfl

theorem gScore_trap {C : Cfg XR} {P : Key → Bool} {w : Key → ℝ} {B : Key → Bell} {c : Nat} (hc : c < 10)
    (h : FinCfg C P w B c) (ht : C.trap = true) (hh : C.hybrid = false)
    (hw : totalWeight false P C.useTemp w ≠ 0) (x : Key → ℝ) :
    gScore C c (fun k => fin (x k)) =
      fin (linearTrapScore P C.useTemp w (fun k => (B k).mu (x k)) (curve c (x .T))) := by
  unfold gScore
  simp only [hh, Bool.false_eq_true, if_false]
  unfold gPol
  rw [weightSum_fin h, usedKeys_fin h, hh]
  simp only [Bool.false_eq_true, if_false]
  rw [npSum_fin' _ _ (fun k => if k = .T then curve c (x .T) else w k * (B k).mu (x k)), fdiv hw]
  · rfl
  · intro k hk
    have hk2 := (List.mem_filter.mp hk).2
    unfold gTerm
    by_cases hkT : k = .T
    · simp [ht, hkT, trapVal_fin c hc]
    · have hv : C.vars k = 1 := by rw [h.vars]; simp [hk2, hkT]
      simp [hkT, hv, h.w, gMember_fin h k hk2 (fun e => absurd e hkT)]

/-- C81, what holds for the linear method: the exact scores returned with trapezoids on, at finite gates. -/
theorem C81_linear_scores_partial (A : SummerArgs XR) (I : Inputs XR) (P : Key → Bool) (xs : List (Key → ℝ))
    (w : Key → ℝ) (f : ℝ) (hA : GoodCall A P false) (hn : A.nTypes = 10) (hret : A.returnScores = true)
    (htrap : A.useTrap = true) (hf : 0 < f) (hfe : A.tempFactor = fin f) (hw : ∀ k, A.weights k = fin (w k))
    (hwt : totalWeight false P (P .T && A.useTemp) w ≠ 0) (h : IsGates I P (xs.map (fun x k => fin (x k)))) :
    ∃ shape, csuFhcSummer A I = .ok (some (.scores shape ((List.range 10).map (fun c => xs.map (fun x =>
      fin (linearTrapScore P (P .T && A.useTemp) w (fun k => (bellT A.band .summer f k c).mu (x k))
        (curve c (x .T)))))))) := by
  obtain ⟨dz, _, h2⟩ := summer_gates hA hn (by rw [hfe]; exact noZeroWidth_summer hA.band hf) h
  simp only [hret, if_true, htrap] at h2
  refine ⟨10 :: dz.shape, ?_⟩
  rw [h2, hfe]
  congr 3
  apply List.map_congr_left
  intro c hc
  have hc' := List.mem_range.mp hc
  rw [List.map_map]
  apply List.map_congr_left
  intro x _
  exact gScore_trap hc' (finCfg (goodAt_summer hA.band P c hc') hf hA.dz A.useTemp w (fun k _ => A.weights k) hw false true)
    rfl rfl hwt x

theorem linearTrap_bounded (P : Key → Bool) (w μ : Key → ℝ) (c : Nat) (T : ℝ) (hT : P .T = true)
    (hw0 : ∀ k, 0 ≤ w k) (hwT : 1 ≤ w .T) (h0 : ∀ k, 0 ≤ μ k) (h1 : ∀ k, μ k ≤ 1) :
    -1 ≤ linearTrapScore P true w μ (curve c T) ∧ linearTrapScore P true w μ (curve c T) ≤ 1 := by
  obtain ⟨c0, c1⟩ := Traps.curve_bounds c T
  have hf : allKeys.filter (fun k => P k && (k != .T || true)) = allKeys.filter P := by
    apply List.filter_congr; intro k _; simp
  unfold linearTrapScore
  rw [hf]
  have hmem : Key.T ∈ allKeys.filter P := List.mem_filter.mpr ⟨mem_allKeys _, hT⟩
  have hs : 0 < ((allKeys.filter P).map w).sum :=
    sum_pos_of _ _ (fun k _ => hw0 k) ⟨.T, hmem, by linarith⟩
  constructor
  · have hneg : ((allKeys.filter P).map (fun k => -1 * w k)).sum = -1 * ((allKeys.filter P).map w).sum :=
      List.sum_map_mul_left ..
    rw [le_div_iff₀ hs, ← hneg]
    apply List.sum_le_sum
    intro k _
    split_ifs with hk
    · subst hk; linarith
    · have := hw0 k; have := mul_nonneg this (h0 k); linarith
  · rw [div_le_one hs]
    apply List.sum_le_sum
    intro k _
    split_ifs with hk
    · subst hk; linarith
    · have := hw0 k; have := h1 k; nlinarith

/-- C81, a bound that does hold: if the temperature weight is at least 1 (and the others are not negative, and
`use_temp` is on), scores with trapezoids lie in [-1,1]. -/
theorem C81_bounded_partial (A : SummerArgs XR) (I : Inputs XR) (P : Key → Bool) (xs : List (Key → ℝ))
    (w : Key → ℝ) (f : ℝ) (hA : GoodCall A P false) (hn : A.nTypes = 10) (hret : A.returnScores = true)
    (htrap : A.useTrap = true) (htemp : A.useTemp = true) (hT : P .T = true) (hf : 0 < f) (hfe : A.tempFactor = fin f)
    (hw : ∀ k, A.weights k = fin (w k)) (hw0 : ∀ k, 0 ≤ w k) (hwT : 1 ≤ w .T)
    (h : IsGates I P (xs.map (fun x k => fin (x k)))) :
    ∃ shape rows, csuFhcSummer A I = .ok (some (.scores shape rows)) ∧ rows.length = 10 ∧
      ∀ row ∈ rows, ∀ v ∈ row, ∃ r : ℝ, v = fin r ∧ -1 ≤ r ∧ r ≤ 1 := by
  have hwt : totalWeight false P (P .T && A.useTemp) w ≠ 0 := by
    apply (sum_pos_of _ _ (fun k _ => hw0 k) ⟨.T, ?_, by linarith⟩).ne'
    exact List.mem_filter.mpr ⟨mem_allKeys _, by simp [hT, htemp]⟩
  obtain ⟨shape, h1⟩ := C81_linear_scores_partial A I P xs w f hA hn hret htrap hf hfe hw hwt h
  refine ⟨_, _, h1, by simp, ?_⟩
  intro row hrow v hv
  obtain ⟨c, _, rfl⟩ := List.mem_map.mp hrow
  obtain ⟨x, _, rfl⟩ := List.mem_map.mp hv
  rw [hT, htemp]
  exact ⟨_, rfl, linearTrap_bounded P w _ c _ hT hw0 hwT (fun k => (mu_pos _ _).le) (fun k => mu_le_one _ _)⟩

/-- a call to which `C81_bounded_partial` applies: default weights with the temperature weight raised to 2 -/
example : GoodCall (SummerArgs.mk true (fun k => if k = .T then (2 : XR) else defaultWeights k) "linear" true 10 1 "S" true)
    (fun _ => true) false :=
  ⟨by simp [bands], by show methodOf "linear" = _; decide, rfl, by intro _; decide, fun _ _ => Or.inr rfl⟩

/-- The full claim for the linear method: scores with trapezoids lie in [-1,1] ... -/
def C81Bounded : Prop := ∀ (P : Key → Bool) (xs : List (Key → ℝ)) (rows : List (List XR)) (shape : List Nat),
  csuFhcSummer ({ method := "linear", useTrap := true, returnScores := true } : SummerArgs XR)
    (inputsOf P (xs.map (fun x k => fin (x k)))) = .ok (some (.scores shape rows)) →
  ∀ row ∈ rows, ∀ v ∈ row, ∃ r : ℝ, v = fin r ∧ -1 ≤ r ∧ r ≤ 1

/-- ... and `use_temp=False` removes temperature: two gates that differ in temperature only get the same scores. -/
def C81TempOff : Prop := ∀ (P : Key → Bool) (x y : Key → ℝ) (rows : List (List XR)) (shape : List Nat),
  csuFhcSummer ({ method := "linear", useTrap := true, useTemp := false, returnScores := true } : SummerArgs XR)
    (inputsOf P ([x, y].map (fun x k => fin (x k)))) = .ok (some (.scores shape rows)) →
  (∀ k, k ≠ .T → x k = y k) → ∀ row ∈ rows, ∃ v, row = [v, v]

theorem trapGood (u : Bool) :
    GoodCall ({ method := "linear", useTrap := true, useTemp := u, returnScores := true } : SummerArgs XR)
      (fun _ => true) false :=
  ⟨by simp [bands], by show methodOf "linear" = _; decide, rfl, by intro _; decide, fun _ _ => Or.inr rfl⟩

/-- C81 is false of the code: a warm rain prototype scores 5.6/5.0 as rain. -/
theorem C81_bounded_false : ¬ C81Bounded := by
  intro hf
  have hgood := trapGood true
  obtain ⟨shape, h⟩ := C81_linear_scores_partial _
    (inputsOf (fun _ => true) ([fun k => if k = .T then 25 else (bell "S" .summer k 1).m].map (fun x k => fin (x k))))
    (fun _ => true) [fun k => if k = .T then 25 else (bell "S" .summer k 1).m] defaultW 1 hgood rfl rfl rfl one_pos
    (by show (1 : XR) = _; simp) defaultW_eq
    (by simp [totalWeight, allKeys, defaultW]; norm_num) (isGates_inputsOf _ _)
  obtain ⟨r, hr, _, hr1⟩ := hf _ _ _ _ h _ (List.mem_map.mpr ⟨1, by simp, rfl⟩) _
    (List.mem_map.mpr ⟨_, List.mem_singleton_self _, rfl⟩)
  rw [fin_inj] at hr
  rw [← hr] at hr1
  have hmu : ∀ k, k ≠ .T → (bellT "S" .summer 1 k 1).mu (bell "S" .summer k 1).m = 1 := by
    intro k hk
    have hg := bellT_good (band := "S") (by simp [bands]) one_pos k 1 (by norm_num)
    have e : (bell "S" .summer k 1).m = (bellT "S" .summer 1 k 1).m := by simp [bellT, hk]
    rw [e]; exact mu_centre _ hg.2
  have hb : ({ method := "linear", useTrap := true, useTemp := true, returnScores := true } : SummerArgs XR).band = "S" :=
    rfl
  rw [hb] at hr1
  simp [linearTrapScore, allKeys, defaultW, hmu, curve] at hr1
  norm_num at hr1

/-- C81 is false of the code: with `use_temp=False` the trapezoid term is still there. -/
theorem C81_temp_off_false : ¬ C81TempOff := by
  intro hf
  have hgood := trapGood false
  obtain ⟨shape, h⟩ := C81_linear_scores_partial _
    (inputsOf (fun _ => true) ([fun k => if k = .T then 25 else 30, fun k => if k = .T then -25 else 30].map
      (fun x k => fin (x k))))
    (fun _ => true) [fun k => if k = .T then 25 else 30, fun k => if k = .T then -25 else 30] defaultW 1 hgood rfl rfl rfl
    one_pos (by show (1 : XR) = _; simp) defaultW_eq
    (by simp [totalWeight, allKeys, defaultW]; norm_num) (isGates_inputsOf _ _)
  obtain ⟨v, hv⟩ := hf _ _ _ _ _ h (by intro k hk; simp [hk]) _ (List.mem_map.mpr ⟨1, by simp, rfl⟩)
  simp only [List.map_cons, List.map_nil, List.cons.injEq, and_true] at hv
  have := hv.1.trans hv.2.symm
  rw [fin_inj] at this
  simp [linearTrapScore, allKeys, defaultW, curve] at this
  norm_num at this

/-! ## C27 -/

/-- temperature membership with a factor, as the code computes it -/
theorem bellT_mu (band : String) (f : ℝ) (hf : 0 < f) (c : Nat) (t : ℝ) :
    (bellT band .summer f .T c).mu t =
      1 / (1 + (((f * t - (bell band .summer .T c).m) / (bell band .summer .T c).a) ^ 2) ^
        ((bell band .summer .T c).b / f)) := by
  simp only [bellT, if_true, Bell.scale, Bell.mu]
  congr 4
  field_simp

/-- C27, what the code does: with only reflectivity and temperature supplied (hybrid method) every score is the
reflectivity membership times a bell centred at `m/f` with half-width `a/f` and slope `b/f`, where `m`, `a`, `b` are the
tabulated values. -/
theorem C27_scores_partial (band : String) (hb : band ∈ bands) (f : ℝ) (hf : 0 < f) (xs : List (Key → ℝ)) :
    ∃ shape, csuFhcSummer ({ band := band, tempFactor := fin f, returnScores := true } : SummerArgs XR)
      (inputsOf (fun k => k == .DZ || k == .T) (xs.map (fun x k => fin (x k)))) =
      .ok (some (.scores shape ((List.range 10).map (fun c => xs.map (fun x =>
        let m := (bell band .summer .T c).m
        let a := (bell band .summer .T c).a
        let b := (bell band .summer .T c).b
        fin (1 / (1 + (((x .T - m / f) / (a / f)) ^ 2) ^ (b / f)) * (bell band .summer .DZ c).mu (x .DZ))))))) := by
  have hA : GoodCall ({ band := band, tempFactor := fin f, returnScores := true } : SummerArgs XR)
      (fun k => k == .DZ || k == .T) true :=
    ⟨hb, by show methodOf "hybrid" = _; decide, rfl, by simp, by simp⟩
  obtain ⟨dz, _, h⟩ := summer_fin (w := defaultW) hA rfl hf rfl defaultW_eq (by simp) (by
    intro _ h; exact absurd (by decide) h) (by simp) (isGates_inputsOf _ (xs.map (fun x k => fin (x k))))
  refine ⟨10 :: dz.shape, ?_⟩
  rw [h]
  simp only [if_true]
  congr 3
  apply List.map_congr_left
  intro c _
  apply List.map_congr_left
  intro x _
  have hp : pol.filter (fun k => k == .DZ || k == .T) = [] := by decide
  simp [score, hybridScore, hp, effTemp, bellT, Bell.mu, Bell.scale]

/-- The full claim: a factor above 1 leaves the centre (the temperature of membership 1) where it was and raises the
membership elsewhere. -/
def C27Full : Prop := ∀ (band : String), band ∈ bands → ∀ f : ℝ, 1 < f → ∀ c, c < 10 → ∀ x : ℝ × ℝ,
  ∀ shape shape' rows rows',
  csuFhcSummer ({ band := band, tempFactor := fin f, returnScores := true } : SummerArgs XR)
      (inputsOf (fun k => k == .DZ || k == .T) [fun k => fin (if k = .T then x.2 else x.1)]) =
      .ok (some (.scores shape rows)) →
  csuFhcSummer ({ band := band, tempFactor := fin 1, returnScores := true } : SummerArgs XR)
      (inputsOf (fun k => k == .DZ || k == .T) [fun k => fin (if k = .T then x.2 else x.1)]) =
      .ok (some (.scores shape' rows')) →
  ∃ s s' : ℝ, rows.getD c [] = [fin s] ∧ rows'.getD c [] = [fin s'] ∧ s' ≤ s

/-- C27: the centre moves from `m` to `m/f`, so it stays exactly when `f = 1` or the centre is at 0 degrees. -/
theorem C27_centre_moves (band : String) (f : ℝ) (hf : 0 < f) (c : Nat) :
    (bellT band .summer f .T c).m = (bell band .summer .T c).m ↔ f = 1 ∨ (bell band .summer .T c).m = 0 := by
  simp only [bellT, if_true, Bell.scale]
  rw [div_eq_iff hf.ne']
  constructor
  · intro h
    by_cases hm : (bell band .summer .T c).m = 0
    · right; exact hm
    · left
      have : (bell band .summer .T c).m * (f - 1) = 0 := by linarith
      rcases mul_eq_zero.mp this with h | h
      · exact absurd h hm
      · linarith
  · rintro (rfl | h)
    · ring
    · rw [h]; ring

/-- C27 is false of the code: with `temp_factor=2` the S-band rain membership at its tabulated centre (25 degrees)
drops below 1. -/
theorem C27_full_false : ¬ C27Full := by
  intro hf
  have hb : "S" ∈ bands := by simp [bands]
  have hT : bell "S" .summer .T 1 = ⟨(bell "S" .summer .T 1).m, (bell "S" .summer .T 1).a, (bell "S" .summer .T 1).b⟩ := rfl
  have hm : (bell "S" .summer .T 1).m ≠ 0 := by
    simp [bell, csv, csvS, tabS_summer_T, bellOf]
  let m := (bell "S" .summer .T 1).m
  let z := (bell "S" .summer .DZ 1).m
  obtain ⟨sh1, h1⟩ := C27_scores_partial "S" hb 2 (by norm_num) [fun k => if k = .T then m else z]
  obtain ⟨sh2, h2⟩ := C27_scores_partial "S" hb 1 (by norm_num) [fun k => if k = .T then m else z]
  obtain ⟨s, s', e1, e2, hle⟩ := hf "S" hb 2 (by norm_num) 1 (by norm_num) (z, m) _ _ _ _ h1 h2
  have g1 := bellT_good hb (f := 2) (by norm_num) .T 1 (by norm_num)
  have g2 := bellT_good hb (f := 1) (by norm_num) .T 1 (by norm_num)
  have g3 := bellT_good hb (f := 1) (by norm_num) .DZ 1 (by norm_num)
  have hz : (bell "S" .summer .DZ 1).mu z = 1 := mu_centre _ (by simpa [bellT] using g3.2)
  simp only [List.map_cons, List.map_nil, List.getD, List.getElem?_map] at e1 e2
  simp [hz] at e1 e2
  have hlt : (bellT "S" .summer 2 .T 1).mu m < 1 := by
    apply mu_lt_one _ g1.1
    intro e
    rcases (C27_centre_moves "S" 2 (by norm_num) 1).mp e.symm with h | h
    · norm_num at h
    · exact hm h
  have heq : (bellT "S" .summer 1 .T 1).mu m = 1 := by
    have : m = (bellT "S" .summer 1 .T 1).m := by simp [bellT, Bell.scale, m]
    rw [this]; exact mu_centre _ g2.2
  simp only [bellT, if_true, Bell.scale, Bell.mu, one_div] at hlt heq
  simp only [m, div_one] at *
  linarith

end Csu.Fhc
