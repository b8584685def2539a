import Verif.Props.Csv2
/-!
# C115: scores with parameter files of one's own
-/
namespace Csu.Csv
open Csu PyFloat Tables Fhc CsvSpec XR FhcSpec

/-- In every file that is used, the lines `types` exist, with nonzero width and positive slope. -/
def Usable (tab : Key → List Numbers) (P : Key → Bool) (useTemp : Bool) (types : List Nat) : Prop :=
  ∀ k, P k = true → (k = .T → useTemp = true) → ∀ c ∈ types, ∃ n, (tab k)[c]? = some n ∧ n.a ≠ 0 ∧ 0 < n.b

/-- Arguments for which a call succeeds: a recognised method, reflectivity, a polarimetric variable for 'linear', and the
temperature is used if supplied to 'linear'. -/
structure Works (method : String) (useTemp : Bool) (P : Key → Bool) (hybrid : Bool) : Prop where
  method : methodOf method = some hybrid
  dz : P .DZ = true
  lin : hybrid = false → pol.filter P ≠ []
  linT : hybrid = false → P .T = true → useTemp = true

/-- the weights of the variables in use do not add up to zero -/
structure Weighted (hybrid : Bool) (P : Key → Bool) (useTemp : Bool) (w : Key → ℝ) : Prop where
  hyb : hybrid = true → pol.filter P ≠ [] → totalWeight true P useTemp w ≠ 0
  lin : hybrid = false → totalWeight false P useTemp w ≠ 0

variable {tab : Key → List Numbers} {P : Key → Bool} {xs : List (Key → ℝ)} {hybrid : Bool} {f : ℝ} {I : Inputs XR}

theorem xrow_scaled {n : Numbers} (ha : n.a ≠ 0) (hb : 0 < n.b) {f : ℝ} (hf : 0 < f) :
    (⟨PyFloat.lit n.m / fin f, PyFloat.lit n.a / fin f, PyFloat.lit n.b / fin f⟩ : Row XR) =
      xrow ⟨n.m / f, n.a / f, n.b / f⟩ ∧ (n.a / f : ℝ) ≠ 0 ∧ 0 < (n.b / f : ℝ) := by
  have ha' : (n.a : ℝ) ≠ 0 := by exact_mod_cast ha
  have hb' : (0 : ℝ) < n.b := by exact_mod_cast hb
  refine ⟨?_, div_ne_zero ha' hf.ne', div_pos hb' hf⟩
  simp [xrow, fdiv hf.ne']

/-- the row in the parameter set -/
theorem row_at {useTemp : Bool} {types : List Nat} (hu : Usable tab P useTemp types) (hf : 0 < f) {c : Nat} (hc : c ∈ types)
    (k : Key) (hk : P k = true) (hT : k = .T → useTemp = true) :
    ∃ rows, setsOfTab tab useTemp (fin f) k = some rows ∧ rows[c]? = some (xrow (bellAt tab f k c)) ∧
      (bellAt tab f k c).a ≠ 0 ∧ 0 < (bellAt tab f k c).b := by
  obtain ⟨n, h1, h2, h3⟩ := hu k hk hT c hc
  have hg : (tab k).getD c ⟨0, 0, 0⟩ = n := by simp [h1]
  have hone : (1.0 : XR) = fin 1 := by rw [fsci]; norm_num
  by_cases hkT : k = .T
  · subst hkT
    refine ⟨rowsOf (tab .T) (fin f), by simp [setsOfTab, hT rfl], ?_, ?_⟩
    · have := (xrow_scaled h2 h3 hf).1
      simp only [rowsOf, List.getElem?_map, h1, Option.map_some, this, bellAt, hg, if_true]
    · simp only [bellAt, hg, if_true]
      exact (xrow_scaled h2 h3 hf).2
  · have e := xrow_scaled h2 h3 one_pos
    simp only [div_one] at e
    refine ⟨rowsOf (tab k) 1.0, by cases k <;> first | rfl | exact absurd rfl hkT, ?_, ?_⟩
    · simp only [rowsOf, List.getElem?_map, h1, Option.map_some, hone, e.1, bellAt, hg, if_neg hkT]
    · simp only [bellAt, hg, if_neg hkT]
      exact e.2

theorem ready_tab {method : String} {useTemp : Bool} (hA : Works method useTemp P hybrid) {types : List Nat}
    (hu : Usable tab P (effTemp P useTemp) types) (hf : 0 < f) (h : IsGates I P (xs.map (fun x k => fin (x k))))
    (dz : NdArray XR) (hdz : dz.data = xs.map (fun x => fin (x .DZ))) (W : Key → Nat → XR) {c : Nat} (hc : c ∈ types) :
    Ready (mkCfg I dz (effTemp P useTemp) W (setsOfTab tab (effTemp P useTemp) (fin f)) hybrid false) P
      (xs.map (fun x k => fin (x k))) c where
  data := h
  sz := by show dz.data.length = _; rw [hdz]; simp
  set := by
    intro k hk hT
    obtain ⟨rows, h1, h2, h3, _⟩ := row_at hu hf hc k hk hT
    refine ⟨rows, _, h1, h2, ?_⟩
    simpa [xrow] using h3
  dz := hA.dz
  vdz := by
    show fhcVars I (effTemp P useTemp) .DZ ≠ 0
    rw [h.vars]; simp [hA.dz]
  temp := by
    intro ht
    have : effTemp P useTemp = true := ht
    simp [effTemp] at this; exact this.1
  lin := by
    intro hh
    have := hA.lin hh
    show polFlag _ = true
    unfold polFlag
    have hv : (mkCfg I dz (effTemp P useTemp) W (setsOfTab tab (effTemp P useTemp) (fin f)) hybrid false).vars = _ :=
      funext (h.vars (effTemp P useTemp))
    rw [hv]
    revert this
    cases h1 : P .DR <;> cases h2 : P .KD <;> cases h3 : P .RH <;> cases h4 : P .LD <;>
      simp [FhcSpec.pol, h1, h2, h3, h4]
  linT := by
    intro hh hT
    left; show effTemp P useTemp = true; simp [effTemp, hT, hA.linT hh hT]
  trap := by intro ht; cases ht

/-- the scoring loop on a table -/
theorem tests_tab {method : String} {useTemp : Bool} (hA : Works method useTemp P hybrid) {types : List Nat}
    (hu : Usable tab P (effTemp P useTemp) types) (hf : 0 < f) (h : IsGates I P (xs.map (fun x k => fin (x k))))
    (dz : NdArray XR) (hdz : dz.data = xs.map (fun x => fin (x .DZ))) (W : Key → Nat → XR) (w : Nat → Key → ℝ)
    (hW : ∀ c ∈ types, ∀ k, W k c = fin (w c k))
    (hw : ∀ c ∈ types, Weighted hybrid P (effTemp P useTemp) (w c)) :
    getTestList (mkCfg I dz (effTemp P useTemp) W (setsOfTab tab (effTemp P useTemp) (fin f)) hybrid false) types =
      .ok (types.map (fun c => xs.map (fun x =>
        fin (score hybrid P (effTemp P useTemp) (w c) (fun k => (bellAt tab f k c).mu (x k)))))) := by
  rw [getTestList_ok types (fun c hc => ready_tab hA hu hf h dz hdz W hc)]
  congr 1
  apply List.map_congr_left
  intro c hc
  rw [List.map_map]
  apply List.map_congr_left
  intro x _
  rw [Function.comp, gScore_cfg h]
  have F : FinCfg (cfg P useTemp W (setsOfTab tab (effTemp P useTemp) (fin f)) hybrid false) P (w c)
      (fun k => bellAt tab f k c) c :=
    { data := by intro k; simp only [cfg]; cases P k <;> rfl
      vars := by intro k; rfl
      w := hW c hc
      set := fun k hk hT => row_at hu hf hc k hk hT
      dz := hA.dz
      temp := by
        intro ht
        have : effTemp P useTemp = true := ht
        simp [effTemp] at this; exact this.1 }
  exact gScore_fin F rfl (fun hh hT => by show effTemp P useTemp = true; simp [effTemp, hT, hA.linT hh hT])
    (hw c hc).hyb (hw c hc).lin x

theorem useTemp_eq (h : IsGates I P (xs.map (fun x k => fin (x k)))) (flag : Bool) :
    (if I.T.isNone = true then false else flag) = (P .T && flag) := by
  rw [h.T_isNone]; cases hp : P .T <;> simp

/-- C115: with parameter files of one's own, every score of `csu_fhc_summer` is the weighted-bell score of the numbers in
the files; categories are the first best of them.  The number of species is the number of lines. -/
theorem C115_summer {fs : Files} {d : String} (A : SummerArgs XR) (I : Inputs XR) (P : Key → Bool)
    (xs : List (Key → ℝ)) (hybrid : Bool) (w : Key → ℝ) (f : ℝ) (tab : Key → List Numbers)
    (hA : Works A.method A.useTemp P hybrid) (htrap : A.useTrap = false) (hf : 0 < f) (hfe : A.tempFactor = fin f)
    (hw : ∀ k, A.weights k = fin (w k)) (hww : Weighted hybrid P (P .T && A.useTemp) w)
    (hn : (tab .DZ).length = A.nTypes) (hn0 : A.nTypes ≠ 0) (hu : Usable tab P (P .T && A.useTemp) (List.range A.nTypes))
    (hfiles : HoldsAll fs d .summer A.band (P .T && A.useTemp) tab) (h : IsGates I P (xs.map (fun x k => fin (x k)))) :
    ∃ dz, I.dz = some dz ∧
      (A.returnScores = true → csuFhcSummerF fs d false A I = .ok (some (.scores (A.nTypes :: dz.shape)
        ((List.range A.nTypes).map (fun c => xs.map (fun x =>
          fin (score hybrid P (P .T && A.useTemp) w (fun k => (bellAt tab f k c).mu (x k))))))))) ∧
      (A.returnScores = false → ∃ cats, csuFhcSummerF fs d false A I = .ok (some (.hid dz.shape cats)) ∧
        cats.length = xs.length ∧ ∀ i (hi : i < xs.length), FirstBest ((List.range A.nTypes).map (fun c =>
          score hybrid P (P .T && A.useTemp) w (fun k => (bellAt tab f k c).mu (xs[i] k)))) (cats.getD i 0)) := by
  obtain ⟨dz, hd1, hd2⟩ := h.dz hA.dz
  have hd2' : dz.data = xs.map (fun x => fin (x .DZ)) := by rw [hd2, List.map_map]; rfl
  refine ⟨dz, hd1, ?_⟩
  have hlen : (((setsOfTab tab (effTemp P A.useTemp) (fin f) : Sets XR) .DZ).getD []).length = A.nTypes := by
    show (rowsOf (tab .DZ) (1.0 : XR)).length = _
    rw [rowsOf, List.length_map, hn]
  have key : csuFhcSummerF fs d false A I =
      (let rows := (List.range A.nTypes).map (fun c => xs.map (fun x =>
          fin (score hybrid P (P .T && A.useTemp) w (fun k => (bellAt tab f k c).mu (x k)))))
      if rows.length * dz.data.length ≠ A.nTypes * dz.data.length then .error .valueError
      else if A.returnScores then .ok (some (.scores (A.nTypes :: dz.shape) rows))
      else if A.nTypes = 0 then .error .valueError
      else .ok (some (.hid dz.shape (classify dz.data.length rows)))) := by
    unfold csuFhcSummerF
    rw [hd1]
    dsimp only
    rw [useTemp_eq h, hfe, C113_sets hfiles]
    show (match methodOf A.method with | none => _ | some hybrid => _) = _
    rw [hA.method]
    dsimp only
    have hl : (((setsOfTab tab (P .T && A.useTemp) (fin f) : Sets XR) .DZ).getD []).length = A.nTypes := hlen
    rw [hl, htrap]
    have := tests_tab hA hu hf h dz hd2' (fun k _ => A.weights k) (fun _ => w) (fun _ _ k => hw k) (fun _ _ => hww)
    unfold effTemp at this
    rw [this]
    rfl
  have hsz : dz.data.length = xs.length := by rw [hd2']; simp
  constructor
  · intro hret
    rw [key]
    simp [hret]
  · intro hret
    rw [key]
    simp only [List.length_map, List.length_range, ne_eq, not_true_eq_false, if_false, hret, Bool.false_eq_true, hn0,
      hsz]
    refine ⟨_, rfl, by simp [classify], ?_⟩
    intro i hi
    have hcm := classify_map xs (List.range A.nTypes) (fun c x =>
      fin (score hybrid P (P .T && A.useTemp) w (fun k => (bellAt tab f k c).mu (x k))))
    rw [hcm]
    simp only [List.getD, List.getElem?_map, List.getElem?_eq_getElem hi, Option.map_some, Option.getD_some]
    have := argmaxPlus1_fin ((List.range A.nTypes).map (fun c =>
      score hybrid P (P .T && A.useTemp) w (fun k => (bellAt tab f k c).mu (xs[i] k)))) (by simpa using hn0)
    rw [List.map_map] at this
    exact this

/-- C115: the winter classifier. -/
theorem C115_winter {fs : Files} {d : String} (A : WinterArgs XR) (I : Inputs XR) (P : Key → Bool)
    (xs : List (Key → ℝ)) (hybrid : Bool) (w : Nat → Key → ℝ) (f : ℝ) (tab : Key → List Numbers)
    (hA : Works A.method A.useTemp P hybrid) (hf : 0 < f) (hfe : A.tempFactor = fin f)
    (hw : ∀ c k, A.weights k c = fin (w c k)) (hww : ∀ c ∈ winterTypes A.warm, Weighted hybrid P (P .T && A.useTemp) (w c))
    (hu : Usable tab P (P .T && A.useTemp) (winterTypes A.warm))
    (hfiles : HoldsAll fs d .winter A.band (P .T && A.useTemp) tab) (h : IsGates I P (xs.map (fun x k => fin (x k)))) :
    ∃ dz, I.dz = some dz ∧ csuFhcWinterF fs d false A I = .ok (some ((winterTypes A.warm).length :: dz.shape,
        (winterTypes A.warm).map (fun c => xs.map (fun x =>
          fin (score hybrid P (P .T && A.useTemp) (w c) (fun k => (bellAt tab f k c).mu (x k))))))) := by
  obtain ⟨dz, hd1, hd2⟩ := h.dz hA.dz
  have hd2' : dz.data = xs.map (fun x => fin (x .DZ)) := by rw [hd2, List.map_map]; rfl
  refine ⟨dz, hd1, ?_⟩
  unfold csuFhcWinterF
  rw [hd1]
  dsimp only
  rw [useTemp_eq h, hfe, C113_sets hfiles]
  show (match methodOf A.method with | none => _ | some hybrid => _) = _
  rw [hA.method]
  dsimp only
  have := tests_tab hA hu hf h dz hd2' A.weights w (fun c _ k => hw c k) hww
  unfold effTemp at this
  rw [this]
  rfl

/-- C115: the melting-layer classifier. -/
theorem C115_ml {fs : Files} {d : String} (A : MlArgs XR) (I : Inputs XR) (P : Key → Bool)
    (xs : List (Key → ℝ)) (hybrid : Bool) (w : Nat → Key → ℝ) (f : ℝ) (tab : Key → List Numbers)
    (hA : Works A.method A.useTemp P hybrid) (hf : 0 < f) (hfe : A.tempFactor = fin f)
    (hw : ∀ c k, A.weights k c = fin (w c k)) (hn : (tab .DZ).length = A.nTypes)
    (hww : ∀ c, c < A.nTypes → Weighted hybrid P (P .T && A.useTemp) (w c))
    (hu : Usable tab P (P .T && A.useTemp) (List.range A.nTypes))
    (hfiles : HoldsAll fs d .ml A.band (P .T && A.useTemp) tab) (h : IsGates I P (xs.map (fun x k => fin (x k)))) :
    ∃ dz, I.dz = some dz ∧ csuFhcMlF fs d false A I = .ok (some (A.nTypes :: dz.shape,
        (List.range A.nTypes).map (fun c => xs.map (fun x =>
          fin (score hybrid P (P .T && A.useTemp) (w c) (fun k => (bellAt tab f k c).mu (x k))))))) := by
  obtain ⟨dz, hd1, hd2⟩ := h.dz hA.dz
  have hd2' : dz.data = xs.map (fun x => fin (x .DZ)) := by rw [hd2, List.map_map]; rfl
  refine ⟨dz, hd1, ?_⟩
  have hl : (((setsOfTab tab (P .T && A.useTemp) (fin f) : Sets XR) .DZ).getD []).length = A.nTypes := by
    show (rowsOf (tab .DZ) (1.0 : XR)).length = _
    rw [rowsOf, List.length_map, hn]
  unfold csuFhcMlF
  rw [hd1]
  dsimp only
  rw [useTemp_eq h, hfe, C113_sets hfiles]
  show (match methodOf A.method with | none => _ | some hybrid => _) = _
  rw [hA.method]
  dsimp only
  have := tests_tab hA hu hf h dz hd2' A.weights w (fun c _ k => hw c k) (fun c hc => hww c (List.mem_range.mp hc))
  unfold effTemp at this
  rw [hl, this]
  show (if _ then _ else _) = _
  rw [if_neg]
  simp

/-- C115: so every score is between 0 and 1 if the weights are not negative. -/
theorem C115_unit (hybrid : Bool) (P : Key → Bool) (u : Bool) (w : Key → ℝ) (hw : GoodWeights hybrid P u w)
    (tab : Key → List Numbers) (f : ℝ) (c : Nat) (x : Key → ℝ) :
    0 ≤ score hybrid P (P .T && u) w (fun k => (bellAt tab f k c).mu (x k)) ∧
      score hybrid P (P .T && u) w (fun k => (bellAt tab f k c).mu (x k)) ≤ 1 :=
  score_unit hybrid P u w _ hw (fun _ => (mu_pos _ _).le) (fun _ => mu_le_one _ _)

end Csu.Csv
