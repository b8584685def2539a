import Verif.Props.Fhc6
/-! # The winter and melting-layer classifiers on gates -/
namespace Csu.Fhc
open Csu PyFloat Tables XR FhcSpec

/-- Rows of any of the three classifiers, in any arithmetic, without trapezoids. -/
theorem list_gates {α : Type} [PyFloat α] {I : Inputs α} {P : Key → Bool} {gs : List (Key → α)} (s : Season)
    (band : String) (f : α) (n : Nat) (hb : band ∈ bands)
    (hrows : ∀ k rows, csv band s k = some rows → rows.length = n) (hw : NoZeroWidth α s band f)
    (h : IsGates I P gs) (hP : P .DZ = true) (dz : NdArray α) (hdz : dz.data = gs.map (fun g => g .DZ)) (u : Bool)
    (w : Key → Nat → α) (hybrid : Bool) (hlin : hybrid = false → pol.filter P ≠ [])
    (hlinT : hybrid = false → P .T = true → u = true) (types : List Nat) (ht : ∀ c ∈ types, c < n) :
    getTestList (mkCfg I dz (effTemp P u) w (setsOf s (effTemp P u) f band) hybrid false) types =
      .ok (types.map (fun c => gs.map (gScore (cfg P u w (setsOf s (effTemp P u) f band) hybrid false) c))) := by
  rw [getTestList_ok types (fun c hc => ready s band f n (isSome_of_mem hb _ _) hrows hw h hP dz hdz u w hybrid false hlin
      (fun a b => Or.inl (hlinT a b)) (by simp) c (ht c hc))]
  congr 1
  apply List.map_congr_left
  intro c _
  apply List.map_congr_left
  intro g _
  exact gScore_cfg h dz u w _ hybrid false c g

theorem length_winter {band : String} (hb : band ∈ bands) :
    ∀ k rows, csv band .winter k = some rows → rows.length = 6 := by
  intro k rows hr
  by_cases hk : k = .RH ∨ k = .LD
  · obtain ⟨rows', h1, h2, _⟩ := C19_winter_nan band hb k hk
    rw [h1] at hr; cases hr; exact h2
  · obtain ⟨rows', h1, h2, _⟩ := C19_winter band hb k (by simpa [not_or] using hk)
    rw [h1] at hr; cases hr; exact h2

theorem length_ml {band : String} (hb : band ∈ bands) :
    ∀ k rows, csv band .ml k = some rows → rows.length = 2 := by
  intro k rows hr
  obtain ⟨rows', h1, h2, _⟩ := C19_ml band hb k
  rw [h1] at hr; cases hr; exact h2

theorem noZeroWidth_winter {band : String} (hb : band ∈ bands) {f : ℝ} (hf : 0 < f) :
    NoZeroWidth XR .winter band (fin f) := by
  apply noZeroWidth_of_good hf
  intro k rows r hr hmem
  by_cases hk : k = .RH ∨ k = .LD
  · obtain ⟨rows', h1, _, h3⟩ := C19_winter_nan band hb k hk
    rw [h1] at hr; cases hr
    exact Or.inr (h3 r hmem).2
  · obtain ⟨rows', h1, _, h3⟩ := C19_winter band hb k (by simpa [not_or] using hk)
    rw [h1] at hr; cases hr
    exact Or.inl (h3 r hmem)

theorem noZeroWidth_ml {band : String} (hb : band ∈ bands) {f : ℝ} (hf : 0 < f) :
    NoZeroWidth XR .ml band (fin f) := by
  apply noZeroWidth_of_good hf
  intro k rows r hr hmem
  obtain ⟨rows', h1, _, h3⟩ := C19_ml band hb k
  rw [h1] at hr; cases hr
  exact Or.inl (h3 r hmem)

theorem goodAt_winter {band : String} (hb : band ∈ bands) (P : Key → Bool) (hR : P .RH = false) (hL : P .LD = false)
    (c : Nat) (hc : c < 6) : GoodAt band .winter P c := by
  intro k hk
  have hk' : k ≠ .RH ∧ k ≠ .LD := by
    constructor
    · rintro rfl; rw [hR] at hk; cases hk
    · rintro rfl; rw [hL] at hk; cases hk
  obtain ⟨rows, h1, h2, h3⟩ := C19_winter band hb k hk'
  exact ⟨rows, h1, by omega, h3 _ (List.getElem_mem _)⟩

theorem goodAt_ml {band : String} (hb : band ∈ bands) (P : Key → Bool) (c : Nat) (hc : c < 2) :
    GoodAt band .ml P c := by
  intro k _
  obtain ⟨rows, h1, h2, h3⟩ := C19_ml band hb k
  exact ⟨rows, h1, by omega, h3 _ (List.getElem_mem _)⟩

/-- what a winter call needs to succeed -/
structure GoodWinter {α : Type} [PyFloat α] (A : WinterArgs α) (P : Key → Bool) (hybrid : Bool) : Prop where
  band : A.band ∈ bands
  method : methodOf A.method = some hybrid
  dz : P .DZ = true
  lin : hybrid = false → pol.filter P ≠ []
  linT : hybrid = false → P .T = true → A.useTemp = true

theorem winterTypes_lt (warm : Bool) : ∀ c ∈ winterTypes warm, c < 6 := by
  cases warm <;> simp [winterTypes]

/-- `csu_fhc_winter` on gates, in any arithmetic -/
theorem winter_gates {α : Type} [PyFloat α] {A : WinterArgs α} {I : Inputs α} {P : Key → Bool} {gs : List (Key → α)}
    {hybrid : Bool} (hA : GoodWinter A P hybrid) (hw : NoZeroWidth α .winter A.band A.tempFactor) (h : IsGates I P gs) :
    ∃ dz, I.dz = some dz ∧ csuFhcWinter A I = .ok (some ((winterTypes A.warm).length :: dz.shape,
      (winterTypes A.warm).map (fun c => gs.map (gScore (cfg P A.useTemp A.weights
        (setsOf .winter (effTemp P A.useTemp) A.tempFactor A.band) hybrid false) c)))) := by
  obtain ⟨dz, hd, hdz⟩ := h.dz hA.dz
  refine ⟨dz, hd, ?_⟩
  have hu : (if I.T.isNone then false else A.useTemp) = effTemp P A.useTemp := by
    rw [h.T_isNone]; cases hp : P .T <;> simp [effTemp, hp]
  have hl := list_gates .winter A.band A.tempFactor 6 hA.band (length_winter hA.band) hw h hA.dz dz hdz A.useTemp A.weights
    hybrid hA.lin hA.linT (winterTypes A.warm) (winterTypes_lt A.warm)
  simp only [csuFhcWinter, hd, hu, getMbfSets_ok .winter (effTemp P A.useTemp) A.tempFactor A.band
    (isSome_of_mem hA.band _ _), hA.method, bind, Except.bind, hl]

/-- `csu_fhc_winter` on finite gates without rho and ldr -/
theorem winter_fin {A : WinterArgs XR} {I : Inputs XR} {P : Key → Bool} {xs : List (Key → ℝ)} {hybrid : Bool}
    (hA : GoodWinter A P hybrid) (hR : P .RH = false) (hL : P .LD = false) {f : ℝ} (hf : 0 < f)
    (hfe : A.tempFactor = fin f) {w : Key → Nat → ℝ} (hw : ∀ k c, A.weights k c = fin (w k c))
    (hwt : hybrid = true → pol.filter P ≠ [] → ∀ c ∈ winterTypes A.warm,
      totalWeight true P (effTemp P A.useTemp) (fun k => w k c) ≠ 0)
    (hwl : hybrid = false → ∀ c ∈ winterTypes A.warm, totalWeight false P (effTemp P A.useTemp) (fun k => w k c) ≠ 0)
    (h : IsGates I P (xs.map (fun x k => fin (x k)))) :
    ∃ dz, I.dz = some dz ∧ csuFhcWinter A I = .ok (some ((winterTypes A.warm).length :: dz.shape,
      (winterTypes A.warm).map (fun c => xs.map (fun x => fin (score hybrid P (effTemp P A.useTemp) (fun k => w k c)
        (fun k => (bellT A.band .winter f k c).mu (x k))))))) := by
  obtain ⟨dz, h1, h2⟩ := winter_gates hA (by rw [hfe]; exact noZeroWidth_winter hA.band hf) h
  refine ⟨dz, h1, ?_⟩
  rw [h2, hfe]
  congr 3
  apply List.map_congr_left
  intro c hc
  rw [List.map_map]
  apply List.map_congr_left
  intro x _
  have F := finCfg (goodAt_winter hA.band P hR hL c (winterTypes_lt _ c hc)) hf hA.dz A.useTemp (fun k => w k c)
    A.weights (fun k => hw k c) hybrid false
  refine gScore_fin F rfl ?_ ?_ ?_ x
  · intro e hT
    show effTemp P A.useTemp = true
    simp [effTemp, hT, hA.linT e hT]
  · intro e hp; exact hwt e hp c hc
  · intro e; exact hwl e c hc

/-- what a melting-layer call needs to succeed -/
structure GoodMl {α : Type} [PyFloat α] (A : MlArgs α) (P : Key → Bool) (hybrid : Bool) : Prop where
  band : A.band ∈ bands
  method : methodOf A.method = some hybrid
  dz : P .DZ = true
  lin : hybrid = false → pol.filter P ≠ []
  linT : hybrid = false → P .T = true → A.useTemp = true

/-- `csu_fhc_cold_newml1` on gates, in any arithmetic -/
theorem ml_gates {α : Type} [PyFloat α] {A : MlArgs α} {I : Inputs α} {P : Key → Bool} {gs : List (Key → α)}
    {hybrid : Bool} (hA : GoodMl A P hybrid) (hn : A.nTypes = 2) (hw : NoZeroWidth α .ml A.band A.tempFactor)
    (h : IsGates I P gs) :
    ∃ dz, I.dz = some dz ∧ csuFhcMl A I = .ok (some (2 :: dz.shape,
      [0, 1].map (fun c => gs.map (gScore (cfg P A.useTemp A.weights
        (setsOf .ml (effTemp P A.useTemp) A.tempFactor A.band) hybrid false) c)))) := by
  obtain ⟨dz, hd, hdz⟩ := h.dz hA.dz
  refine ⟨dz, hd, ?_⟩
  have hu : (if I.T.isNone then false else A.useTemp) = effTemp P A.useTemp := by
    rw [h.T_isNone]; cases hp : P .T <;> simp [effTemp, hp]
  have hlen : ((setsOf .ml (effTemp P A.useTemp) A.tempFactor A.band .DZ).getD []).length = 2 := by
    obtain ⟨rows, h1, h2, _⟩ := C19_ml A.band hA.band .DZ
    rw [setsOf_eq _ _ _ _ _ (by simp), h1]
    simpa [getBetaSet] using h2
  have hl := list_gates .ml A.band A.tempFactor 2 hA.band (length_ml hA.band) hw h hA.dz dz hdz A.useTemp A.weights
    hybrid hA.lin hA.linT [0, 1] (by simp)
  have hr : List.range 2 = [0, 1] := by decide
  simp only [csuFhcMl, hd, hu, getMbfSets_ok .ml (effTemp P A.useTemp) A.tempFactor A.band
    (isSome_of_mem hA.band _ _), hA.method, bind, Except.bind, hlen, hr, hl, hn]
  simp

/-- `csu_fhc_cold_newml1` on finite gates -/
theorem ml_fin {A : MlArgs XR} {I : Inputs XR} {P : Key → Bool} {xs : List (Key → ℝ)} {hybrid : Bool}
    (hA : GoodMl A P hybrid) (hn : A.nTypes = 2) {f : ℝ} (hf : 0 < f)
    (hfe : A.tempFactor = fin f) {w : Key → Nat → ℝ} (hw : ∀ k c, A.weights k c = fin (w k c))
    (hwt : hybrid = true → pol.filter P ≠ [] → ∀ c < 2,
      totalWeight true P (effTemp P A.useTemp) (fun k => w k c) ≠ 0)
    (hwl : hybrid = false → ∀ c < 2, totalWeight false P (effTemp P A.useTemp) (fun k => w k c) ≠ 0)
    (h : IsGates I P (xs.map (fun x k => fin (x k)))) :
    ∃ dz, I.dz = some dz ∧ csuFhcMl A I = .ok (some (2 :: dz.shape,
      [0, 1].map (fun c => xs.map (fun x => fin (score hybrid P (effTemp P A.useTemp) (fun k => w k c)
        (fun k => (bellT A.band .ml f k c).mu (x k))))))) := by
  obtain ⟨dz, h1, h2⟩ := ml_gates hA hn (by rw [hfe]; exact noZeroWidth_ml hA.band hf) h
  refine ⟨dz, h1, ?_⟩
  rw [h2, hfe]
  congr 3
  apply List.map_congr_left
  intro c hc
  have hc' : c < 2 := by simp at hc; omega
  rw [List.map_map]
  apply List.map_congr_left
  intro x _
  have F := finCfg (goodAt_ml hA.band P c hc') hf hA.dz A.useTemp (fun k => w k c)
    A.weights (fun k => hw k c) hybrid false
  refine gScore_fin F rfl ?_ ?_ ?_ x
  · intro e hT
    show effTemp P A.useTemp = true
    simp [effTemp, hT, hA.linT e hT]
  · intro e hp; exact hwt e hp c hc'
  · intro e; exact hwl e c hc'

end Csu.Fhc
