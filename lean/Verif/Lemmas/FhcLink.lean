import Verif.Props.FhcTables
/-! # The classifiers on finite gates: the model computes the specified scores -/
namespace Csu.Fhc
open Csu PyFloat Tables XR FhcSpec

theorem isSome_of_mem {band : String} (hb : band ∈ bands) (s : Season) (k : Key) : (csv band s k).isSome = true :=
  (C19_bands band s k).mpr hb

/-- the row of the parameter set, for a usable CSV row -/
theorem xrow_of_good {r : RawRow} (h : GoodRow r) {f : ℝ} (hf : 0 < f) :
    (⟨rawVal r.m / fin f, rawVal r.a / fin f, rawVal r.b / fin f⟩ : Row XR) = xrow ((bellOf r).scale f) ∧
      ((bellOf r).scale f).a ≠ 0 ∧ 0 < ((bellOf r).scale f).b := by
  obtain ⟨m, a, b, rfl, ha, hb⟩ := h
  have ha' : (0 : ℝ) < a := by exact_mod_cast ha
  have hb' : (0 : ℝ) < b := by exact_mod_cast hb
  refine ⟨?_, ?_, ?_⟩
  · simp [xrow, bellOf, Bell.scale, rawVal, fdiv hf.ne']
  · simp only [bellOf, Bell.scale, Option.getD_some]; positivity
  · simp only [bellOf, Bell.scale, Option.getD_some]; positivity

theorem scale_one (B : Bell) : B.scale 1 = B := by simp [Bell.scale]

/-- what the tables must satisfy for the variables `P` at species `c` -/
def GoodAt (band : String) (s : Season) (P : Key → Bool) (c : Nat) : Prop :=
  ∀ k, P k = true → ∃ rows, csv band s k = some rows ∧ ∃ h : c < rows.length, GoodRow rows[c]

theorem goodAt_summer {band : String} (hb : band ∈ bands) (P : Key → Bool) (c : Nat) (hc : c < 10) :
    GoodAt band .summer P c := by
  intro k _
  obtain ⟨rows, h1, h2, h3⟩ := C19_summer band hb k
  exact ⟨rows, h1, by omega, h3 _ (List.getElem_mem _)⟩

theorem finCfg {band : String} {s : Season} {P : Key → Bool} {c : Nat} (hg : GoodAt band s P c) {f : ℝ} (hf : 0 < f)
    (hP : P .DZ = true) (u : Bool) (w : Key → ℝ) (W : Key → Nat → XR) (hW : ∀ k, W k c = fin (w k))
    (hybrid trap : Bool) :
    FinCfg (cfg P u W (setsOf s (effTemp P u) (fin f) band) hybrid trap) P w (fun k => bellT band s f k c) c where
  data := by intro k; simp only [cfg]; cases P k <;> rfl
  vars := by intro k; rfl
  w := hW
  set := by
    intro k hk hT0
    have hT : k = .T → effTemp P u = true := hT0
    obtain ⟨rows, h1, hc, h3⟩ := hg k hk
    have hone : (1.0 : XR) = fin 1 := by rw [fsci]; norm_num
    by_cases hkT : k = .T
    · refine ⟨getBetaSet rows (fin f), ?_, ?_, ?_⟩
      · show setsOf s (effTemp P u) (fin f) band k = _
        rw [setsOf_eq _ _ _ _ _ hT, h1, if_pos hkT]; rfl
      · have : bellT band s f k c = (bellOf rows[c]).scale f := by
          simp [bellT, hkT, bell] at *
          simp [h1, hc]
        rw [this]
        simp only [getBetaSet, List.getElem?_map, List.getElem?_eq_getElem hc, Option.map_some]
        rw [(xrow_of_good h3 hf).1]
      · have : bellT band s f k c = (bellOf rows[c]).scale f := by
          simp [bellT, hkT, bell] at *
          simp [h1, hc]
        rw [this]
        exact (xrow_of_good h3 hf).2
    · have hB : bellT band s f k c = (bellOf rows[c]).scale 1 := by
        simp [bellT, hkT, bell, scale_one, h1, hc]
      refine ⟨getBetaSet rows (fin 1), ?_, ?_, ?_⟩
      · show setsOf s (effTemp P u) (fin f) band k = _
        rw [setsOf_eq _ _ _ _ _ hT, h1, if_neg hkT, hone]; rfl
      · rw [hB]
        simp only [getBetaSet, List.getElem?_map, List.getElem?_eq_getElem hc, Option.map_some]
        rw [(xrow_of_good h3 one_pos).1]
      · rw [hB]
        exact (xrow_of_good h3 one_pos).2
  dz := hP
  temp := by
    intro ht
    have : effTemp P u = true := ht
    simp [effTemp] at this; exact this.1

theorem noZeroWidth_of_good {band : String} {s : Season} {f : ℝ} (hf : 0 < f)
    (h : ∀ k rows r, csv band s k = some rows → r ∈ rows → GoodRow r ∨ r.a = none) :
    NoZeroWidth XR s band (fin f) := by
  intro k rows r hr hmem
  have hone : (1.0 : XR) = fin 1 := by rw [fsci]; norm_num
  have hfac : ∃ f' : ℝ, 0 < f' ∧ (if k = .T then fin f else (1.0 : XR)) = fin f' := by
    split_ifs
    · exact ⟨f, hf, rfl⟩
    · exact ⟨1, one_pos, hone⟩
  obtain ⟨f', hf', e⟩ := hfac
  rw [e]
  rcases h k rows r hr hmem with h | h
  · obtain ⟨m, a, b, rfl, ha, _⟩ := h
    have ha' : (0 : ℝ) < a := by exact_mod_cast ha
    simp only [rawVal, flit, fzero]
    rw [fdiv hf'.ne', feq, decide_eq_false_iff_not]
    push_cast
    positivity
  · simp [h, rawVal]

theorem noZeroWidth_summer {band : String} (hb : band ∈ bands) {f : ℝ} (hf : 0 < f) :
    NoZeroWidth XR .summer band (fin f) := by
  apply noZeroWidth_of_good hf
  intro k rows r hr hmem
  obtain ⟨rows', h1, _, h3⟩ := C19_summer band hb k
  rw [h1] at hr
  injection hr with hr
  subst hr
  exact Or.inl (h3 r hmem)

theorem length_summer {band : String} (hb : band ∈ bands) :
    ∀ k rows, csv band .summer k = some rows → rows.length = 10 := by
  intro k rows hr
  obtain ⟨rows', h1, h2, _⟩ := C19_summer band hb k
  rw [h1] at hr
  injection hr with hr
  rw [← hr]; exact h2

/-- What every successful call needs: a band that exists, a recognised method, reflectivity, and — for the linear
method — a polarimetric variable and, if `T` is supplied, `use_temp` or `use_trap`. -/
structure GoodCall {α : Type} [PyFloat α] (A : SummerArgs α) (P : Key → Bool) (hybrid : Bool) : Prop where
  band : A.band ∈ bands
  method : methodOf A.method = some hybrid
  dz : P .DZ = true
  lin : hybrid = false → pol.filter P ≠ []
  linT : hybrid = false → P .T = true → A.useTemp = true ∨ A.useTrap = true

/-- `csu_fhc_summer` on gates, in any arithmetic -/
theorem summer_gates {α : Type} [PyFloat α] {A : SummerArgs α} {I : Inputs α} {P : Key → Bool} {gs : List (Key → α)}
    {hybrid : Bool} (hA : GoodCall A P hybrid) (hn : A.nTypes = 10) (hw : NoZeroWidth α .summer A.band A.tempFactor)
    (h : IsGates I P gs) :
    ∃ dz, I.dz = some dz ∧ csuFhcSummer A I = .ok (some (
      let sc := fun c => gScore (cfg P A.useTemp (fun k _ => A.weights k)
        (setsOf .summer (effTemp P A.useTemp) A.tempFactor A.band) hybrid A.useTrap) c
      if A.returnScores then .scores (10 :: dz.shape) ((List.range 10).map (fun c => gs.map (sc c)))
      else .hid dz.shape (gs.map (fun g => argmaxPlus1 ((List.range 10).map (fun c => sc c g)))))) := by
  obtain ⟨dz, h1, h2, h3⟩ := summerRows_ok A (isSome_of_mem hA.band _ _) (length_summer hA.band) hw hybrid hA.method h
    hA.dz hA.lin hA.linT
  refine ⟨dz, h1, ?_⟩
  have hlen : dz.data.length = gs.length := by rw [h2]; simp
  simp only [csuFhcSummer, h3, bind, Except.bind, hn, List.length_map, List.length_range, ne_eq, not_true_eq_false,
    if_false, hlen, classify_map, show (10 : Nat) ≠ 0 from by decide]
  split_ifs <;> rfl

/-- the hybrid method ignores the trapezoid switch -/
theorem gScore_hybrid_trap {α : Type} [PyFloat α] (P : Key → Bool) (u : Bool) (w : Key → Nat → α) (sets : Sets α)
    (t t' : Bool) (c : Nat) (g : Key → α) :
    gScore (cfg P u w sets true t) c g = gScore (cfg P u w sets true t') c g := by
  have hp : gPol (cfg P u w sets true t) c g = gPol (cfg P u w sets true t') c g := by
    have he : (usedKeys (cfg P u w sets true t)).map (gTerm (cfg P u w sets true t) c g) =
      (usedKeys (cfg P u w sets true t')).map (gTerm (cfg P u w sets true t') c g) := by
     apply List.map_congr_left
     intro k hk
     have hv : k ∈ varlist true := (List.mem_filter.mp hk).1
     have := (mem_varlist_hybrid hv).1
     simp [gTerm, this, cfg]
    unfold gPol
    rw [he]
    rfl
  unfold gScore
  rw [hp]
  rfl

/-- `csu_fhc_summer` on finite gates and finite weights, without trapezoids -/
theorem summer_fin {A : SummerArgs XR} {I : Inputs XR} {P : Key → Bool} {xs : List (Key → ℝ)} {hybrid : Bool}
    (hA : GoodCall A P hybrid) (hn : A.nTypes = 10) {f : ℝ} (hf : 0 < f) (hfe : A.tempFactor = fin f) {w : Key → ℝ}
    (hw : ∀ k, A.weights k = fin (w k)) (htrap : hybrid = false → A.useTrap = false)
    (hwt : hybrid = true → pol.filter P ≠ [] → totalWeight true P (effTemp P A.useTemp) w ≠ 0)
    (hwl : hybrid = false → totalWeight false P (effTemp P A.useTemp) w ≠ 0)
    (h : IsGates I P (xs.map (fun x k => fin (x k)))) :
    ∃ dz, I.dz = some dz ∧ csuFhcSummer A I = .ok (some (
      let sc := fun c (x : Key → ℝ) => score hybrid P (effTemp P A.useTemp) w (fun k => (bellT A.band .summer f k c).mu (x k))
      if A.returnScores then .scores (10 :: dz.shape) ((List.range 10).map (fun c => xs.map (fun x => fin (sc c x))))
      else .hid dz.shape (xs.map (fun x => argmaxPlus1 (((List.range 10).map (fun c => sc c x)).map fin))))) := by
  obtain ⟨dz, h1, h2⟩ := summer_gates hA hn (by rw [hfe]; exact noZeroWidth_summer hA.band hf) h
  refine ⟨dz, h1, ?_⟩
  rw [h2]
  have key : ∀ c ∈ List.range 10, ∀ x : Key → ℝ, gScore (cfg P A.useTemp (fun k _ => A.weights k)
        (setsOf .summer (effTemp P A.useTemp) A.tempFactor A.band) hybrid A.useTrap) c (fun k => fin (x k)) =
      fin (score hybrid P (effTemp P A.useTemp) w (fun k => (bellT A.band .summer f k c).mu (x k))) := by
    intro c hc x
    have hc' := List.mem_range.mp hc
    cases hyb : hybrid with
    | false =>
      subst hyb
      rw [hfe]
      have F := finCfg (goodAt_summer hA.band P c hc') hf hA.dz A.useTemp w (fun k _ => A.weights k) hw false A.useTrap
      refine gScore_fin F (htrap rfl) ?_ ?_ ?_ x
      · intro _ hT
        show effTemp P A.useTemp = true
        rcases hA.linT rfl hT with h | h
        · simp [effTemp, hT, h]
        · rw [htrap rfl] at h; cases h
      · intro h; cases h
      · intro _; exact hwl rfl
    | true =>
      subst hyb
      rw [hfe]
      have F := finCfg (goodAt_summer hA.band P c hc') hf hA.dz A.useTemp w (fun k _ => A.weights k) hw true false
      have := gScore_fin F rfl (by intro h; cases h) (by intro _; exact hwt rfl) (by intro h; cases h) x
      refine Eq.trans ?_ this
      -- the trapezoid switch is not read by the hybrid method
      exact gScore_hybrid_trap P A.useTemp _ _ A.useTrap false c _
  simp only [List.map_map]
  split_ifs
  · congr 3
    apply List.map_congr_left
    intro c hc
    apply List.map_congr_left
    intro x _
    exact key c hc x
  · congr 3
    apply List.map_congr_left
    intro x _
    simp only [Function.comp_apply]
    congr 1
    apply List.map_congr_left
    intro c hc
    exact key c hc x

end Csu.Fhc
