import Verif.Model.Plot
import Verif.Props.FhcTables
import Verif.Lemmas.FhcApi
import Verif.Lemmas.FhcLink
import Verif.QFloat
import Verif.Lemmas.Kdp
/-!
# C100 - C102: the plotting option and `verbose` of the classifiers
-/
namespace Csu.Fhc
open Csu PyFloat Tables
open Csu.Kdp (bind_ok mapM_get)
variable {α : Type} [PyFloat α]

/-- without the two options these are the functions modelled in `Model/Fhc.lean` -/
theorem summerV_plain (A : SummerArgs α) (I : Inputs α) : csuFhcSummerV false false A I = csuFhcSummer A I := by
  unfold csuFhcSummerV csuFhcSummer summerRows getMbfSetsPlot
  cases I.dz with
  | none => rfl
  | some dz =>
    dsimp only
    cases getMbfSets .summer (if I.T.isNone then false else A.useTemp) A.tempFactor A.band with
    | error e => rfl
    | ok sets =>
      simp only [bind, Except.bind, Bool.false_eq_true, if_false]
      cases methodOf A.method with
      | none => rfl
      | some hy =>
        dsimp only
        cases getTestList (mkCfg I dz (if I.T.isNone then false else A.useTemp) (fun k _ => A.weights k) sets hy A.useTrap)
          (List.range ((sets .DZ).getD []).length) <;> rfl

theorem winterV_plain (n : Nat) (A : WinterArgs α) (I : Inputs α) : csuFhcWinterV false false n A I = csuFhcWinter A I := by
  unfold csuFhcWinterV csuFhcWinter getMbfSetsPlot
  cases I.dz with
  | none => rfl
  | some dz =>
    dsimp only
    cases getMbfSets .winter (if I.T.isNone then false else A.useTemp) A.tempFactor A.band with
    | error e => rfl
    | ok sets =>
      simp only [bind, Except.bind, Bool.false_eq_true, if_false]
      cases methodOf A.method with
      | none => rfl
      | some hy => rfl

theorem mlV_plain (A : MlArgs α) (I : Inputs α) : csuFhcMlV false false A I = csuFhcMl A I := by
  unfold csuFhcMlV csuFhcMl getMbfSetsPlot
  cases I.dz with
  | none => rfl
  | some dz =>
    dsimp only
    cases getMbfSets .ml (if I.T.isNone then false else A.useTemp) A.tempFactor A.band with
    | error e => rfl
    | ok sets =>
      simp only [bind, Except.bind, Bool.false_eq_true, if_false]
      cases methodOf A.method with
      | none => rfl
      | some hy => rfl

/-- The plotted intervals: first value, step, number of points.  0 to 70 dBZ, -2 to 6 dB, -2 to 7 deg/km, -60 to -1.01 dB,
0.75 to 1, -50 to 50 degrees. -/
noncomputable def axisSpec : Key → ℝ × ℝ × ℕ
  | .DZ => (0, 1 / 10, 701)
  | .DR => (-2, 1 / 100, 801)
  | .KD => (-2, 1 / 100, 901)
  | .LD => (-60, 1 / 100, 5900)
  | .RH => (3 / 4, 1 / 10000, 2501)
  | .T => (-50, 1 / 10, 1001)

/-- C100: the points of the horizontal axes. -/
theorem C100_axes (k : Key) : (plotAxis k : List XR) =
    (List.range (axisSpec k).2.2).map (fun i : ℕ => XR.fin ((axisSpec k).1 + i * (axisSpec k).2.1)) := by
  have h2 : (-2.0 : XR) = XR.fin (-2) := by rw [XR.fsci, XR.fneg]; norm_num
  have h60 : (-60.0 : XR) = XR.fin (-60) := by rw [XR.fsci, XR.fneg]; norm_num
  have h75 : (0.75 : XR) = XR.fin (3 / 4) := by rw [XR.fsci]; norm_num
  cases k
  · simp only [plotAxis, axisSpec]
    refine congrFun (congrArg List.map (funext fun i => ?_)) _
    rw [XR.fofNat, XR.foflit, XR.fdiv (by norm_num)]
    congr 1; ring_nf
  · simp only [plotAxis, axisSpec]
    refine congrFun (congrArg List.map (funext fun i => ?_)) _
    rw [XR.fofNat, XR.foflit, XR.fdiv (by norm_num), h2, XR.fadd]
    congr 1; ring_nf
  · simp only [plotAxis, axisSpec]
    refine congrFun (congrArg List.map (funext fun i => ?_)) _
    rw [XR.fofNat, XR.foflit, XR.fdiv (by norm_num), h2, XR.fadd]
    congr 1; ring_nf
  · simp only [plotAxis, axisSpec]
    refine congrFun (congrArg List.map (funext fun i => ?_)) _
    rw [XR.fofNat, XR.foflit, XR.fdiv (by norm_num), h75, XR.fadd]
    congr 1; ring_nf
  · simp only [plotAxis, axisSpec]
    refine congrFun (congrArg List.map (funext fun i => ?_)) _
    rw [XR.fofNat, XR.foflit, XR.fdiv (by norm_num), h60, XR.fadd]
    congr 1; ring_nf
  · simp only [plotAxis, axisSpec]
    refine congrFun (congrArg List.map (funext fun i => ?_)) _
    rw [XR.fofNat, XR.foflit, XR.foflit, XR.fneg, XR.fdiv (by norm_num), XR.fadd]
    congr 1; ring_nf

attribute [local irreducible] plotAxis

/-! ## C100: what is plotted is what is used -/

theorem example_ok {var : List α} {set : Option (List (Row α))} {i : Nat} {ys : List α} (h : getBetaExample var set i = .ok ys) :
    ∃ rows r, set = some rows ∧ rows[i]? = some r ∧ ys = var.map (beta r) := by
  unfold getBetaExample at h
  cases set with
  | none => cases h
  | some rows =>
    dsimp only at h
    cases hr : rows[i]? with
    | none => rw [hr] at h; cases h
    | some r =>
      rw [hr] at h
      cases h
      refine ⟨rows, r, rfl, hr, ?_⟩
      apply List.map_congr_left
      intro x _
      unfold beta
      have : (2 : α) = 2.0 := by
        show PyFloat.lit ((2 : Nat) : Rat) = PyFloat.lit (OfScientific.ofScientific 20 true 1)
        norm_num
      rw [this]

/-- **C100.** If the membership functions are plotted, there is one figure per species, saved under the name of the species and
the band; its six panels are reflectivity, Kdp, Zdr, LDR, correlation and temperature; and every plotted point is exactly
the membership value the classifier's `hid_beta_f` computes there for that species (if the width is not zero, where
`hid_beta_f` raises). -/
theorem C100_plotted_curves (s : Season) (useTemp : Bool) (nTypes : Nat) (tf : α) (band pdir : String) (sets : Sets α)
    (figs : List (Figure α)) (h : getMbfSetsPlot s useTemp true nTypes tf band pdir = .ok (sets, figs)) :
    getMbfSets s useTemp tf band = .ok sets ∧ figs.length = nTypes ∧ nTypes ≤ 10 ∧
    ∀ (i : Nat) (fig : Figure α), figs[i]? = some fig →
      (∃ label, plotLabels[i]? = some label ∧ fig.file = pdir ++ label ++ "_beta_" ++ band ++ ".png") ∧
      fig.panels.map (·.1) = [.DZ, .KD, .DR, .LD, .RH, .T] ∧
      ∀ k pts, (k, pts) ∈ fig.panels → ∃ rows r, sets k = some rows ∧ rows[i]? = some r ∧
        pts.map (·.1) = plotAxis k ∧ ∀ x y, (x, y) ∈ pts → (r.a ==. 0) = false → hidBetaF 1 [x] r = .ok [y] := by
  unfold getMbfSetsPlot at h
  obtain ⟨sets', hs, h⟩ := bind_ok h
  rw [if_pos rfl] at h
  obtain ⟨figs', hp, h⟩ := bind_ok h
  cases h
  unfold plotBetaFunctions at hp
  have hm := mapM_get hp
  simp only [List.length_range, List.getElem_range] at hm
  have key : ∀ (i : Nat) (fig : Figure α), figs[i]? = some fig →
      (∃ label, plotLabels[i]? = some label ∧ fig.file = pdir ++ label ++ "_beta_" ++ band ++ ".png") ∧
      fig.panels.map (·.1) = [.DZ, .KD, .DR, .LD, .RH, .T] ∧
      ∀ k pts, (k, pts) ∈ fig.panels → ∃ rows r, sets k = some rows ∧ rows[i]? = some r ∧
        pts.map (·.1) = plotAxis k ∧ ∀ x y, (x, y) ∈ pts → (r.a ==. 0) = false → hidBetaF 1 [x] r = .ok [y] := by
    intro i fig hi
    obtain ⟨hlt, rfl⟩ := List.getElem?_eq_some_iff.mp hi
    have hg := hm.2 i (by omega) hlt
    unfold plotSpecies at hg
    obtain ⟨y1, e1, hg⟩ := bind_ok hg
    obtain ⟨y2, e2, hg⟩ := bind_ok hg
    obtain ⟨y3, e3, hg⟩ := bind_ok hg
    obtain ⟨y4, e4, hg⟩ := bind_ok hg
    obtain ⟨y5, e5, hg⟩ := bind_ok hg
    obtain ⟨y6, e6, hg⟩ := bind_ok hg
    cases hl : plotLabels[i]? with
    | none => rw [hl] at hg; cases hg
    | some label =>
      rw [hl] at hg
      replace hg := Except.ok.inj hg
      rw [← hg]
      refine ⟨⟨label, rfl, rfl⟩, rfl, ?_⟩
      have one : ∀ (k : Key) (ys : List α), getBetaExample (plotAxis k) (sets k) i = .ok ys →
          ∃ rows r, sets k = some rows ∧ rows[i]? = some r ∧ (List.zip (plotAxis (α := α) k) ys).map (·.1) = plotAxis k ∧
            ∀ x y, (x, y) ∈ List.zip (plotAxis k) ys → (r.a ==. 0) = false → hidBetaF 1 [x] r = .ok [y] := by
        intro k ys hy
        obtain ⟨rows, r, h1, h2, rfl⟩ := example_ok hy
        refine ⟨rows, r, h1, h2, List.map_fst_zip (by simp), ?_⟩
        intro x y hxy ha
        rw [List.zip_map_right, List.mem_map] at hxy
        obtain ⟨⟨u, v⟩, huv, he⟩ := hxy
        have hd : u = v := by
          have := List.mem_iff_getElem.mp huv
          obtain ⟨j, hj, e⟩ := this
          rw [List.getElem_zip] at e
          exact (Prod.mk.inj e).1.symm.trans (Prod.mk.inj e).2
        subst hd
        cases he
        simp [hidBetaF, ha]
      have all : ∀ p ∈ [(Key.DZ, List.zip (plotAxis .DZ) y1), (.KD, List.zip (plotAxis .KD) y2), (.DR, List.zip (plotAxis .DR) y3),
          (.LD, List.zip (plotAxis .LD) y4), (.RH, List.zip (plotAxis .RH) y5), (.T, List.zip (plotAxis .T) y6)],
          ∃ rows r, sets p.1 = some rows ∧ rows[i]? = some r ∧ p.2.map (·.1) = plotAxis p.1 ∧
            ∀ x y, (x, y) ∈ p.2 → (r.a ==. 0) = false → hidBetaF 1 [x] r = .ok [y] :=
        List.forall_mem_cons.mpr ⟨one .DZ y1 e1, List.forall_mem_cons.mpr ⟨one .KD y2 e2, List.forall_mem_cons.mpr ⟨one .DR y3 e3,
          List.forall_mem_cons.mpr ⟨one .LD y4 e4, List.forall_mem_cons.mpr ⟨one .RH y5 e5, List.forall_mem_cons.mpr ⟨one .T y6 e6,
            fun p hp => absurd hp List.not_mem_nil⟩⟩⟩⟩⟩⟩
      exact fun k pts hk => all (k, pts) hk
  refine ⟨hs, hm.1, ?_, key⟩
  by_contra hn
  have h10 : 10 < figs.length := by rw [hm.1]; omega
  obtain ⟨⟨label, hl, -⟩, -⟩ := key 10 _ (List.getElem?_eq_getElem h10)
  cases hl


/-! ## C101: plotting does not change the result -/

theorem getBetaExample_isOk {var : List α} {rows : List (Row α)} {i : Nat} (h : i < rows.length) :
    ∃ ys, getBetaExample var (some rows) i = .ok ys := by
  unfold getBetaExample
  dsimp only
  rw [List.getElem?_eq_getElem h]
  exact ⟨_, rfl⟩

theorem mapM_isOk {β γ : Type} {f : β → Except PyErr γ} {l : List β} (h : ∀ x ∈ l, ∃ y, f x = .ok y) :
    ∃ r, l.mapM f = .ok r := by
  induction l with
  | nil => exact ⟨[], rfl⟩
  | cons x l ih =>
    obtain ⟨y, hy⟩ := h x (by simp)
    obtain ⟨r, hr⟩ := ih (fun z hz => h z (by simp [hz]))
    exact ⟨y :: r, by rw [List.mapM_cons, hy, hr]; rfl⟩

theorem setsOf_length {s : Season} {f : α} {band : String} {n : Nat}
    (hl : ∀ k, ∃ rows, csv band s k = some rows ∧ rows.length = n) (k : Key) :
    ∃ rows, setsOf s true f band k = some rows ∧ rows.length = n := by
  obtain ⟨rows, h1, h2⟩ := hl k
  rw [setsOf_eq s true f band k (fun _ => rfl), h1]
  exact ⟨_, rfl, by simp [getBetaSet, h2]⟩

/-- with the temperature set read, plotting at most as many species as the tables have rows never raises -/
theorem plot_ok {s : Season} {f : α} {band pdir : String} {n nTypes : Nat} (hb : band ∈ bands)
    (hl : ∀ k, ∃ rows, csv band s k = some rows ∧ rows.length = n) (h1 : nTypes ≤ n) (h2 : nTypes ≤ 10) :
    ∃ figs, getMbfSetsPlot s true true nTypes f band pdir = .ok (setsOf s true f band, figs) := by
  have : ∃ figs, plotBetaFunctions (setsOf s true f band) band pdir nTypes = .ok figs := by
    apply mapM_isOk
    intro i hi
    have hi := List.mem_range.mp hi
    have get : ∀ k, ∃ ys, getBetaExample (plotAxis k) (setsOf s true f band k) i = .ok ys := by
      intro k
      obtain ⟨rows, e, l⟩ := setsOf_length hl (f := f) k
      rw [e]
      exact getBetaExample_isOk (by omega)
    unfold plotSpecies
    obtain ⟨y1, e1⟩ := get .DZ
    obtain ⟨y2, e2⟩ := get .KD
    obtain ⟨y3, e3⟩ := get .DR
    obtain ⟨y4, e4⟩ := get .LD
    obtain ⟨y5, e5⟩ := get .RH
    obtain ⟨y6, e6⟩ := get .T
    rw [e1, e2, e3, e4, e5, e6]
    have hlab : plotLabels[i]? = some (plotLabels[i]'(by show i < 10; omega)) := List.getElem?_eq_getElem _
    rw [hlab]
    exact ⟨_, rfl⟩
  obtain ⟨figs, hf⟩ := this
  refine ⟨figs, ?_⟩
  unfold getMbfSetsPlot
  rw [getMbfSets_ok s true f band (isSome_of_mem hb _ _)]
  simp only [bind, Except.bind, if_true, hf]

/-- without the temperature set, plotting at least one species raises `TypeError` -/
theorem plot_noTemp {s : Season} {f : α} {band pdir : String} {n nTypes : Nat} (hb : band ∈ bands)
    (hl : ∀ k, ∃ rows, csv band s k = some rows ∧ rows.length = n) (hn : 0 < n) (h1 : 0 < nTypes) :
    getMbfSetsPlot s false true nTypes f band pdir = .error .typeError := by
  have get : ∀ k, k ≠ .T → ∃ ys, getBetaExample (plotAxis k) (setsOf s false f band k) 0 = .ok ys := by
    intro k hk
    obtain ⟨rows, e, l⟩ := hl k
    rw [setsOf_eq s false f band k (fun h => absurd h hk), e]
    exact getBetaExample_isOk (by simp [getBetaSet]; omega)
  have hp : plotBetaFunctions (setsOf s false f band) band pdir nTypes = .error .typeError := by
    obtain ⟨m, rfl⟩ : ∃ m, nTypes = m + 1 := ⟨nTypes - 1, by omega⟩
    unfold plotBetaFunctions
    rw [List.range_succ_eq_map, List.mapM_cons]
    have : plotSpecies (setsOf s false f band) band pdir 0 = .error .typeError := by
      unfold plotSpecies
      obtain ⟨y1, e1⟩ := get .DZ (by decide)
      obtain ⟨y2, e2⟩ := get .KD (by decide)
      obtain ⟨y3, e3⟩ := get .DR (by decide)
      obtain ⟨y4, e4⟩ := get .LD (by decide)
      obtain ⟨y5, e5⟩ := get .RH (by decide)
      rw [e1, e2, e3, e4, e5]
      rfl
    rw [this]
    rfl
  unfold getMbfSetsPlot
  rw [getMbfSets_ok s false f band (isSome_of_mem hb _ _)]
  simp only [bind, Except.bind, if_true, hp]

theorem len_summer {band : String} (hb : band ∈ bands) (k : Key) : ∃ rows, csv band .summer k = some rows ∧ rows.length = 10 := by
  obtain ⟨r, h1, h2, -⟩ := C19_summer band hb k
  exact ⟨r, h1, h2⟩

theorem len_ml {band : String} (hb : band ∈ bands) (k : Key) : ∃ rows, csv band .ml k = some rows ∧ rows.length = 2 := by
  obtain ⟨r, h1, h2, -⟩ := C19_ml band hb k
  exact ⟨r, h1, h2⟩

theorem len_winter {band : String} (hb : band ∈ bands) (k : Key) : ∃ rows, csv band .winter k = some rows ∧ rows.length = 6 := by
  by_cases hk : k = .RH ∨ k = .LD
  · obtain ⟨r, h1, h2, -⟩ := C19_winter_nan band hb k hk
    exact ⟨r, h1, h2⟩
  · push Not at hk
    obtain ⟨r, h1, h2, -⟩ := C19_winter band hb k hk
    exact ⟨r, h1, h2⟩

/-- **C101, full statement**: turning the plots on does not change what any of the classifiers returns. -/
def C101Full (α : Type) [PyFloat α] : Prop :=
  (∀ (A : SummerArgs α) (I : Inputs α), csuFhcSummerV false true A I = csuFhcSummer A I) ∧
  (∀ (A : WinterArgs α) (n : Nat) (I : Inputs α), csuFhcWinterV false true n A I = csuFhcWinter A I) ∧
  (∀ (A : MlArgs α) (I : Inputs α), csuFhcMlV false true A I = csuFhcMl A I)

/-- **C101, partial (summer).**  With a temperature field in use, a known band and at most ten species, the summer classifier returns
the same with and without plots. -/
theorem C101_summer_partial (A : SummerArgs α) (I : Inputs α) (hT : I.T.isSome) (hu : A.useTemp = true) (hb : A.band ∈ bands)
    (hn : A.nTypes ≤ 10) (verbose : Bool) : csuFhcSummerV verbose true A I = csuFhcSummerV verbose false A I := by
  obtain ⟨t, ht⟩ := Option.isSome_iff_exists.mp hT
  obtain ⟨figs, hf⟩ := plot_ok (pdir := "./") (f := A.tempFactor) hb (len_summer hb) hn hn
  have h0 : getMbfSetsPlot .summer true false A.nTypes A.tempFactor A.band "./" = .ok (setsOf .summer true A.tempFactor A.band, []) := by
    unfold getMbfSetsPlot
    rw [getMbfSets_ok .summer true A.tempFactor A.band (isSome_of_mem hb _ _)]
    rfl
  unfold csuFhcSummerV
  simp only [ht, Option.isNone_some, Bool.false_eq_true, if_false, hu, hf, h0]
  rfl

/-- **C101, partial (winter).**  The same for the winter classifier if `n_types` is at most six (its default is seven). -/
theorem C101_winter_partial (A : WinterArgs α) (n : Nat) (I : Inputs α) (hT : I.T.isSome) (hu : A.useTemp = true) (hb : A.band ∈ bands)
    (hn : n ≤ 6) (verbose : Bool) : csuFhcWinterV verbose true n A I = csuFhcWinterV verbose false n A I := by
  obtain ⟨t, ht⟩ := Option.isSome_iff_exists.mp hT
  obtain ⟨figs, hf⟩ := plot_ok (pdir := "./") (f := A.tempFactor) hb (len_winter hb) hn (by omega)
  have h0 : getMbfSetsPlot .winter true false n A.tempFactor A.band "./" = .ok (setsOf .winter true A.tempFactor A.band, []) := by
    unfold getMbfSetsPlot
    rw [getMbfSets_ok .winter true A.tempFactor A.band (isSome_of_mem hb _ _)]
    rfl
  unfold csuFhcWinterV
  simp only [ht, Option.isNone_some, Bool.false_eq_true, if_false, hu, hf, h0]
  rfl

/-- **C101, partial (melting layer).**  The same for the melting-layer classifier with at most its two species. -/
theorem C101_ml_partial (A : MlArgs α) (I : Inputs α) (hT : I.T.isSome) (hu : A.useTemp = true) (hb : A.band ∈ bands)
    (hn : A.nTypes ≤ 2) (verbose : Bool) : csuFhcMlV verbose true A I = csuFhcMlV verbose false A I := by
  obtain ⟨t, ht⟩ := Option.isSome_iff_exists.mp hT
  obtain ⟨figs, hf⟩ := plot_ok (pdir := "./") (f := A.tempFactor) hb (len_ml hb) hn (by omega)
  have h0 : getMbfSetsPlot .ml true false A.nTypes A.tempFactor A.band "./" = .ok (setsOf .ml true A.tempFactor A.band, []) := by
    unfold getMbfSetsPlot
    rw [getMbfSets_ok .ml true A.tempFactor A.band (isSome_of_mem hb _ _)]
    rfl
  unfold csuFhcMlV
  simp only [ht, Option.isNone_some, Bool.false_eq_true, if_false, hu, hf, h0]
  rfl

/-- **C101, the exception.**  Without temperature (not supplied, or switched off), asking for plots makes each of the three
classifiers raise `TypeError`, whatever the data are. -/
theorem C101_no_temperature_raises (dz : NdArray α) (I : Inputs α) (hd : I.dz = some dz) (verbose : Bool) :
    (∀ A : SummerArgs α, (I.T = none ∨ A.useTemp = false) → A.band ∈ bands → 0 < A.nTypes →
      csuFhcSummerV verbose true A I = .error .typeError) ∧
    (∀ (A : WinterArgs α) (n : Nat), (I.T = none ∨ A.useTemp = false) → A.band ∈ bands → 0 < n →
      csuFhcWinterV verbose true n A I = .error .typeError) ∧
    (∀ A : MlArgs α, (I.T = none ∨ A.useTemp = false) → A.band ∈ bands → 0 < A.nTypes →
      csuFhcMlV verbose true A I = .error .typeError) := by
  have hu : ∀ u : Bool, (I.T = none ∨ u = false) → (if I.T.isNone = true then false else u) = false := by
    rintro u (h | rfl)
    · simp [h]
    · simp
  refine ⟨fun A h hb hn => ?_, fun A n h hb hn => ?_, fun A h hb hn => ?_⟩
  · unfold csuFhcSummerV
    simp only [hd, hu _ h, plot_noTemp hb (len_summer hb) (by norm_num) hn, bind, Except.bind]
  · unfold csuFhcWinterV
    simp only [hd, hu _ h, plot_noTemp hb (len_winter hb) (by norm_num) hn, bind, Except.bind]
  · unfold csuFhcMlV
    simp only [hd, hu _ h, plot_noTemp hb (len_ml hb) (by norm_num) hn, bind, Except.bind]

/-- **C101, the second exception.**  The winter classifier called with more species than its tables have - its default is seven,
the tables have six - never returns when plots are asked for. -/
theorem C101_winter_default_raises (A : WinterArgs α) (n : Nat) (hn : 6 < n) (dz : NdArray α) (I : Inputs α) (hd : I.dz = some dz)
    (verbose : Bool) (r : Option (List Nat × List (List α))) : csuFhcWinterV verbose true n A I ≠ .ok r := by
  intro h
  unfold csuFhcWinterV at h
  simp only [hd] at h
  obtain ⟨⟨sets, figs⟩, hp, -⟩ := bind_ok h
  obtain ⟨hs, hl, -, key⟩ := C100_plotted_curves _ _ _ _ _ _ _ _ hp
  have hb : A.band ∈ bands := by
    by_contra hb
    unfold getMbfSets at hs
    have hc : (csv A.band .winter .DZ).isNone = true := by
      have := (C19_bands A.band .winter .DZ).not.mpr hb
      cases hx : csv A.band .winter .DZ <;> simp_all
    rw [if_pos hc] at hs
    cases hs
  rw [getMbfSets_ok _ _ _ _ (isSome_of_mem hb _ _)] at hs
  cases hs
  have h6 : 6 < figs.length := by omega
  obtain ⟨-, hp, hk⟩ := key 6 _ (List.getElem?_eq_getElem h6)
  obtain ⟨rows, hr1, hr2⟩ := len_winter hb .DZ
  have : Key.DZ ∈ (figs[6]).panels.map (·.1) := by rw [hp]; simp
  obtain ⟨⟨k, pts⟩, hm, rfl⟩ := List.mem_map.mp this
  obtain ⟨rows', r', e1, e2, -⟩ := hk _ _ hm
  rw [setsOf_eq _ _ _ _ _ (fun h => by cases h), hr1] at e1
  cases e1
  obtain ⟨hlt, -⟩ := List.getElem?_eq_some_iff.mp e2
  simp [getBetaSet] at hlt
  omega

/-- the smallest input: one gate of reflectivity and nothing else -/
def oneGate (x : α) : Inputs α := ⟨some ⟨.float, [1], [x]⟩, none, none, none, none, none⟩

/-- **C101 is false** as stated: an ordinary call with reflectivity only succeeds without plots and raises with them. -/
theorem C101_full_false : ¬ C101Full QF := by
  rintro ⟨h, -, -⟩
  have h := h {} (oneGate (20 : QF))
  rw [(C101_no_temperature_raises _ (oneGate (20 : QF)) rfl false).1 {} (Or.inl rfl) (by decide) (by decide)] at h
  have : (match csuFhcSummer ({} : SummerArgs QF) (oneGate (20 : QF)) with | .ok _ => true | .error _ => false) = true := by
    decide +kernel
  rw [← h] at this
  cases this

/-! ## C102: verbose does not change the result -/

/-- **C102, full statement**: `verbose=True` does not change what any of the classifiers returns. -/
def C102Full (α : Type) [PyFloat α] : Prop :=
  (∀ (p : Bool) (A : SummerArgs α) (I : Inputs α), csuFhcSummerV true p A I = csuFhcSummerV false p A I) ∧
  (∀ (p : Bool) (A : WinterArgs α) (n : Nat) (I : Inputs α), csuFhcWinterV true p n A I = csuFhcWinterV false p n A I) ∧
  (∀ (p : Bool) (A : MlArgs α) (I : Inputs α), csuFhcMlV true p A I = csuFhcMlV false p A I)

theorem getTestList_length {C : Cfg α} {types : List Nat} {rows : List (List α)} (h : getTestList C types = .ok rows) :
    rows.length = types.length := by
  unfold getTestList at h
  exact (mapM_get h).1

theorem verboseMax_ok {rows : List (List α)} {sz : Nat} (h1 : rows ≠ []) (h2 : 0 < sz) : verboseMax rows sz = .ok () := by
  have : 0 < rows.length := List.length_pos_iff.mpr h1
  rw [verboseMax, if_neg (Nat.mul_pos this h2).ne']

/-- the number of species the tables give; an unknown band has raised before -/
theorem sets_len {s : Season} {u : Bool} {f : α} {band pdir : String} {p : Bool} {n m : Nat} {sets : Sets α}
    {figs : List (Figure α)} (hl : ∀ band, band ∈ bands → ∃ rows, csv band s .DZ = some rows ∧ rows.length = m)
    (h : getMbfSetsPlot s u p n f band pdir = .ok (sets, figs)) : ((sets .DZ).getD []).length = m := by
  unfold getMbfSetsPlot at h
  obtain ⟨sets', hs, h⟩ := bind_ok h
  have he : sets' = sets := by
    cases p with
    | true =>
      rw [if_pos rfl] at h
      obtain ⟨_, -, h⟩ := bind_ok h
      cases h; rfl
    | false => cases h; rfl
  subst he
  have hb : band ∈ bands := by
    by_contra hb
    unfold getMbfSets at hs
    have hc : (csv band s .DZ).isNone = true := by
      have := (C19_bands band s .DZ).not.mpr hb
      cases hx : csv band s .DZ <;> simp_all
    rw [if_pos hc] at hs
    cases hs
  rw [getMbfSets_ok _ _ _ _ (isSome_of_mem hb _ _)] at hs
  cases hs
  obtain ⟨rows, e, l⟩ := hl band hb
  rw [setsOf_eq _ _ _ _ _ (fun h => by cases h), e]
  simp [getBetaSet, l]

/-- **C102, partial.**  If the reflectivity array has at least one element, `verbose=True` does not change the result (or the
exception) of any of the three classifiers. -/
theorem C102_verbose_partial (I : Inputs α) (hne : ∀ dz, I.dz = some dz → dz.data ≠ []) (p : Bool) :
    (∀ A : SummerArgs α, csuFhcSummerV true p A I = csuFhcSummerV false p A I) ∧
    (∀ (A : WinterArgs α) (n : Nat), csuFhcWinterV true p n A I = csuFhcWinterV false p n A I) ∧
    (∀ A : MlArgs α, csuFhcMlV true p A I = csuFhcMlV false p A I) := by
  have pos : ∀ dz, I.dz = some dz → 0 < dz.data.length := fun dz h => List.length_pos_iff.mpr (hne dz h)
  refine ⟨fun A => ?_, fun A n => ?_, fun A => ?_⟩
  · unfold csuFhcSummerV
    cases hd : I.dz with
    | none => rfl
    | some dz =>
      dsimp only
      cases hs : getMbfSetsPlot .summer (if I.T.isNone = true then false else A.useTemp) p A.nTypes A.tempFactor A.band "./" with
      | error e => rfl
      | ok sf =>
        obtain ⟨sets, figs⟩ := sf
        have hl := sets_len (fun b hb => len_summer hb .DZ) hs
        simp only [bind, Except.bind, Bool.false_eq_true, if_false, if_true]
        cases methodOf A.method with
        | none => rfl
        | some hy =>
          dsimp only
          cases hr : getTestList (mkCfg I dz (if I.T.isNone = true then false else A.useTemp) (fun k _ => A.weights k) sets hy A.useTrap)
            (List.range ((sets .DZ).getD []).length) with
          | error e => rfl
          | ok rows =>
            have h10 : rows ≠ [] := by
              rintro rfl
              have := getTestList_length hr
              rw [List.length_range, hl] at this
              cases this
            dsimp only
            rw [verboseMax_ok h10 (pos dz hd)]
  · unfold csuFhcWinterV
    cases hd : I.dz with
    | none => rfl
    | some dz =>
      dsimp only
      cases hs : getMbfSetsPlot .winter (if I.T.isNone = true then false else A.useTemp) p n A.tempFactor A.band "./" with
      | error e => rfl
      | ok sf =>
        obtain ⟨sets, figs⟩ := sf
        simp only [bind, Except.bind, Bool.false_eq_true, if_false, if_true]
        cases methodOf A.method with
        | none => rfl
        | some hy =>
          dsimp only
          cases hr : getTestList (mkCfg I dz (if I.T.isNone = true then false else A.useTemp) A.weights sets hy false)
            (winterTypes A.warm) with
          | error e => rfl
          | ok rows =>
            have h10 : rows ≠ [] := by
              rintro rfl
              have := getTestList_length hr
              unfold winterTypes at this
              split at this <;> cases this
            dsimp only
            rw [verboseMax_ok h10 (pos dz hd)]
  · unfold csuFhcMlV
    cases hd : I.dz with
    | none => rfl
    | some dz =>
      dsimp only
      cases hs : getMbfSetsPlot .ml (if I.T.isNone = true then false else A.useTemp) p A.nTypes A.tempFactor A.band "./" with
      | error e => rfl
      | ok sf =>
        obtain ⟨sets, figs⟩ := sf
        have hl := sets_len (fun b hb => len_ml hb .DZ) hs
        simp only [bind, Except.bind, Bool.false_eq_true, if_false, if_true]
        cases methodOf A.method with
        | none => rfl
        | some hy =>
          dsimp only
          cases hr : getTestList (mkCfg I dz (if I.T.isNone = true then false else A.useTemp) A.weights sets hy false)
            (List.range ((sets .DZ).getD []).length) with
          | error e => rfl
          | ok rows =>
            have h10 : rows ≠ [] := by
              rintro rfl
              have := getTestList_length hr
              rw [List.length_range, hl] at this
              cases this
            dsimp only
            rw [verboseMax_ok h10 (pos dz hd)]

/-- a verbose call that returns, returns what the silent one returns -/
theorem mlV_ok {v : Bool} {A : MlArgs α} {I : Inputs α} {r : Option (List Nat × List (List α))}
    (h : csuFhcMlV v false A I = .ok r) : csuFhcMl A I = .ok r := by
  rw [← mlV_plain]
  cases v with
  | false => exact h
  | true =>
    rw [← h]
    unfold csuFhcMlV at h ⊢
    cases hd : I.dz with
    | none => rfl
    | some dz =>
      simp only [hd, bind, Except.bind, if_true, Bool.false_eq_true, if_false] at h ⊢
      split at h
      · cases h
      · split at h
        · cases h; rfl
        · split at h
          · cases h
          · rename_i hr
            split at h
            · cases h
            · rename_i hv
              simp only [hv]

theorem winterV_ok {v : Bool} {n : Nat} {A : WinterArgs α} {I : Inputs α} {r : Option (List Nat × List (List α))}
    (h : csuFhcWinterV v false n A I = .ok r) : csuFhcWinter A I = .ok r := by
  rw [← winterV_plain n]
  cases v with
  | false => exact h
  | true =>
    rw [← h]
    unfold csuFhcWinterV at h ⊢
    cases hd : I.dz with
    | none => rfl
    | some dz =>
      simp only [hd, bind, Except.bind, if_true, Bool.false_eq_true, if_false] at h ⊢
      split at h
      · cases h
      · split at h
        · cases h; rfl
        · split at h
          · cases h
          · rename_i hr
            split at h
            · cases h
            · rename_i hv
              simp only [hv]

theorem mlV_nonempty {v : Bool} {A : MlArgs α} {I : Inputs α} (hne : ∀ dz, I.dz = some dz → dz.data ≠ []) :
    csuFhcMlV v false A I = csuFhcMl A I := by
  cases v with
  | false => exact mlV_plain A I
  | true => rw [(C102_verbose_partial I hne false).2.2, mlV_plain]

theorem winterV_nonempty {v : Bool} {n : Nat} {A : WinterArgs α} {I : Inputs α} (hne : ∀ dz, I.dz = some dz → dz.data ≠ []) :
    csuFhcWinterV v false n A I = csuFhcWinter A I := by
  cases v with
  | false => exact winterV_plain n A I
  | true => rw [(C102_verbose_partial I hne false).2.1, winterV_plain]

/-- an array without gates -/
def noGates : Inputs QF := ⟨some ⟨.float, [0], []⟩, none, none, none, none, none⟩

/-- **C102 is false** as stated: for an array without gates the silent call returns and the verbose one raises `ValueError`. -/
theorem C102_full_false : ¬ C102Full QF := by
  rintro ⟨h, -, -⟩
  have h := h false {} noGates
  have h1 : (match csuFhcSummerV true false ({} : SummerArgs QF) noGates with | .error .valueError => true | _ => false) = true := by
    decide +kernel
  have h2 : (match csuFhcSummerV false false ({} : SummerArgs QF) noGates with | .ok _ => true | .error _ => false) = true := by
    decide +kernel
  rw [h] at h1
  revert h1 h2
  cases csuFhcSummerV false false ({} : SummerArgs QF) noGates <;> simp

/-! ## the hypotheses can be met -/

/-- a call with temperature for which plots are drawn: one gate, 20 dBZ, 10 degrees -/
def warmGate : Inputs QF := ⟨some ⟨.float, [1], [20]⟩, none, none, none, none, some ⟨.float, [1], [10]⟩⟩

example : (match csuFhcSummerV true true ({} : SummerArgs QF) warmGate with | .ok (some (.hid [1] [_])) => true | _ => false) = true := by
  rw [C101_summer_partial {} warmGate rfl rfl (by decide) (by decide) true,
    (C102_verbose_partial warmGate (by rintro dz ⟨⟩; simp) false).1, summerV_plain]
  decide +kernel

example : ∃ sets figs, getMbfSetsPlot (α := QF) .summer true true 10 1 "X" "plots/" = .ok (sets, figs) ∧ figs.length = 10 := by
  obtain ⟨figs, h⟩ := plot_ok (α := QF) (s := .summer) (f := 1) (band := "X") (pdir := "plots/") (by decide) (len_summer (by decide))
    (le_refl 10) (le_refl 10)
  exact ⟨_, figs, h, (C100_plotted_curves _ _ _ _ _ _ _ _ h).2.1⟩

end Csu.Fhc
