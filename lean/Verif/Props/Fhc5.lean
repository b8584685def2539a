import Verif.Props.Fhc4
import Verif.QFloat
/-!
# C25, C28, C80: failure contract of the summer classifier; NaN reflectivity
-/
namespace Csu.Fhc
open Csu PyFloat Tables XR FhcSpec

/-! ## C25 -/

/-- C25: no reflectivity, no result. -/
theorem C25_no_dz {α : Type} [PyFloat α] (A : SummerArgs α) (I : Inputs α) (h : I.dz = none) :
    csuFhcSummer A I = .ok none := by
  simp [csuFhcSummer, summerRows, h, bind, Except.bind]

theorem subList_iff (p s : List Char) : subList p s = true ↔ ∃ before after : List Char, s = before ++ p ++ after := by
  induction s with
  | nil =>
    simp only [subList, List.isEmpty_iff]
    constructor
    · rintro rfl; exact ⟨[], [], rfl⟩
    · rintro ⟨b, a, h⟩
      have := congrArg List.length h
      simp only [List.length_nil, List.length_append] at this
      exact List.length_eq_zero_iff.mp (by omega)
  | cons c s ih =>
    simp only [subList, Bool.or_eq_true, ih, List.isPrefixOf_iff_prefix]
    constructor
    · rintro (⟨t, ht⟩ | ⟨b, a, rfl⟩)
      · exact ⟨[], t, by simpa using ht.symm⟩
      · exact ⟨c :: b, a, rfl⟩
    · rintro ⟨b, a, h⟩
      cases b with
      | nil => exact Or.inl ⟨a, by simpa using h.symm⟩
      | cons d b =>
        simp only [List.cons_append, List.cons.injEq] at h
        exact Or.inr ⟨b, a, h.2⟩

theorem isIn_iff (p s : String) : isIn p s = true ↔ Occurs p s := by
  unfold isIn Occurs
  rw [subList_iff]
  constructor
  · rintro ⟨b, a, h⟩
    refine ⟨String.ofList b, String.ofList a, ?_⟩
    apply String.toList_inj.mp
    simpa using h
  · rintro ⟨b, a, rfl⟩
    exact ⟨b.toList, a.toList, by simp⟩

/-- C25: which method a text selects: any text with `hybrid` in it the hybrid one, any other text with `linear` in it the linear one,
and nothing else is recognised. -/
theorem C25_method_selection (m : String) :
    (methodOf m = some true ↔ Occurs "hybrid" m) ∧
    (methodOf m = some false ↔ ¬ Occurs "hybrid" m ∧ Occurs "linear" m) ∧
    (methodOf m = none ↔ ¬ Occurs "hybrid" m ∧ ¬ Occurs "linear" m) := by
  simp only [← isIn_iff, methodOf]
  cases isIn "hybrid" m <;> cases isIn "linear" m <;> simp

/-- C25: a method that names neither `hybrid` nor `linear` makes each of the classifiers return `None`, whatever the data. -/
theorem C25_bad_method {α : Type} [PyFloat α] (I : Inputs α) (m : String) (h1 : ¬ Occurs "hybrid" m) (h2 : ¬ Occurs "linear" m) :
    (∀ A : SummerArgs α, A.band ∈ bands → A.method = m → csuFhcSummer A I = .ok none) ∧
    (∀ A : WinterArgs α, A.band ∈ bands → A.method = m → csuFhcWinter A I = .ok none) ∧
    (∀ A : MlArgs α, A.band ∈ bands → A.method = m → csuFhcMl A I = .ok none) := by
  have h := (C25_method_selection m).2.2.mpr ⟨h1, h2⟩
  refine ⟨fun A hb e => ?_, fun A hb e => ?_, fun A hb e => ?_⟩
  · cases hd : I.dz with
    | none => exact C25_no_dz A I hd
    | some dz => simp only [csuFhcSummer, summerRows, hd, bind, Except.bind, getMbfSets_ok _ _ _ _ (isSome_of_mem hb _ _), e, h]
  · cases hd : I.dz with
    | none => simp [csuFhcWinter, hd]
    | some dz => simp only [csuFhcWinter, hd, bind, Except.bind, getMbfSets_ok _ _ _ _ (isSome_of_mem hb _ _), e, h]
  · cases hd : I.dz with
    | none => simp [csuFhcMl, hd]
    | some dz => simp only [csuFhcMl, hd, bind, Except.bind, getMbfSets_ok _ _ _ _ (isSome_of_mem hb _ _), e, h]

example : Occurs "hybrid" "the hybrid one" := ⟨"the ", " one", by decide⟩
example : ¬ Occurs "hybrid" "fuzzy" ∧ ¬ Occurs "linear" "fuzzy" := by
  simp only [← isIn_iff]; decide

/-! ## C103: the two membership functions agree -/

/-- **C103.** The public NumPy membership function `hid_beta` and the compiled `hid_beta_f` give the same value at every gate, in any
arithmetic, whenever the width is not zero; with a zero width the compiled one raises ZeroDivisionError (if there is a gate). -/
theorem C103_hid_beta {α : Type} [PyFloat α] (x : List α) (r : Row α) :
    ((r.a ==. 0) = false → hidBetaF x.length x r = .ok (x.map (fun v => hidBeta v r.a r.b r.m))) ∧
    ((r.a ==. 0) = true → x ≠ [] → hidBetaF x.length x r = .error .zeroDivisionError) := by
  constructor
  · intro h
    unfold hidBetaF
    by_cases h0 : x.length = 0
    · simp [List.length_eq_zero_iff.mp h0]
    · rw [if_neg h0, h]
      simp only [Bool.false_eq_true, if_false, lt_irrefl, List.take_length]
      congr 1
      apply List.map_congr_left
      intro v _
      unfold beta hidBeta
      have : (2 : α) = 2.0 := by
        show PyFloat.lit ((2 : Nat) : Rat) = PyFloat.lit (OfScientific.ofScientific 20 true 1)
        norm_num
      rw [this]
  · intro h hx
    unfold hidBetaF
    rw [if_neg (by simpa using hx), if_pos h]

example : hidBetaF 2 [(20 : QF), 45] ⟨30, 10, 1⟩ = .ok [hidBeta 20 10 1 30, hidBeta 45 10 1 30] := by
  have := (C103_hid_beta [(20 : QF), 45] ⟨30, 10, 1⟩).1 (by decide +kernel)
  exact this

/-- C25: a band other than `S`, `C`, `X` raises FileNotFoundError. -/
theorem C25_bad_band {α : Type} [PyFloat α] (A : SummerArgs α) (I : Inputs α) (dz : NdArray α) (hd : I.dz = some dz)
    (hb : A.band ∉ bands) : csuFhcSummer A I = .error .fileNotFoundError := by
  have : (csv A.band .summer .DZ).isNone = true := by
    cases h : csv A.band .summer .DZ with
    | none => rfl
    | some r => exact absurd ((C19_bands A.band .summer .DZ).mp (by simp [h])) hb
  simp only [csuFhcSummer, summerRows, hd, bind, Except.bind, getMbfSets, this, if_true]

/-- C25: `n_types` other than 10 raises ValueError as soon as there is a gate. -/
theorem C25_bad_n_types {α : Type} [PyFloat α] (A : SummerArgs α) (I : Inputs α) (P : Key → Bool) (hybrid : Bool)
    (hA : GoodCall A P hybrid) (hw : NoZeroWidth α .summer A.band A.tempFactor) (g : Key → α) (gs : List (Key → α))
    (hn : A.nTypes ≠ 10) (h : IsGates I P (g :: gs)) : csuFhcSummer A I = .error .valueError := by
  obtain ⟨dz, h1, h2, h3⟩ := summerRows_ok A (isSome_of_mem hA.band _ _) (length_summer hA.band) hw hybrid hA.method h
    hA.dz hA.lin hA.linT
  have hlen : dz.data.length = gs.length + 1 := by rw [h2]; simp
  simp only [csuFhcSummer, h3, bind, Except.bind, List.length_map, List.length_range, hlen]
  rw [if_pos]
  intro h
  have := Nat.eq_of_mul_eq_mul_right (Nat.succ_pos _) h
  exact hn this.symm

/-- The full claim: every documented combination (a shipped band, a recognised method, any subset of variables that
includes reflectivity, any flags, `n_types` 10) returns a classification. -/
def C80Full : Prop := ∀ (A : SummerArgs XR) (P : Key → Bool) (gs : List (Key → XR)), A.band ∈ bands →
  (methodOf A.method).isSome = true → A.nTypes = 10 → A.tempFactor = 1 → P .DZ = true →
  ∃ out, csuFhcSummer A (inputsOf P gs) = .ok (some out)

/-- C25: with the hybrid method every subset and every flag works, in any arithmetic. -/
theorem C25_hybrid {α : Type} [PyFloat α] (A : SummerArgs α) (P : Key → Bool) (gs : List (Key → α))
    (I : Inputs α) (hb : A.band ∈ bands) (hm : methodOf A.method = some true) (hn : A.nTypes = 10)
    (hw : NoZeroWidth α .summer A.band A.tempFactor) (hP : P .DZ = true) (h : IsGates I P gs) :
    ∃ out, csuFhcSummer A I = .ok (some out) := by
  obtain ⟨dz, _, h2⟩ := summer_gates (hybrid := true) ⟨hb, hm, hP, by simp, by simp⟩ hn hw h
  exact ⟨_, h2⟩

variable {α : Type} [PyFloat α] {I : Inputs α} {P : Key → Bool} {gs : List (Key → α)}

/-- a linear call unfolded down to the first species -/
theorem linear_first (A : SummerArgs α) (hb : A.band ∈ bands) (hm : methodOf A.method = some false)
    (h : IsGates I P gs) (hP : P .DZ = true) (e : PyErr)
    (he : ∀ dz, I.dz = some dz → testFor (mkCfg I dz (effTemp P A.useTemp) (fun k _ => A.weights k)
      (setsOf .summer (effTemp P A.useTemp) A.tempFactor A.band) false A.useTrap) 0 = .error e) :
    csuFhcSummer A I = .error e := by
  obtain ⟨dz, hd, _⟩ := h.dz hP
  have hu : (if I.T.isNone then false else A.useTemp) = effTemp P A.useTemp := by
    rw [h.T_isNone]; cases hp : P .T <;> simp [effTemp, hp]
  have hlen : ((setsOf .summer (effTemp P A.useTemp) A.tempFactor A.band .DZ).getD []).length = 10 := by
    obtain ⟨rows, h1, h2, _⟩ := C19_summer A.band hb .DZ
    rw [setsOf_eq _ _ _ _ _ (by simp), h1]
    simpa [getBetaSet] using h2
  have hl : List.range 10 = 0 :: (List.range 9).map (· + 1) := by decide
  simp only [csuFhcSummer, summerRows, hd, hu, getMbfSets_ok .summer (effTemp P A.useTemp) A.tempFactor A.band
    (isSome_of_mem hb _ _), hm, bind, Except.bind, hlen, getTestList]
  rw [hl, mapM_error _ _ e (he dz hd)]

theorem polFlag_gates (h : IsGates I P gs) (dz : NdArray α) (u : Bool) (w : Key → Nat → α) (sets : Sets α)
    (hyb trap : Bool) : polFlag (mkCfg I dz u w sets hyb trap) = !((pol.filter P).isEmpty) := by
  unfold polFlag
  have hv : (mkCfg I dz u w sets hyb trap).vars = _ := funext (h.vars u)
  rw [hv]
  cases h1 : P .DR <;> cases h2 : P .KD <;> cases h3 : P .RH <;> cases h4 : P .LD <;>
    simp [pol, h1, h2, h3, h4]

/-- C80: with the linear method and no polarimetric variable the call raises UnboundLocalError. -/
theorem C80_linear_no_pol (A : SummerArgs α) (hb : A.band ∈ bands) (hm : methodOf A.method = some false)
    (hP : P .DZ = true) (hpol : ∀ k ∈ pol, P k = false) (h : IsGates I P gs) :
    csuFhcSummer A I = .error .unboundLocalError := by
  apply linear_first A hb hm h hP
  intro dz _
  have hp : pol.filter P = [] := by
    rw [List.filter_eq_nil_iff]; intro k hk; simp [hpol k hk]
  have : polFlag (mkCfg I dz (effTemp P A.useTemp) (fun k _ => A.weights k)
      (setsOf .summer (effTemp P A.useTemp) A.tempFactor A.band) false A.useTrap) = false := by
    rw [polFlag_gates h, hp]; rfl
  unfold testFor
  rw [this]; rfl

theorem mapM_error_mem {ι β : Type} {F : ι → Except PyErr β} (l : List ι) (e : PyErr)
    (h : ∀ k ∈ l, (∃ v, F k = .ok v) ∨ F k = .error e) (hex : ∃ k ∈ l, F k = .error e) : l.mapM F = .error e := by
  induction l with
  | nil => obtain ⟨k, hk, _⟩ := hex; cases hk
  | cons x xs ih =>
    rw [List.mapM_cons]
    rcases h x (by simp) with ⟨v, hv⟩ | hx
    · rw [hv]
      have : ∃ k ∈ xs, F k = .error e := by
        obtain ⟨k, hk, hk'⟩ := hex
        rcases List.mem_cons.mp hk with rfl | hk
        · rw [hv] at hk'; cases hk'
        · exact ⟨k, hk, hk'⟩
      show (xs.mapM F >>= fun ys => pure (v :: ys)) = _
      rw [ih (fun k hk => h k (by simp [hk])) this]; rfl
    · rw [hx]; rfl

/-- C80: with the linear method, temperature supplied, and both `use_temp` and `use_trap` off, the call raises
TypeError. -/
theorem C80_linear_temp_off (A : SummerArgs α) (hb : A.band ∈ bands) (hm : methodOf A.method = some false)
    (hP : P .DZ = true) (hT : P .T = true) (hpol : ∃ k ∈ pol, P k = true) (hu : A.useTemp = false)
    (ht : A.useTrap = false) (hw : NoZeroWidth α .summer A.band A.tempFactor) (h : IsGates I P gs) :
    csuFhcSummer A I = .error .typeError := by
  apply linear_first A hb hm h hP
  intro dz hd
  obtain ⟨dz', hd', hdz⟩ := h.dz hP
  rw [hd] at hd'
  cases hd'
  have heff : effTemp P A.useTemp = false := by simp [effTemp, hu]
  rw [heff, ht]
  have hpf : pol.filter P ≠ [] := by
    obtain ⟨k, h1, h2⟩ := hpol
    exact List.ne_nil_of_mem (List.mem_filter.mpr ⟨h1, h2⟩)
  generalize hC : mkCfg I dz false (fun k _ => A.weights k) (setsOf .summer false A.tempFactor A.band) false false = C
  have hp : polFlag C = true := by
    rw [← hC, polFlag_gates h]; simpa using hpf
  have hmem : ∀ k, P k = true → (∃ v, weighted C k 0 = .ok v) ∨ weighted C k 0 = .error .typeError := by
    intro k hk
    have hdk : C.data k = some (gs.map (fun g => g k)) := by
      rw [← hC]; have := h k; rw [if_pos hk] at this; exact this
    by_cases hkT : k = .T
    · right
      have hs : C.sets k = none := by rw [← hC, hkT]; rfl
      simp [weighted, member, hdk, hs, bind, Except.bind]
    · left
      obtain ⟨rows, h1, h2, _⟩ := C19_summer A.band hb k
      have hs : C.sets k = some (getBetaSet rows 1.0) := by
        rw [← hC]
        show setsOf .summer false A.tempFactor A.band k = _
        rw [setsOf_eq _ _ _ _ _ (fun e => absurd e hkT), h1, if_neg hkT]; rfl
      have hr0 : (0 : Nat) < rows.length := by omega
      have hz := hw k rows rows[0] h1 (List.getElem_mem _)
      rw [if_neg hkT] at hz
      have hsz : C.sz = gs.length := by rw [← hC]; show dz.data.length = _; rw [hdz]; simp
      have hg : (getBetaSet rows (1.0 : α))[0]? =
          some ⟨rawVal rows[0].m / 1.0, rawVal rows[0].a / 1.0, rawVal rows[0].b / 1.0⟩ := by
        simp [getBetaSet, hr0]
      simp only [weighted, member, hdk, hs, hg, hidBetaF, hsz, hz, bind, Except.bind]
      by_cases h0 : gs.length = 0
      · simp [h0]
      · simp [h0]
  have hkeys : ∀ k ∈ usedKeys C, P k = true := by
    intro k hk
    have := (List.mem_filter.mp hk).2
    rw [← hC] at this
    have h2 : (radarData I k).isSome = true := this
    rw [radarData, Option.isSome_map, h.isSome] at h2
    exact h2
  have hTmem : Key.T ∈ usedKeys C := by
    apply List.mem_filter.mpr
    constructor
    · rw [← hC]; simp [mkCfg, varlist]
    · rw [← hC]
      show (radarData I .T).isSome = true
      rw [radarData, Option.isSome_map, h.isSome]; exact hT
  have hTerr : weighted C .T 0 = .error .typeError := by
    have hdk : C.data .T = some (gs.map (fun g => g .T)) := by
      rw [← hC]; have := h .T; rw [if_pos hT] at this; exact this
    have hs : C.sets .T = none := by rw [← hC]; rfl
    simp [weighted, member, hdk, hs, bind, Except.bind]
  have hm2 : (usedKeys C).mapM (fun k => weighted C k 0) = .error .typeError :=
    mapM_error_mem _ _ (fun k hk => hmem k (hkeys k hk)) ⟨.T, hTmem, hTerr⟩
  have hh : C.hybrid = false := by rw [← hC]; rfl
  have htr : C.trap = false := by rw [← hC]; rfl
  unfold testFor
  simp only [hh, Bool.false_eq_true, if_false, hp, if_true, polTest, htr, calculateTest, hm2, bind, Except.bind]

/-- C80, what holds for the linear method: it returns a classification exactly when a polarimetric variable is supplied
and temperature, if supplied, is used (`use_temp` or `use_trap`). -/
theorem C80_linear_partial (A : SummerArgs α) (hb : A.band ∈ bands) (hm : methodOf A.method = some false)
    (hn : A.nTypes = 10) (hw : NoZeroWidth α .summer A.band A.tempFactor) (hP : P .DZ = true) (h : IsGates I P gs) :
    (∃ out, csuFhcSummer A I = .ok (some out)) ↔
      (∃ k ∈ pol, P k = true) ∧ (P .T = true → A.useTemp = true ∨ A.useTrap = true) := by
  constructor
  · rintro ⟨out, ho⟩
    have h1 : ∃ k ∈ pol, P k = true := by
      by_contra hc
      have := C80_linear_no_pol A hb hm hP (by
        intro k hk; by_contra hx; exact hc ⟨k, hk, by simpa using hx⟩) h
      rw [this] at ho; cases ho
    refine ⟨h1, ?_⟩
    intro hT
    by_contra hc
    simp only [not_or, Bool.not_eq_true] at hc
    rw [C80_linear_temp_off A hb hm hP hT h1 hc.1 hc.2 hw h] at ho
    cases ho
  · rintro ⟨⟨k, h1, h2⟩, h3⟩
    obtain ⟨dz, _, h4⟩ := summer_gates (hybrid := false)
      ⟨hb, hm, hP, fun _ => List.ne_nil_of_mem (List.mem_filter.mpr ⟨h1, h2⟩), fun _ => h3⟩ hn hw h
    exact ⟨_, h4⟩

/-- C80 is false of the code. -/
theorem C80_full_false : ¬ C80Full := by
  intro hf
  have hb : ({ method := "linear" } : SummerArgs XR).band ∈ bands := by simp [bands]
  obtain ⟨out, h⟩ := hf { method := "linear" } (fun k => k == .DZ) [fun _ => fin 30] hb
    (by show (methodOf "linear").isSome = true; decide) rfl rfl rfl
  rw [C80_linear_no_pol (P := fun k => k == .DZ) (gs := [fun _ => fin 30]) { method := "linear" } hb
    (by show methodOf "linear" = _; decide) rfl (by intro k hk; simp [pol] at hk; rcases hk with rfl | rfl | rfl | rfl <;> rfl)
    (isGates_inputsOf _ _)] at h
  cases h

/-! ## C28 -/

/-- The full claim: a gate whose reflectivity is NaN gets no species number. -/
def C28Full : Prop := ∀ (A : SummerArgs XR) (P : Key → Bool) (gs : List (Key → XR)) (shape cats : List Nat),
  csuFhcSummer A (inputsOf P gs) = .ok (some (.hid shape cats)) →
  ∀ i (h : i < gs.length), gs[i] .DZ = XR.nan → ¬ (1 ≤ cats.getD i 0 ∧ cats.getD i 0 ≤ 10)

theorem beta_nan (B : Bell) (hb : 0 < B.b) : beta (xrow B) XR.nan = XR.nan := by
  simp only [beta, xrow, nan_sub, nan_div]
  rw [two_eq, nan_pow (by norm_num), nan_pow hb.ne']
  simp

theorem foldl_nan (l : List XR) : l.foldl (· + ·) XR.nan = XR.nan := by
  induction l with
  | nil => rfl
  | cons x xs ih => simpa using ih

theorem npSum_nan (l : List XR) (h : XR.nan ∈ l) : npSum l = XR.nan := by
  unfold npSum
  generalize (0 : XR) = a
  induction l generalizing a with
  | nil => cases h
  | cons x xs ih =>
    rcases List.mem_cons.mp h with rfl | h
    · simp [foldl_nan]
    · exact ih h _

/-- a NaN reflectivity makes every score NaN -/
theorem gScore_nan {band : String} (hb : band ∈ bands) {P : Key → Bool} (hP : P .DZ = true) (u : Bool)
    (w : Key → Nat → XR) (f : XR) (hybrid trap : Bool) (c : Nat) (hc : c < 10) (g : Key → XR) (hg : g .DZ = XR.nan) :
    gScore (cfg P u w (setsOf .summer (effTemp P u) f band) hybrid trap) c g = XR.nan := by
  obtain ⟨rows, h1, h2, h3⟩ := goodAt_summer hb P c hc .DZ hP
  have hm : gMember (setsOf .summer (effTemp P u) f band) c .DZ g = XR.nan := by
    have hone : (1.0 : XR) = fin 1 := by rw [fsci]; norm_num
    unfold gMember
    rw [setsOf_eq _ _ _ _ _ (by simp), h1]
    have := xrow_of_good h3 one_pos
    simp only [Option.map_some, Option.bind_some, getBetaSet, List.getElem?_map, List.getElem?_eq_getElem h2,
      if_neg (show ¬ (Key.DZ = Key.T) by decide), hone, this.1, hg]
    exact beta_nan _ this.2.2
  generalize hC : cfg P u w (setsOf .summer (effTemp P u) f band) hybrid trap = C
  have hs : C.sets = setsOf .summer (effTemp P u) f band := by rw [← hC]; rfl
  unfold gScore
  rw [hs, hm]
  by_cases hh : C.hybrid = true
  · simp only [hh, if_true, mul_nan]; split_ifs <;> rfl
  · simp only [hh]
    have hk : Key.DZ ∈ usedKeys C := by
      apply List.mem_filter.mpr
      constructor
      · simp [hh, varlist]
      · rw [← hC]; simp [cfg, hP]
    have ht : gTerm C c g .DZ = XR.nan := by simp [gTerm, hs, hm]
    show gPol C c g = XR.nan
    unfold gPol
    rw [npSum_nan _ (List.mem_map.mpr ⟨.DZ, hk, ht⟩)]
    simp

/-- C28, what the code does: every gate with NaN reflectivity is classified as species 1 (drizzle), for every successful
kind of call: any variables, weights, band, method, flags. -/
theorem C28_nan_is_drizzle_partial (A : SummerArgs XR) (I : Inputs XR) (P : Key → Bool) (gs : List (Key → XR))
    (hybrid : Bool) (hA : GoodCall A P hybrid) (hn : A.nTypes = 10)
    (hw : NoZeroWidth XR .summer A.band A.tempFactor) (hret : A.returnScores = false) (h : IsGates I P gs) :
    ∃ shape cats, csuFhcSummer A I = .ok (some (.hid shape cats)) ∧
      ∀ i (hi : i < gs.length), gs[i] .DZ = XR.nan → cats.getD i 0 = 1 := by
  obtain ⟨dz, _, h2⟩ := summer_gates hA hn hw h
  simp only [hret, Bool.false_eq_true, if_false] at h2
  refine ⟨_, _, h2, ?_⟩
  intro i hi hnan
  simp only [List.getD, List.getElem?_map, List.getElem?_eq_getElem hi, Option.map_some, Option.getD_some]
  have hl : List.range 10 = 0 :: (List.range 9).map (· + 1) := by decide
  rw [hl, List.map_cons, gScore_nan hA.band hA.dz _ _ _ _ _ 0 (by norm_num) _ hnan]
  exact argmaxPlus1_nan _

/-- C28, what a user can rely on: with `return_scores` all ten scores of such a gate are NaN (and by C20 no gate with
finite inputs has a NaN score). -/
theorem C28_scores_are_nan_partial (A : SummerArgs XR) (I : Inputs XR) (P : Key → Bool) (gs : List (Key → XR))
    (hybrid : Bool) (hA : GoodCall A P hybrid) (hn : A.nTypes = 10)
    (hw : NoZeroWidth XR .summer A.band A.tempFactor) (hret : A.returnScores = true) (h : IsGates I P gs) :
    ∃ shape rows, csuFhcSummer A I = .ok (some (.scores shape rows)) ∧ rows.length = 10 ∧
      ∀ i (hi : i < gs.length), gs[i] .DZ = XR.nan → ∀ row ∈ rows, row.getD i (fin 0) = XR.nan := by
  obtain ⟨dz, _, h2⟩ := summer_gates hA hn hw h
  simp only [hret, if_true] at h2
  refine ⟨_, _, h2, by simp, ?_⟩
  intro i hi hnan row hrow
  obtain ⟨c, hc, rfl⟩ := List.mem_map.mp hrow
  simp only [List.getD, List.getElem?_map, List.getElem?_eq_getElem hi, Option.map_some, Option.getD_some]
  exact gScore_nan hA.band hA.dz _ _ _ _ _ c (List.mem_range.mp hc) _ hnan

theorem noZeroWidth_default {band : String} (hb : band ∈ bands) : NoZeroWidth XR .summer band 1 := by
  have := noZeroWidth_summer hb one_pos
  rwa [← fone] at this

theorem defaultGood : GoodCall ({} : SummerArgs XR) (fun k => k == .DZ) true :=
  ⟨by simp [bands], by show methodOf "hybrid" = _; decide, rfl, by simp, by simp⟩

/-- C28 is false of the code. -/
theorem C28_full_false : ¬ C28Full := by
  intro hf
  obtain ⟨s, c, h1, h2⟩ := C28_nan_is_drizzle_partial {} (inputsOf (fun k => k == .DZ) [fun _ => XR.nan]) _
    [fun _ => XR.nan] true defaultGood rfl (noZeroWidth_default (by simp [bands])) rfl (isGates_inputsOf _ _)
  have := hf {} _ [fun _ => XR.nan] s c h1 0 (by simp) rfl
  rw [h2 0 (by simp) rfl] at this
  exact this ⟨le_rfl, by norm_num⟩

end Csu.Fhc
