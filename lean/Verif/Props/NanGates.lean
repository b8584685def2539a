import Verif.Props.Winter2
/-!
# C123: a missing value (NaN) in any variable that is supplied
-/
namespace Csu.Fhc
open Csu PyFloat Tables XR FhcSpec

/-- a NaN in a supplied variable makes the score of every species NaN, whatever the weights -/
theorem gScore_nan_any {band : String} {s : Season} {P : Key → Bool} {c : Nat} (hg : GoodAt band s P c) {f : ℝ} (hf : 0 < f)
    (u : Bool) (w : Key → Nat → XR) (hybrid trap : Bool) (ht : hybrid = false → trap = false) {k : Key} (hk : P k = true)
    (hu : k = .T → u = true) (g : Key → XR) (hn : g k = XR.nan) :
    gScore (cfg P u w (setsOf s (effTemp P u) (fin f) band) hybrid trap) c g = XR.nan := by
  obtain ⟨rows, h1, h2, h3⟩ := hg k hk
  have hone : (1.0 : XR) = fin 1 := by rw [fsci]; norm_num
  have he : k = .T → effTemp P u = true := by intro e; subst e; simp [effTemp, hk, hu rfl]
  have hm : gMember (setsOf s (effTemp P u) (fin f) band) c k g = XR.nan := by
    unfold gMember
    rw [setsOf_eq _ _ _ _ _ he, h1]
    by_cases hT : k = .T
    · have := xrow_of_good h3 hf
      simp only [Option.map_some, Option.bind_some, getBetaSet, List.getElem?_map, List.getElem?_eq_getElem h2,
        if_pos hT, this.1, hn]
      exact beta_nan _ this.2.2
    · have := xrow_of_good h3 one_pos
      simp only [Option.map_some, Option.bind_some, getBetaSet, List.getElem?_map, List.getElem?_eq_getElem h2,
        if_neg hT, hone, this.1, hn]
      exact beta_nan _ this.2.2
  generalize hC : cfg P u w (setsOf s (effTemp P u) (fin f) band) hybrid trap = C
  have hs : C.sets = setsOf s (effTemp P u) (fin f) band := by rw [← hC]; rfl
  have hh : C.hybrid = hybrid := by rw [← hC]; rfl
  have htr : C.trap = trap := by rw [← hC]; rfl
  have huT : C.useTemp = effTemp P u := by rw [← hC]; rfl
  have hpolnan : k ∈ varlist C.hybrid → gPol C c g = XR.nan := by
    intro hv
    have hkm : k ∈ usedKeys C := List.mem_filter.mpr ⟨hv, by rw [← hC]; simp [cfg, hk]⟩
    have hterm : gTerm C c g k = XR.nan := by
      have : ¬ (C.trap = true ∧ k = .T) := by
        rintro ⟨h1, h2⟩
        rw [htr] at h1
        rw [hh] at hv
        cases hybrid with
        | false => rw [ht rfl] at h1; cases h1
        | true => subst h2; simp [varlist] at hv
      simp only [gTerm]
      simp only [hs, hm]
      by_cases ha : C.trap = true
      · have hb : k ≠ .T := fun e => this ⟨ha, e⟩
        simp [ha, hb]
      · simp [ha]
    unfold gPol
    rw [npSum_nan _ (List.mem_map.mpr ⟨k, hkm, hterm⟩)]
    simp
  unfold gScore
  cases hybrid with
  | false =>
    rw [hh]
    simp only [Bool.false_eq_true, if_false]
    exact hpolnan (by rw [hh]; cases k <;> simp [varlist])
  | true =>
    rw [hh]
    simp only [if_true]
    by_cases hk1 : k ∈ varlist true
    · have hpf : polFlag C = true := by
        unfold polFlag
        have hT : k ≠ .T := by rintro rfl; simp [varlist] at hk1
        have : C.vars k = 1 := by rw [← hC]; simp [cfg, hk, hT]
        cases k <;> simp_all [varlist]
      rw [hpolnan (by rw [hh]; exact hk1), hpf]
      split_ifs <;> simp_all
    · cases k
      all_goals first
        | (exfalso; apply hk1; simp [varlist]; done)
        | skip
      · rw [hs, hm]
        split_ifs <;> first | rfl | simp
      · have hut : C.useTemp = true := huT.trans (he rfl)
        rw [hs, hm, hut]
        cases polFlag C <;> simp

/-- The full claim for `csu_fhc_summer`: a gate with a NaN in a supplied variable gets no hydrometeor class. -/
def C123Full : Prop := ∀ (A : SummerArgs XR) (P : Key → Bool) (gs : List (Key → XR)) (shape cats : List Nat),
  csuFhcSummer A (inputsOf P gs) = .ok (some (.hid shape cats)) →
  ∀ i (h : i < gs.length) (k : Key), P k = true → gs[i] k = XR.nan → ¬ (1 ≤ cats.getD i 0 ∧ cats.getD i 0 ≤ 10)

/-- The full claim for `run_winter`: a gate with a NaN in reflectivity, differential reflectivity, differential phase or
temperature is marked -1. -/
def C123FullWinter : Prop := ∀ (env : Env) (A : MeltArgs XR) (F : Fields XR) (out : WinterOut XR), runWinter env A F = .ok out →
  ∀ (k : Key) (a : NdArray XR) (i : Nat) (v : Int), (winterInputs F).get k = some a → a.data[i]? = some XR.nan →
    out.hca[i]? = some v → v = -1

/-- **C123**, what `csu_fhc_summer` does: every gate with a NaN in a supplied variable that is used (temperature: only if
`use_temp`) is given species 1 (drizzle), even if the weight of that variable is 0. -/
theorem C123_summer_partial (A : SummerArgs XR) (I : Inputs XR) (P : Key → Bool) (gs : List (Key → XR))
    (hybrid : Bool) (hA : GoodCall A P hybrid) (hn : A.nTypes = 10) (f : ℝ) (hf : 0 < f) (hfe : A.tempFactor = fin f)
    (htrap : hybrid = false → A.useTrap = false) (hret : A.returnScores = false) (h : IsGates I P gs) :
    ∃ shape cats, csuFhcSummer A I = .ok (some (.hid shape cats)) ∧ cats.length = gs.length ∧
      ∀ i (hi : i < gs.length) (k : Key), P k = true → (k = .T → A.useTemp = true) → gs[i] k = XR.nan → cats[i]? = some 1 := by
  obtain ⟨dz, _, h2⟩ := summer_gates hA hn (by rw [hfe]; exact noZeroWidth_summer hA.band hf) h
  simp only [hret, Bool.false_eq_true, if_false] at h2
  refine ⟨_, _, h2, by simp, ?_⟩
  intro i hi k hk hu hnan
  rw [List.getElem?_map, List.getElem?_eq_getElem hi, Option.map_some, hfe]
  have hl : List.range 10 = 0 :: (List.range 9).map (· + 1) := by decide
  rw [hl, List.map_cons, gScore_nan_any (goodAt_summer hA.band P 0 (by norm_num)) hf _ _ _ _ htrap hk hu _ hnan]
  rw [argmaxPlus1_nan]

/-- **C123**, what `csu_fhc_winter` does: all scores of such a gate are NaN. -/
theorem C123_winter_partial (A : WinterArgs XR) (I : Inputs XR) (P : Key → Bool) (gs : List (Key → XR)) (hybrid : Bool)
    (hA : GoodWinter A P hybrid) (f : ℝ) (hf : 0 < f) (hfe : A.tempFactor = fin f) (h : IsGates I P gs) :
    ∃ shape rows, csuFhcWinter A I = .ok (some (shape, rows)) ∧ rows.length = (if A.warm then 2 else 4) ∧
      ∀ i (hi : i < gs.length) (k : Key), P k = true → (k = .T → A.useTemp = true) → gs[i] k = XR.nan →
        ∀ row ∈ rows, row[i]? = some XR.nan := by
  have hw : NoZeroWidth XR .winter A.band A.tempFactor := by rw [hfe]; exact noZeroWidth_winter hA.band hf
  by_cases hRL : P .RH = true ∨ P .LD = true
  · obtain ⟨shape, rows, h1, h2, h3⟩ := C32_nan_partial A I P gs hybrid hA hw hRL h
    refine ⟨shape, rows, h1, h2, ?_⟩
    intro i hi k _ _ _ row hrow
    rw [h3 row hrow, List.getElem?_map, List.getElem?_eq_getElem hi]; rfl
  · obtain ⟨dz, _, h2⟩ := winter_gates hA hw h
    refine ⟨_, _, h2, by cases A.warm <;> rfl, ?_⟩
    intro i hi k hk hu hnan row hrow
    obtain ⟨c, hc, rfl⟩ := List.mem_map.mp hrow
    rw [List.getElem?_map, List.getElem?_eq_getElem hi, Option.map_some, hfe]
    rw [gScore_nan_any (goodAt_winter hA.band P (by simpa using not_or.mp hRL |>.1) (by simpa using not_or.mp hRL |>.2) c
      (winterTypes_lt _ c hc)) hf _ _ _ _ (fun _ => rfl) hk hu _ hnan]

/-- **C123**, what `csu_fhc_cold_newml1` does: both scores of such a gate are NaN. -/
theorem C123_ml_partial (A : MlArgs XR) (I : Inputs XR) (P : Key → Bool) (gs : List (Key → XR)) (hybrid : Bool)
    (hA : GoodMl A P hybrid) (hn : A.nTypes = 2) (f : ℝ) (hf : 0 < f) (hfe : A.tempFactor = fin f) (h : IsGates I P gs) :
    ∃ shape rows, csuFhcMl A I = .ok (some (shape, rows)) ∧ rows.length = 2 ∧
      ∀ i (hi : i < gs.length) (k : Key), P k = true → (k = .T → A.useTemp = true) → gs[i] k = XR.nan →
        ∀ row ∈ rows, row[i]? = some XR.nan := by
  have hw : NoZeroWidth XR .ml A.band A.tempFactor := by rw [hfe]; exact noZeroWidth_ml hA.band hf
  obtain ⟨dz, _, h2⟩ := ml_gates hA hn hw h
  refine ⟨_, _, h2, rfl, ?_⟩
  intro i hi k hk hu hnan row hrow
  obtain ⟨c, hc, rfl⟩ := List.mem_map.mp hrow
  have hc' : c < 2 := by simp at hc; omega
  rw [List.getElem?_map, List.getElem?_eq_getElem hi, Option.map_some, hfe]
  rw [gScore_nan_any (goodAt_ml hA.band P c hc') hf _ _ _ _ (fun _ => rfl) hk hu _ hnan]

theorem argmaxPlus1_column_nan {rows : List (List XR)} {i : Nat} (hne : rows ≠ [])
    (h : ∀ row ∈ rows, row[i]? = some XR.nan) : argmaxPlus1 (column rows i) = 1 := by
  cases rows with
  | nil => exact absurd rfl hne
  | cons r rs =>
    have : column (r :: rs) i = XR.nan :: column rs i := by
      simp only [column, List.map_cons, List.getD]
      rw [h r (by simp)]; rfl
    rw [this, argmaxPlus1_nan]

theorem runWinter_T {env : Env} {A : MeltArgs XR} {F : Fields XR} {out : WinterOut XR} (h : runWinter env A F = .ok out)
    {dz : NdArray XR} (hd : F.dz = some dz) : sameShape dz [F.T] = true := by
  simp only [runWinter, bind, Except.bind] at h
  split at h
  · cases h
  · rename_i o ho
    cases o with
    | none => cases h
    | some M =>
      simp only [hd] at h
      split at h
      · cases h
      · rename_i hs
        simpa using hs

/-- the fields of a successful `run_winter` call consist of gates -/
theorem runWinter_gates {env : Env} {A : MeltArgs XR} {F : Fields XR} {out : WinterOut XR} (h : runWinter env A F = .ok out) :
    ∃ n P gs P' gs', gs.length = n ∧ gs'.length = n ∧ IsGates (winterInputs F) P gs ∧ IsGates (mlInputs F) P' gs' ∧
      P .DZ = true ∧ P' .DZ = true ∧ P' .RH = true ∧ P' .T = false ∧
      (∃ dz, F.dz = some dz ∧ dz.data.length = n) := by
  obtain ⟨M, dz, h1, h2, -⟩ := runWinter_inv h
  obtain ⟨_, dz', height, rho, _, g1, g5, g2, g3, _⟩ := meltingLayer_inv h1
  rw [h2] at g1; cases g1
  have hT := runWinter_T h h2
  obtain ⟨P, gs, l1, i1⟩ := exists_gates (winterInputs F) dz.data.length (by
    intro k a ha
    cases k <;> simp only [Inputs.get, winterInputs] at ha
    · rw [h2] at ha; cases ha; rfl
    · exact (sameShape_length g3 (by simp [ha])).1
    · exact (sameShape_length g3 (by simp [ha])).1
    · cases ha
    · cases ha
    · exact (sameShape_length hT (by simp [ha])).1)
  obtain ⟨P', gs', l2, i2⟩ := exists_gates (mlInputs F) dz.data.length (by
    intro k a ha
    cases k <;> simp only [Inputs.get, mlInputs] at ha
    · rw [h2] at ha; cases ha; rfl
    · exact (sameShape_length g3 (by simp [ha])).1
    · exact (sameShape_length g3 (by simp [ha])).1
    · exact (sameShape_length g3 (by simp [ha])).1
    · cases ha
    · cases ha)
  refine ⟨_, P, gs, P', gs', l1, l2, i1, i2, ?_, ?_, ?_, ?_, dz, h2, rfl⟩
  · rw [← i1.isSome .DZ]; simp [Inputs.get, winterInputs, h2]
  · rw [← i2.isSome .DZ]; simp [Inputs.get, mlInputs, h2]
  · rw [← i2.isSome .RH]; simp [Inputs.get, mlInputs, g5, RhoArg.array]
  · rw [← i2.isSome .T]; simp [Inputs.get, mlInputs]

theorem winterPol {F : Fields XR} {P : Key → Bool} {gs : List (Key → XR)} (h : IsGates (winterInputs F) P gs) (hP : P .DZ = true)
    {A : WinterArgs XR} (hb : A.band ∈ bands) (hm : methodOf A.method = some false) {r : List Nat × List (List XR)}
    (hok : csuFhcWinter A (winterInputs F) = .ok (some r)) : pol.filter P ≠ [] := by
  intro hp
  rw [C31_needs_pol A _ P gs hb hm hP (fun k hk => by simpa using List.filter_eq_nil_iff.mp hp k hk) h] at hok
  cases hok

theorem IsGates.get_nan {I : Inputs XR} {P : Key → Bool} {gs : List (Key → XR)} (h : IsGates I P gs) {k : Key} {a : NdArray XR} {i : Nat}
    (ha : I.get k = some a) (hn : a.data[i]? = some XR.nan) : P k = true ∧ ∃ hi : i < gs.length, gs[i] k = XR.nan := by
  have hp : P k = true := by rw [← h.isSome k, ha]; rfl
  have := h k
  rw [if_pos hp, ha] at this
  simp only [Option.map_some, Option.some.injEq] at this
  rw [this, List.getElem?_map] at hn
  refine ⟨hp, ?_⟩
  by_cases hi : i < gs.length
  · refine ⟨hi, ?_⟩
    rw [List.getElem?_eq_getElem hi] at hn
    simpa using hn
  · rw [List.getElem?_eq_none (by omega)] at hn
    cases hn

/-- **C123**, what `run_winter` does: a gate whose reflectivity, differential reflectivity or differential phase is NaN is
given category 1 (ice crystals), 6 (frozen) or -1, never another one; a gate whose temperature is NaN may also be 5 (wet
snow).  For every successful call. -/
theorem C123_run_winter_partial (env : Env) (A : MeltArgs XR) (F : Fields XR) (out : WinterOut XR) (h : runWinter env A F = .ok out)
    (k : Key) (a : NdArray XR) (i : Nat) (v : Int) (ha : (winterInputs F).get k = some a) (hn : a.data[i]? = some XR.nan)
    (hv : out.hca[i]? = some v) : v = -1 ∨ v = 1 ∨ v = 6 ∨ (k = .T ∧ v = 5) := by
  obtain ⟨n, P, gs, P', gs', l1, l2, i1, i2, p1, p2, p3, p4, dz, d1, d2⟩ := runWinter_gates h
  obtain ⟨⟨s1, t1⟩, ⟨s2, t2⟩, ⟨s3, t3⟩⟩ := C34_tables_used_partial env A F out h
  obtain ⟨hk, hi, hg⟩ := i1.get_nan ha hn
  have hlin : methodOf "linear" = some false := by decide
  have hpol := winterPol i1 p1 (by show "C" ∈ bands; simp [bands]) hlin t2
  have hone : (1 : XR) = fin 1 := by simp
  have hwin : ∀ warm : Bool, argmaxPlus1 (column (if warm then out.scoresWarm else out.scoresCold) i) = 1 := by
    intro warm
    obtain ⟨s, rows, e1, e2, e3⟩ := C123_winter_partial ({ useTemp := true, band := "C", warm := warm } : WinterArgs XR)
      (winterInputs F) P gs false ⟨by show "C" ∈ bands; simp [bands], hlin, p1, fun _ => hpol, fun _ _ => rfl⟩ 1 one_pos hone i1
    have hr : rows = if warm then out.scoresWarm else out.scoresCold := by
      cases warm
      · rw [t3] at e1
        simp only [Except.ok.injEq, Option.some.injEq, Prod.mk.injEq] at e1
        exact e1.2.symm
      · rw [t2] at e1
        simp only [Except.ok.injEq, Option.some.injEq, Prod.mk.injEq] at e1
        exact e1.2.symm
    rw [← hr]
    apply argmaxPlus1_column_nan
    · intro e; rw [e] at e2; cases warm <;> simp at e2
    · exact e3 i hi k hk (fun _ => rfl) hg
  obtain ⟨_, _, _, c4⟩ := C104_returned_classes env A F out h
  obtain ⟨m, w, c, m1, _, _, m2, w1, _, c1, _, _, q1, q2, q3⟩ := c4 i v hv
  have hw := hwin true
  have hc := hwin false
  simp only [if_true, Bool.false_eq_true, if_false] at hw hc
  rw [hw] at w1
  rw [hc] at c1
  by_cases hT : k = .T
  · rcases m2 with e | e | e | e
    · right; right; right; exact ⟨hT, q1.mpr e⟩
    · rcases q3 e with q | q | q
      · right; right; left; rw [q, w1]; rfl
      · right; left; rw [q, c1]; rfl
      · left; exact q
    · left; exact q2 (Or.inl e)
    · left; exact q2 (Or.inr e)
  · have hkm : (mlInputs F).get k = some a := by
      cases k <;> simp only [Inputs.get, winterInputs, mlInputs] at ha ⊢
      all_goals first | exact ha | cases ha | exact absurd rfl hT
    obtain ⟨hk', hi', hg'⟩ := i2.get_nan hkm hn
    obtain ⟨s, rows, e1, e2, e3⟩ := C123_ml_partial ({ useTemp := false, band := "S" } : MlArgs XR)
      (mlInputs F) P' gs' false ⟨by show "S" ∈ bands; simp [bands], hlin, p2,
        fun _ => List.ne_nil_of_mem (List.mem_filter.mpr ⟨by simp [pol], p3⟩), fun _ e => by rw [p4] at e; cases e⟩ rfl 1 one_pos hone i2
    have hr : rows = out.scoresMl := by
      rw [t1] at e1
      simp only [Except.ok.injEq, Option.some.injEq, Prod.mk.injEq] at e1
      exact e1.2.symm
    have hrow := e3 i hi' k hk' (fun e => absurd e hT) hg'
    obtain ⟨rho, r1, r2⟩ := C33_wet_snow env A F out h
    have hb : wetSnowBetter out.scoresMl i = false := by
      rw [← hr]
      unfold wetSnowBetter
      match rows, e2, hrow with
      | [r0, r1], _, hrow =>
        have := hrow r0 (by simp)
        simp [List.getD, this]
    have h5 : v ≠ 5 := by
      intro e
      have := ((r2 i v hv).mp e).2.2
      rw [hb] at this; cases this
    rcases m2 with e | e | e | e
    · exact absurd (q1.mpr e) h5
    · rcases q3 e with q | q | q
      · right; right; left; rw [q, w1]; rfl
      · right; left; rw [q, c1]; rfl
      · left; exact q
    · left; exact q2 (Or.inl e)
    · left; exact q2 (Or.inr e)

/-- one gate with NaN reflectivity, good correlation, strong signal, at height 6 -/
def nanGate : Fields XR :=
  { dz := some ⟨.float, [1], [XR.nan]⟩, zdr := some ⟨.float, [1], [fin 1]⟩, kdp := some ⟨.float, [1], [fin 0]⟩,
    rho := .masked ⟨⟨.float, [1], [fin 0.99]⟩, [false]⟩, sn := some ⟨.float, [1], [fin 20]⟩, T := some ⟨.float, [1], [fin (-5)]⟩,
    heights := some ⟨.float, [1], [fin 6]⟩ }

theorem nanGate_ml : ∃ s r0 r1, csuFhcMl (mlCallArgs : MlArgs XR) (mlInputs nanGate) = .ok (some (s, [r0, r1])) ∧
    r0[0]? = some XR.nan := by
  obtain ⟨s, rows, e1, e2, e3⟩ := C123_ml_partial (mlCallArgs : MlArgs XR) (mlInputs nanGate)
    (fun k => k == .DZ || k == .DR || k == .KD || k == .RH)
    [fun k => match k with | .DZ => XR.nan | .DR => fin 1 | .KD => fin 0 | .RH => fin 0.99 | _ => fin 0] false
    ⟨by show "S" ∈ bands; simp [bands], by show methodOf "linear" = _; decide, rfl, by intro _; decide, by intro _ h; cases h⟩
    rfl 1 one_pos (by show (1 : XR) = _; simp) (by intro k; cases k <;> rfl)
  match rows, e2, e3 with
  | [r0, r1], _, e3 => exact ⟨s, r0, r1, e1, e3 0 (by simp) .DZ rfl (by simp) rfl r0 (by simp)⟩

theorem nanGate_winter (warm : Bool) : ∃ rows, winterRows ⟨false, true⟩ warm nanGate = .ok rows := by
  obtain ⟨s, rows, e1, _, _⟩ := C123_winter_partial (winterCallArgs warm : WinterArgs XR) (winterInputs nanGate)
    (fun k => k == .DZ || k == .DR || k == .KD || k == .T)
    [fun k => match k with | .DZ => XR.nan | .DR => fin 1 | .KD => fin 0 | .T => fin (-5) | _ => fin 0] false
    ⟨by show "C" ∈ bands; simp [bands], by show methodOf "linear" = _; decide, rfl, by intro _; decide, by intro _ _; rfl⟩
    1 one_pos (by show (1 : XR) = _; simp) (by intro k; cases k <;> rfl)
  refine ⟨rows, ?_⟩
  simp only [winterRows, winterV_plain, e1, bind, Except.bind]

/-- the RHI call on that gate succeeds and calls it ice crystals -/
theorem nanGate_run : ∃ out, runWinter ⟨false, true⟩ ({ scanType := "rhi" } : MeltArgs XR) nanGate = .ok out ∧ out.hca = [1] := by
  obtain ⟨s, r0, r1, e1, e2⟩ := nanGate_ml
  obtain ⟨rw, hrw⟩ := nanGate_winter true
  obtain ⟨rc, hrc⟩ := nanGate_winter false
  have h4 : (4.0 : XR) = fin 4 := by rw [fsci]; norm_num
  have h05 : (0.5 : XR) = fin 0.5 := by rw [fsci]
  have h5 : (5 : XR) = fin 5 := by simp
  have hcl : classify 1 [r0, r1] = [1] := by
    have : column [r0, r1] 0 = XR.nan :: column [r1] 0 := by simp [column, List.getD, e2]
    rw [classify, show List.range 1 = [0] from rfl, List.map_cons, List.map_nil, this, argmaxPlus1_nan]
  have hqc : qualityControl (some [fin 20]) (5 : XR) ⟨⟨.float, [1], [fin 0.99]⟩, [false]⟩ (0.5 : XR) [1] = [1] := by
    rw [h05, h5]
    simp [qualityControl, maskSet]
    norm_num
  have hlev : meltLevels ⟨false, true⟩ ({ scanType := "rhi" } : MeltArgs XR) none ⟨.float, [1], [XR.nan]⟩ ⟨.float, [1], [fin 6]⟩ [1] =
      .ok ([2], .one (fin 4)) := by
    have : isRhi "rhi" = true := by decide
    simp only [meltLevels, this, if_true, getMlRhi, mlHeightRhi, mlHeights, h4, splitRhi, bind, Except.bind]
    simp [maskGet, logicalAnd, maskSet]
    norm_num
  have hM : meltingLayer ⟨false, true⟩ ({ scanType := "rhi" } : MeltArgs XR) nanGate =
      .ok (some ⟨[1], [2], .one (fin 4), [1], [r0, r1]⟩) := by
    have hs : sameShape (⟨.float, [1], [XR.nan]⟩ : NdArray XR) [nanGate.zdr, nanGate.kdp, nanGate.rho.array, nanGate.sn, nanGate.heights] = true := by
      simp [sameShape, nanGate, RhoArg.array, NdArray.WF]
    simp only [meltingLayer, mlV_plain, e1, bind, Except.bind]
    simp only [show nanGate.dz = some ⟨.float, [1], [XR.nan]⟩ from rfl, hs, Bool.not_true, Bool.false_eq_true, if_false,
      show nanGate.rho = .masked ⟨⟨.float, [1], [fin 0.99]⟩, [false]⟩ from rfl, List.length_cons, List.length_nil, Nat.zero_add, hcl,
      show nanGate.heights = some ⟨.float, [1], [fin 6]⟩ from rfl, show nanGate.sn = some ⟨.float, [1], [fin 20]⟩ from rfl,
      show nanGate.azimuths = none from rfl, Option.map_some, ne_eq, not_true_eq_false]
    rw [show List.map Int.ofNat [1] = [1] from rfl, hqc, hlev, if_neg (by
      rw [Bool.not_eq_true, Bool.not_eq_false']; exact hs)]
  have hs : sameShape (⟨.float, [1], [XR.nan]⟩ : NdArray XR) [nanGate.T] = true := by
      simp [sameShape, nanGate, NdArray.WF]
  have hrun : ∃ out, runWinter ⟨false, true⟩ ({ scanType := "rhi" } : MeltArgs XR) nanGate = .ok out := by
    simp only [runWinter, hM, hrw, hrc, bind, Except.bind]
    simp only [show nanGate.dz = some ⟨.float, [1], [XR.nan]⟩ from rfl, hs, Bool.not_true, Bool.false_eq_true, if_false]
    exact ⟨_, rfl⟩
  obtain ⟨out, hrun⟩ := hrun
  refine ⟨out, hrun, ?_⟩
  obtain ⟨M, m1, m2, m3, m4, m5⟩ := C33_rule _ _ _ _ hrun
  rw [hM] at m1
  cases m1
  obtain ⟨v, hv⟩ : ∃ v, out.hca = [v] := List.length_eq_one_iff.mp m3
  obtain ⟨lev, hl, hc⟩ := m5 0 1 rfl
  simp only [List.getElem?_cons_zero, Option.some.injEq] at hl
  subst hl
  have h3 := C123_run_winter_partial _ _ _ _ hrun .DZ ⟨.float, [1], [XR.nan]⟩ 0 v rfl rfl (by rw [hv]; rfl)
  obtain ⟨M', m1', _, h5'⟩ := C33_contract _ _ _ _ hrun
  rw [hM] at m1'
  cases m1'
  obtain ⟨code, lev, c1, c2, _, c3, c4, c5, _⟩ := h5' 0 v (by rw [hv]; rfl)
  simp only [List.getElem?_cons_zero, Option.some.injEq] at c1 c2
  subst c1 c2
  have : 1 ≤ v ∧ v ≤ 4 := c5.mpr ⟨rfl, Or.inl rfl⟩
  rw [hv]
  rcases h3 with h | h | h | h
  · omega
  · rw [h]
  · omega
  · exact absurd h.1 (by simp)

/-- C123 is false of `csu_fhc_summer`. -/
theorem C123_full_false : ¬ C123Full := by
  intro hf
  obtain ⟨s, c, h1, _, h2⟩ := C123_summer_partial {} (inputsOf (fun k => k == .DZ || k == .LD) [fun k => if k = .LD then XR.nan else 30])
    (fun k => k == .DZ || k == .LD) [fun k => if k = .LD then XR.nan else 30] true
    ⟨by simp [bands], by show methodOf "hybrid" = _; decide, rfl, by simp, by simp⟩ rfl 1 one_pos (by show (1 : XR) = _; simp)
    (by simp) rfl (isGates_inputsOf _ _)
  have h3 := h2 0 (by simp) .LD rfl (by simp) (by simp)
  refine hf {} _ [fun k => if k = .LD then XR.nan else 30] s c h1 0 (by simp) .LD rfl (by simp) ?_
  rw [getD_of_get? h3]
  exact ⟨le_rfl, by norm_num⟩

/-- C123 is false of `run_winter`: a gate with NaN reflectivity is called ice crystals. -/
theorem C123_run_winter_full_false : ¬ C123FullWinter := by
  intro hf
  obtain ⟨out, h1, h2⟩ := nanGate_run
  have := hf _ _ _ out h1 .DZ ⟨.float, [1], [XR.nan]⟩ 0 1 rfl rfl (by rw [h2]; rfl)
  omega

end Csu.Fhc
