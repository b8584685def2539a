import Verif.Props.MeltRhi
/-!
# C33, C34, C35 for finite volumes: `run_winter` computes the published scheme, with hard-coded bands
-/
namespace Csu.Fhc
open Csu PyFloat Tables XR FhcSpec WinterSpec

/-- the value of a variable at a gate (`ldr` is never used) -/
def val (g : Gate) : Key → ℝ
  | .DZ => g.dz
  | .DR => g.zdr
  | .KD => g.kdp
  | .RH => g.rho
  | .LD => 0
  | .T => g.T

/-- a field of some shape -/
def field (sh : List Nat) (gs : List Gate) (f : Gate → ℝ) : NdArray XR := ⟨.float, sh, gs.map (fun g => fin (f g))⟩

/-- the shape of a volume: at least one axis, and as many gates as the shape says -/
def IsShape (sh : List Nat) (gs : List Gate) : Prop := sh ≠ [] ∧ gs.length = sh.prod

/-- all the fields of a volume; the azimuths (of the rays) are only used by the PPI version -/
def fieldsOf (sh : List Nat) (az : Option (List ℝ)) (gs : List Gate) : Fields XR :=
  { dz := some (field sh gs (·.dz)), zdr := some (field sh gs (·.zdr)), kdp := some (field sh gs (·.kdp)),
    rho := .masked ⟨field sh gs (·.rho), gs.map (·.masked)⟩, sn := some (field sh gs (·.sn)), T := some (field sh gs (·.T)),
    heights := some (field sh gs (·.height)), azimuths := az.map (·.map fin) }

def PMl (k : Key) : Bool := k == .DZ || k == .DR || k == .KD || k == .RH
def PWin (k : Key) : Bool := k == .DZ || k == .DR || k == .KD || k == .T

theorem mlInputs_fields (sh : List Nat) (az : Option (List ℝ)) (gs : List Gate) :
    IsGates (mlInputs (fieldsOf sh az gs)) PMl ((gs.map val).map (fun x k => fin (x k))) := by
  intro k
  cases k <;> simp [mlInputs, fieldsOf, Inputs.get, PMl, RhoArg.array, field, val, Function.comp_def]

theorem winterInputs_fields (sh : List Nat) (az : Option (List ℝ)) (gs : List Gate) :
    IsGates (winterInputs (fieldsOf sh az gs)) PWin ((gs.map val).map (fun x k => fin (x k))) := by
  intro k
  cases k <;> simp [winterInputs, fieldsOf, Inputs.get, PWin, field, val, Function.comp_def]

/-- the melting-layer weights as real numbers -/
def mlW (k : Key) (_c : Nat) : ℝ :=
  match k with
  | .DZ => 4
  | .DR => 7
  | .KD => 0
  | .RH => 14
  | .LD => 0
  | .T => 0

theorem mlW_eq (k : Key) (c : Nat) : (mlWeights k c : XR) = fin (mlW k c) := by
  cases k <;> simp [mlWeights, mlW]

theorem meltScore_eq (g : Gate) (c : Nat) :
    score false PMl (effTemp PMl false) (fun k => mlW k c) (fun k => (bellT "S" .ml 1 k c).mu (val g k)) =
      meltScore "S" g c := by
  simp [score, linearScore, wmean, allKeys, PMl, effTemp, mlW, bellT, meltScore, WinterSpec.mu, val]
  ring

theorem warmScore_eq (g : Gate) (c : Nat) (hc : c = 4 ∨ c = 5) :
    score false PWin (effTemp PWin true) (fun k => winterW k c) (fun k => (bellT "C" .winter 1 k c).mu (val g k)) =
      warmScore "C" g c := by
  rcases hc with rfl | rfl <;>
  · simp [score, linearScore, wmean, allKeys, PWin, effTemp, winterW, bellT, scale_one, warmScore, WinterSpec.mu, val]
    ring

theorem coldScore_eq' (band : String) (g : Gate) (c : Nat) (hc : c < 4) :
    score false PWin (effTemp PWin true) (fun k => winterW k c) (fun k => (bellT band .winter 1 k c).mu (val g k)) =
      coldScore band g c := by
  rcases (show c = 0 ∨ c = 1 ∨ c = 2 ∨ c = 3 by omega) with rfl | rfl | rfl | rfl <;>
  · simp [score, linearScore, wmean, allKeys, PWin, effTemp, winterW, bellT, scale_one, coldScore, WinterSpec.mu, val]
    ring

theorem coldScore_eq (g : Gate) (c : Nat) (hc : c < 4) :
    score false PWin (effTemp PWin true) (fun k => winterW k c) (fun k => (bellT "C" .winter 1 k c).mu (val g k)) =
      coldScore "C" g c := coldScore_eq' "C" g c hc

/-- the wet-snow scores of a finite volume -/
theorem ml_fields (sh : List Nat) (az : Option (List ℝ)) (gs : List Gate) : csuFhcMl mlCallArgs (mlInputs (fieldsOf sh az gs)) =
    .ok (some (2 :: sh, [0, 1].map (fun c => gs.map (fun g => fin (meltScore "S" g c))))) := by
  obtain ⟨dz, h1, h2⟩ := ml_fin (A := (mlCallArgs : MlArgs XR)) (P := PMl) (xs := gs.map val) (hybrid := false)
    ⟨by show "S" ∈ bands; simp [bands], by show methodOf "linear" = _; decide, rfl, by intro _; decide,
      by intro _ h; simp [PMl] at h⟩ rfl one_pos
    (by show (1 : XR) = _; simp) (w := mlW) mlW_eq (by simp)
    (by
      intro _ c _
      simp [totalWeight, allKeys, PMl, mlW]
      norm_num)
    (mlInputs_fields sh az gs)
  cases h1
  rw [h2]
  congr 3
  apply List.map_congr_left
  intro c _
  rw [List.map_map]
  apply List.map_congr_left
  intro g _
  exact congrArg fin (meltScore_eq g c)

/-- the winter scores of a finite volume for any band -/
theorem winter_fields (band : String) (hb : band ∈ bands) (sh : List Nat) (az : Option (List ℝ)) (gs : List Gate) (warm : Bool) :
    csuFhcWinter ({ useTemp := true, band := band, warm := warm } : WinterArgs XR) (winterInputs (fieldsOf sh az gs)) =
    .ok (some ((winterTypes warm).length :: sh, (winterTypes warm).map (fun c => gs.map (fun g => fin
      (score false PWin (effTemp PWin true) (fun k => winterW k c)
        (fun k => (bellT band .winter 1 k c).mu (val g k))))))) := by
  obtain ⟨dz, h1, h2⟩ := winter_fin (A := ({ useTemp := true, band := band, warm := warm } : WinterArgs XR)) (P := PWin)
    (xs := gs.map val) (hybrid := false)
    ⟨hb, by show methodOf "linear" = _; decide, rfl, by intro _; decide, fun _ _ => rfl⟩ rfl rfl one_pos
    (by show (1 : XR) = _; simp) (w := winterW) winterW_eq (by simp)
    (by
      intro _ c hc
      exact (goodWeights_winter PWin true rfl warm c hc).total_lin.ne')
    (winterInputs_fields sh az gs)
  cases h1
  rw [h2]
  simp only [List.length_map]
  congr 3
  apply List.map_congr_left
  intro c _
  rw [List.map_map]
  rfl

theorem field_ne {sh : List Nat} {gs : List Gate} (h : gs ≠ []) {f : Gate → ℝ} : (field sh gs f).data ≠ [] := by
  simpa [field] using h

/-- with `verbose` the classifiers need a gate; otherwise `verbose` changes nothing -/
theorem winterV_fields (env : Env) (sh : List Nat) (az : Option (List ℝ)) (gs : List Gate) (hne : env.verbose = true → gs ≠ []) (n : Nat) (A : WinterArgs XR) :
    csuFhcWinterV env.verbose false n A (winterInputs (fieldsOf sh az gs)) = csuFhcWinter A (winterInputs (fieldsOf sh az gs)) := by
  cases hv : env.verbose with
  | false => exact winterV_plain _ _ _
  | true =>
    apply winterV_nonempty
    rintro dz ⟨⟩
    exact field_ne (hne hv)

theorem mlV_fields (env : Env) (sh : List Nat) (az : Option (List ℝ)) (gs : List Gate) (hne : env.verbose = true → gs ≠ []) (A : MlArgs XR) :
    csuFhcMlV env.verbose false A (mlInputs (fieldsOf sh az gs)) = csuFhcMl A (mlInputs (fieldsOf sh az gs)) := by
  cases hv : env.verbose with
  | false => exact mlV_plain _ _
  | true =>
    apply mlV_nonempty
    rintro dz ⟨⟩
    exact field_ne (hne hv)

/-- the warm and cold scores that `run_winter` computes: those of band C -/
theorem winterRows_fields (env : Env) (sh : List Nat) (az : Option (List ℝ)) (gs : List Gate) (hne : env.verbose = true → gs ≠ []) :
    winterRows env true (fieldsOf sh az gs) = .ok ([4, 5].map (fun c => gs.map (fun g => fin (warmScore "C" g c)))) ∧
    winterRows env false (fieldsOf sh az gs) = .ok ([0, 1, 2, 3].map (fun c => gs.map (fun g => fin (coldScore "C" g c)))) := by
  have hb : "C" ∈ bands := by simp [bands]
  have hW := winter_fields "C" hb sh az gs true
  have hC := winter_fields "C" hb sh az gs false
  constructor
  · unfold winterRows
    rw [winterV_fields env sh az gs hne, show (winterCallArgs true : WinterArgs XR) = { useTemp := true, band := "C", warm := true } from rfl, hW]
    simp only [bind, Except.bind]
    congr 1
    show [4, 5].map _ = _
    apply List.map_congr_left
    intro c hc
    apply List.map_congr_left
    intro g _
    exact congrArg fin (warmScore_eq g c (by simpa using hc))
  · unfold winterRows
    rw [winterV_fields env sh az gs hne, show (winterCallArgs false : WinterArgs XR) = { useTemp := true, band := "C", warm := false } from rfl, hC]
    simp only [bind, Except.bind]
    congr 1
    show [0, 1, 2, 3].map _ = _
    apply List.map_congr_left
    intro c hc
    apply List.map_congr_left
    intro g _
    exact congrArg fin (coldScore_eq g c (by simp at hc; omega))

theorem sameShape_fields (sh : List Nat) (az : Option (List ℝ)) (gs : List Gate) (hsh : IsShape sh gs) :
    sameShape (field sh gs (·.dz)) [(fieldsOf sh az gs).zdr, (fieldsOf sh az gs).kdp, (fieldsOf sh az gs).rho.array, (fieldsOf sh az gs).sn,
      (fieldsOf sh az gs).heights] = true := by
  simpa [sameShape, fieldsOf, RhoArg.array, field, NdArray.WF, IsShape] using hsh

theorem codes_fields (sh : List Nat) (gs : List Gate) (minRH snT : ℝ) :
    qualityControl (some (field sh gs (·.sn)).data) (fin snT) ⟨field sh gs (·.rho), gs.map (·.masked)⟩ (fin minRH)
      ((classify gs.length ([0, 1].map (fun c => gs.map (fun g => fin (meltScore "S" g c))))).map Int.ofNat) =
    gs.map (code "S" minRH snT) := by
  unfold qualityControl
  rw [classify_map gs [0, 1] (fun c g => fin (meltScore "S" g c))]
  simp only [field, List.map_map, Function.comp_def, maskSet_map, zipWith_map_map, List.map_cons, List.map_nil,
    argmaxPlus1_two, fisnan, fle, flt, Bool.false_or, Bool.or_false]
  apply List.map_congr_left
  intro g _
  unfold code detector
  have : (meltScore "S" g 1 ≤ meltScore "S" g 0) ↔ ¬ (meltScore "S" g 0 < meltScore "S" g 1) := not_lt.symm
  by_cases h1 : g.rho ≤ minRH <;> cases g.masked <;> by_cases h2 : g.sn < snT <;>
    by_cases h3 : meltScore "S" g 0 < meltScore "S" g 1 <;> simp [h1, h2, h3, this]

/-- `melting_layer` on a finite volume, up to the melting levels -/
theorem meltingLayer_levels (env : Env) (A : MeltArgs XR) (minRH snT : ℝ)
    (h1 : A.minRH = fin minRH) (h2 : A.snThresh = fin snT) (sh : List Nat) (az : Option (List ℝ)) (gs : List Gate) (hsh : IsShape sh gs)
    (hne : env.verbose = true → gs ≠ []) :
    meltingLayer env A (fieldsOf sh az gs) =
      (meltLevels env A (az.map (·.map fin)) (field sh gs (·.dz)) (field sh gs (·.height)) (gs.map (code "S" minRH snT))).map (fun p =>
        some ⟨sh, p.1, p.2, gs.map (code "S" minRH snT),
          [0, 1].map (fun c => gs.map (fun g => fin (meltScore "S" g c)))⟩) := by
  have hsh := sameShape_fields sh az gs hsh
  have hcode := codes_fields sh gs minRH snT
  have hdz : (field sh gs (·.dz)).data.length = gs.length := by simp [field]
  unfold meltingLayer
  rw [mlV_fields env sh az gs hne, ml_fields]
  simp only [bind, Except.bind]
  rw [show (fieldsOf sh az gs).dz = some (field sh gs (·.dz)) from rfl]
  simp only [hsh, Bool.not_true, Bool.false_eq_true, if_false, hdz]
  simp only [show (fieldsOf sh az gs).rho = .masked ⟨field sh gs (·.rho), gs.map (·.masked)⟩ from rfl,
    show (fieldsOf sh az gs).sn = some (field sh gs (·.sn)) from rfl,
    show (fieldsOf sh az gs).heights = some (field sh gs (·.height)) from rfl,
    show (fieldsOf sh az gs).azimuths = az.map (·.map fin) from rfl, List.length_map, ne_eq, not_true, if_false,
    Option.map_some, h1, h2, hcode]
  cases meltLevels env A (az.map (·.map fin)) (field sh gs (·.dz)) (field sh gs (·.height)) (gs.map (code "S" minRH snT)) <;> rfl

/-- `melting_layer` on a finite volume, RHI or grid, up to the melting height -/
theorem meltingLayer_fields (env : Env) (A : MeltArgs XR) (minRH snT : ℝ)
    (h1 : A.minRH = fin minRH) (h2 : A.snThresh = fin snT) (h4 : A.scanType = "rhi" ∨ A.scanType = "grid") (sh : List Nat) (az : Option (List ℝ)) (gs : List Gate) (hsh : IsShape sh gs)
    (hne : env.verbose = true → gs ≠ []) :
    meltingLayer env A (fieldsOf sh az gs) =
      (getMlRhi env (gs.map (code "S" minRH snT)) ((gs.map (·.height)).map fin) A.expected).map (fun p =>
        some ⟨sh, p.1, .one p.2, gs.map (code "S" minRH snT),
          [0, 1].map (fun c => gs.map (fun g => fin (meltScore "S" g c)))⟩) := by
  rw [meltingLayer_levels env A minRH snT h1 h2 sh az gs hsh hne]
  unfold meltLevels
  have h4 : isRhi A.scanType = true := by simpa [isRhi] using h4
  rw [if_pos h4, show (field sh gs (·.height)).data = (gs.map (·.height)).map fin by simp [field]]
  cases getMlRhi env (gs.map (code "S" minRH snT)) ((gs.map (·.height)).map fin) A.expected <;> rfl

/-- `melting_layer` on a finite volume, RHI or grid: the codes of the specification (S band, whatever band was asked
for), and the level of each gate relative to the melting height. -/
theorem C35_finite_volume (env : Env) (henv : env.breaks = false) (A : MeltArgs XR) (minRH snT e : ℝ)
    (h1 : A.minRH = fin minRH) (h2 : A.snThresh = fin snT) (h3 : A.expected = some (fin e))
    (h4 : A.scanType = "rhi" ∨ A.scanType = "grid") (sh : List Nat) (az : Option (List ℝ)) (gs : List Gate) (hsh : IsShape sh gs)
    (hne : env.verbose = true → gs ≠ []) :
    ∃ M m, meltingLayer env A (fieldsOf sh az gs) = .ok (some M) ∧ M.shape = sh ∧ M.fh = gs.map (code "S" minRH snT) ∧
      M.melt = .one (fin m) ∧ MeltHeight M.fh (gs.map (·.height)) e m ∧
      M.meltlev = gs.map (fun g => level g.height m) := by
  obtain ⟨lev, m, g1, g2, g3, g4⟩ := C36_rhi env (gs.map (code "S" minRH snT)) (gs.map (·.height)) e (by simp) henv
  refine ⟨⟨sh, lev, .one (fin m), gs.map (code "S" minRH snT),
    [0, 1].map (fun c => gs.map (fun g => fin (meltScore "S" g c)))⟩, m, ?_, rfl, rfl, rfl, ⟨g2, g3⟩,
    by rw [g4, List.map_map]; rfl⟩
  rw [meltingLayer_fields env A minRH snT h1 h2 h4 sh az gs hsh hne, h3, g1]
  rfl

/-- `run_winter` on a finite volume, given the result of `melting_layer` -/
theorem runWinter_fields (env : Env) (A : MeltArgs XR) (minRH snT : ℝ) (sh : List Nat) (az : Option (List ℝ)) (gs : List Gate)
    (hsh : IsShape sh gs) (hne : env.verbose = true → gs ≠ []) (M : MeltOut XR)
    (m1 : meltingLayer env A (fieldsOf sh az gs) = .ok (some M)) (m0 : M.shape = sh) (m2 : M.fh = gs.map (code "S" minRH snT))
    (hl : M.meltlev.length = gs.length) :
    ∃ out, runWinter env A (fieldsOf sh az gs) = .ok out ∧ out.shape = sh ∧ out.hca.length = gs.length ∧
      ∀ (i : Nat) (g : Gate) (lev : Nat), gs[i]? = some g → M.meltlev[i]? = some lev → ∃ w c,
        FirstBest ([4, 5].map (warmScore "C" g)) w ∧ FirstBest ([0, 1, 2, 3].map (coldScore "C" g)) c ∧
        out.hca[i]? = some (category (A.scanType == "grid") (code "S" minRH snT g) lev w c) := by
  obtain ⟨w1, w2⟩ := winterRows_fields env sh az gs hne
  have hdz : (field sh gs (·.dz)).data.length = gs.length := by simp [field]
  have hsh : sameShape (field sh gs (·.dz)) [(fieldsOf sh az gs).T] = true := by
    simpa [sameShape, fieldsOf, field, NdArray.WF, IsShape] using hsh
  have call : runWinter env A (fieldsOf sh az gs) = .ok ⟨M.shape, combine (A.scanType == "grid") M.meltlev M.fh
      ((classify gs.length ([4, 5].map (fun c => gs.map (fun g => fin (warmScore "C" g c))))).map Int.ofNat)
      ((classify gs.length ([0, 1, 2, 3].map (fun c => gs.map (fun g => fin (coldScore "C" g c))))).map Int.ofNat),
      M.scores, [4, 5].map (fun c => gs.map (fun g => fin (warmScore "C" g c))),
      [0, 1, 2, 3].map (fun c => gs.map (fun g => fin (coldScore "C" g c))), renumberMl M.fh,
      renumberWarm ((classify gs.length ([4, 5].map (fun c => gs.map (fun g => fin (warmScore "C" g c))))).map Int.ofNat),
      (classify gs.length ([0, 1, 2, 3].map (fun c => gs.map (fun g => fin (coldScore "C" g c))))).map Int.ofNat⟩ := by
    unfold runWinter
    rw [m1]
    simp only [bind, Except.bind]
    rw [show (fieldsOf sh az gs).dz = some (field sh gs (·.dz)) from rfl]
    simp only [hsh, Bool.not_true, Bool.false_eq_true, if_false, w1, w2, hdz]
  refine ⟨_, call, m0, ?_, ?_⟩
  · rw [m2]
    cases (A.scanType == "grid") <;> simp [combine, renumberWarm, renumberMl, maskSet, maskCopy, classify, hl]
  · intro i g lev hg hlev
    refine ⟨argmaxPlus1 ([4, 5].map (fun c => fin (warmScore "C" g c))),
      argmaxPlus1 ([0, 1, 2, 3].map (fun c => fin (coldScore "C" g c))), ?_, ?_, ?_⟩
    · have := argmaxPlus1_fin ([4, 5].map (warmScore "C" g)) (by simp)
      simpa using this
    · have := argmaxPlus1_fin ([0, 1, 2, 3].map (coldScore "C" g)) (by simp)
      simpa using this
    · apply combine_get?
      · exact hlev
      · rw [m2, List.getElem?_map, hg]; rfl
      · rw [classify_map gs [4, 5] (fun c g => fin (warmScore "C" g c)), List.map_map, List.getElem?_map, hg]; rfl
      · rw [classify_map gs [0, 1, 2, 3] (fun c g => fin (coldScore "C" g c)), List.map_map, List.getElem?_map, hg]; rfl
      · have := argmaxPlus1_range ([4, 5].map (fun c => fin (warmScore "C" g c))) (by simp)
        simp only [List.length_map, List.length_cons, List.length_nil] at this
        omega
      · unfold code detector
        split_ifs <;> simp

/-- C33 for every finite volume of any shape, RHI or grid: `run_winter` succeeds, and every gate gets the category of the
specification (wet-snow detection with S-band tables, warm and cold species with C-band tables, ties to the
lowest-numbered species). -/
theorem C33_finite_volume (env : Env) (henv : env.breaks = false) (A : MeltArgs XR) (minRH snT e : ℝ)
    (h1 : A.minRH = fin minRH) (h2 : A.snThresh = fin snT) (h3 : A.expected = some (fin e))
    (h4 : A.scanType = "rhi" ∨ A.scanType = "grid") (sh : List Nat) (az : Option (List ℝ)) (gs : List Gate)
    (hsh : IsShape sh gs) (hne : env.verbose = true → gs ≠ []) :
    ∃ out m, runWinter env A (fieldsOf sh az gs) = .ok out ∧ out.shape = sh ∧
      MeltHeight (gs.map (code "S" minRH snT)) (gs.map (·.height)) e m ∧ out.hca.length = gs.length ∧
      ∀ (i : Nat) (g : Gate), gs[i]? = some g → ∃ w c,
        FirstBest ([4, 5].map (warmScore "C" g)) w ∧ FirstBest ([0, 1, 2, 3].map (coldScore "C" g)) c ∧
        out.hca[i]? = some (category (A.scanType == "grid") (code "S" minRH snT g) (level g.height m) w c) := by
  obtain ⟨M, m, m1, m0, m2, m3, m4, m5⟩ := C35_finite_volume env henv A minRH snT e h1 h2 h3 h4 sh az gs hsh hne
  obtain ⟨out, o1, o2, o3, o4⟩ := runWinter_fields env A minRH snT sh az gs hsh hne M m1 m0 m2 (by rw [m5]; simp)
  refine ⟨out, m, o1, o2, by rw [← m2]; exact m4, o3, fun i g hg => o4 i g _ hg ?_⟩
  rw [m5, List.getElem?_map, hg]; rfl

example : ∃ out, runWinter ⟨true, true⟩ ({ scanType := "grid" } : MeltArgs XR) (fieldsOf [1, 2, 1] none [⟨20, 1, 0.1, 0.99, -5, 20, 6, false⟩, ⟨20, 1, 0.1, 0.99, -5, 20, 6, true⟩]) =
    .ok out ∧ out.hca.length = 2 ∧ out.hca[1]? = some (-1) := by
  obtain ⟨out, m, h1, _, h2, h3, h4⟩ := C33_finite_volume ⟨true, true⟩ rfl ({ scanType := "grid" } : MeltArgs XR) 0.5 5 4
    (by simp) (by simp) (by show some (4.0 : XR) = _; rw [fsci]; norm_num) (by decide)
    [1, 2, 1] none [⟨20, 1, 0.1, 0.99, -5, 20, 6, false⟩, ⟨20, 1, 0.1, 0.99, -5, 20, 6, true⟩] ⟨by simp, by simp⟩ (by simp)
  refine ⟨out, h1, h3, ?_⟩
  obtain ⟨w, c, _, _, h5⟩ := h4 1 _ rfl
  rw [h5]
  simp [code, detector, category]

/-- C104 speaks about calls like this one -/
example : ∃ out, runWinter ⟨true, true⟩ ({ scanType := "grid" } : MeltArgs XR) (fieldsOf [1] none [⟨20, 1, 0.1, 0.99, -5, 20, 6, false⟩]) = .ok out ∧
    out.warm.length = 1 := by
  obtain ⟨out, m, h1, _, h2, h3, h4⟩ := C33_finite_volume ⟨true, true⟩ rfl ({ scanType := "grid" } : MeltArgs XR) 0.5 5 4
    (by simp) (by simp) (by show some (4.0 : XR) = _; rw [fsci]; norm_num) (by decide) [1] none [⟨20, 1, 0.1, 0.99, -5, 20, 6, false⟩] ⟨by simp, by simp⟩ (by simp)
  exact ⟨out, h1, by rw [(C104_returned_classes _ _ _ _ h1).2.1, h3]; rfl⟩

/-! ## C34 -/

/-- The full claim: the cold scores that `run_winter` returns are those of the requested band. -/
def C34Full : Prop := ∀ (env : Env) (A : MeltArgs XR) (F : Fields XR) (out : WinterOut XR), A.band ∈ bands →
  runWinter env A F = .ok out →
  ∃ shape, csuFhcWinter ({ useTemp := true, band := A.band, warm := false } : WinterArgs XR) (winterInputs F) =
    .ok (some (shape, out.scoresCold))

/-- C34, what the code does: the `band` argument changes nothing, in any arithmetic and for every input. -/
theorem C34_band_ignored_partial {α : Type} [PyFloat α] (env : Env) (A : MeltArgs α) (F : Fields α) (b : String) :
    runWinter env { A with band := b } F = runWinter env A F ∧
      meltingLayer env { A with band := b } F = meltingLayer env A F := ⟨rfl, rfl⟩

/-- C34, what the code does: the scores are those of the S-band wet-snow tables and of the C-band winter tables. -/
theorem C34_tables_used_partial {α : Type} [PyFloat α] (env : Env) (A : MeltArgs α) (F : Fields α) (out : WinterOut α)
    (h : runWinter env A F = .ok out) :
    (∃ s, csuFhcMl ({ useTemp := false, band := "S" } : MlArgs α) (mlInputs F) = .ok (some (s, out.scoresMl))) ∧
    (∃ s, csuFhcWinter ({ useTemp := true, band := "C", warm := true } : WinterArgs α) (winterInputs F) =
      .ok (some (s, out.scoresWarm))) ∧
    (∃ s, csuFhcWinter ({ useTemp := true, band := "C", warm := false } : WinterArgs α) (winterInputs F) =
      .ok (some (s, out.scoresCold))) := by
  obtain ⟨M, dz, h1, _, h3, h4, _, h6, _⟩ := runWinter_inv h
  obtain ⟨s, _, _, _, g1, _⟩ := meltingLayer_inv h1
  have key : ∀ (warm : Bool) (rows : List (List α)), winterRows env warm F = .ok rows →
      ∃ s, csuFhcWinter ({ useTemp := true, band := "C", warm := warm } : WinterArgs α) (winterInputs F) =
        .ok (some (s, rows)) := by
    intro warm rows h
    simp only [winterRows, bind, Except.bind] at h
    split at h
    · cases h
    · rename_i o ho
      cases o with
      | none => cases h
      | some p =>
        obtain ⟨sh, r⟩ := p
        simp only [Except.ok.injEq] at h
        subst h
        exact ⟨sh, winterV_ok ho⟩
  exact ⟨⟨s, by rw [h6]; exact g1⟩, key true _ h3, key false _ h4⟩

/-- C34 is false of the code: with `band='S'` the scores of a gate at the centre of the C-band dendrite class differ from
the S-band scores. -/
theorem C34_full_false : ¬ C34Full := by
  intro hf
  let g : Gate := ⟨17, 2.63, 1, 0.99, -15, 20, 6, false⟩
  obtain ⟨out, m, h1, _⟩ := C33_finite_volume ⟨false, true⟩ rfl
    ({ scanType := "rhi" } : MeltArgs XR) 0.5 5 4
    (by simp) (by simp) (by show some (4.0 : XR) = _; rw [fsci]; norm_num) (by decide) [1] none [g] ⟨by simp, by simp⟩ (by simp)
  obtain ⟨shape, hS⟩ := hf _ _ _ out (by show "S" ∈ bands; simp [bands]) h1
  obtain ⟨_, _, shape', hC⟩ := C34_tables_used_partial _ _ _ out h1
  rw [show (({ scanType := "rhi" } : MeltArgs XR)).band = "S" from rfl] at hS
  rw [winter_fields "S" (by simp [bands]) [1] none] at hS
  rw [winter_fields "C" (by simp [bands]) [1] none] at hC
  simp only [Except.ok.injEq, Option.some.injEq, Prod.mk.injEq] at hS hC
  have heq := hS.2.trans hC.2.symm
  have h2 := congrArg (fun l => (l.getD 2 []).head?) heq
  simp only [winterTypes, Bool.false_eq_true, if_false, List.map_cons, List.map_nil, List.getD_cons_succ,
    List.getD_cons_zero, List.head?_cons, Option.some.injEq, fin_inj] at h2
  rw [coldScore_eq' "S" g 2 (by omega), coldScore_eq' "C" g 2 (by omega)] at h2
  have bS : bell "S" .winter .KD 2 = ⟨0.31, 0.3, 5⟩ := by
    simp [bell, csv, csvS, tabS_winter_KD, bellOf]; norm_num
  have bC : bell "C" .winter .KD 2 = ⟨1, 0.7, 5⟩ := by
    simp [bell, csv, csvC, tabC_winter_KD, bellOf]; norm_num
  have d1 : bell "S" .winter .DZ 2 = bell "C" .winter .DZ 2 := rfl
  have d2 : bell "S" .winter .DR 2 = bell "C" .winter .DR 2 := rfl
  have e1 : WinterSpec.mu "C" .winter .KD 2 g.kdp = 1 := by
    unfold WinterSpec.mu; rw [bC]; exact mu_centre ⟨1, 0.7, 5⟩ (by norm_num)
  have e2 : WinterSpec.mu "S" .winter .KD 2 g.kdp < 1 := by
    unfold WinterSpec.mu; rw [bS]
    exact mu_lt_one ⟨0.31, 0.3, 5⟩ (by norm_num) (by show (1 : ℝ) ≠ 0.31; norm_num)
  unfold coldScore at h2
  rw [if_pos (by omega), if_pos (by omega), e1] at h2
  have e3 : WinterSpec.mu "S" .winter .DZ 2 g.dz = WinterSpec.mu "C" .winter .DZ 2 g.dz := by unfold WinterSpec.mu; rw [d1]
  have e4 : WinterSpec.mu "S" .winter .DR 2 g.zdr = WinterSpec.mu "C" .winter .DR 2 g.zdr := by unfold WinterSpec.mu; rw [d2]
  rw [e3, e4] at h2
  linarith

/-! ## C70 -/

/-- The full claim: `verbose` does not change the result of `run_winter`, whatever SciPy is installed. -/
def C70Full : Prop := ∀ (a : Bool) (A : MeltArgs XR) (F : Fields XR), runWinter ⟨true, a⟩ A F = runWinter ⟨false, a⟩ A F

theorem getMlRhi_verbose {α : Type} [PyFloat α] (v v' : Bool) (fh : List Int) (height : List α) (e : Option α) :
    getMlRhi ⟨v, true⟩ fh height e = getMlRhi ⟨v', true⟩ fh height e := by
  unfold getMlRhi mlHeightRhi
  simp

theorem winterRows_verbose {α : Type} [PyFloat α] (v v' a a' : Bool) (F : Fields α) (hne : ∀ dz, F.dz = some dz → dz.data ≠ [])
    (warm : Bool) : winterRows ⟨v, a⟩ warm F = winterRows ⟨v', a'⟩ warm F := by
  unfold winterRows
  dsimp only
  rw [winterV_nonempty (I := winterInputs F) hne, winterV_nonempty (I := winterInputs F) hne]

/-- C70 with a SciPy older than 1.11, in any arithmetic and for every volume with at least one gate. -/
theorem C70_old_scipy_partial {α : Type} [PyFloat α] (v v' : Bool) (A : MeltArgs α) (F : Fields α)
    (hne : ∀ dz, F.dz = some dz → dz.data ≠ []) :
    runWinter ⟨v, true⟩ A F = runWinter ⟨v', true⟩ A F ∧ meltingLayer ⟨v, true⟩ A F = meltingLayer ⟨v', true⟩ A F := by
  have hm : meltingLayer ⟨v, true⟩ A F = meltingLayer ⟨v', true⟩ A F := by
    unfold meltingLayer meltLevels
    simp only [getMlRhi_verbose v v', mlV_nonempty (I := mlInputs F) hne]
    rfl
  refine ⟨?_, hm⟩
  unfold runWinter
  rw [hm]
  simp only [winterRows_verbose v v' true true F hne]

/-- C70 for PPIs with at least one gate, whatever SciPy is installed. -/
theorem C70_ppi_partial {α : Type} [PyFloat α] (v v' a : Bool) (A : MeltArgs α) (F : Fields α)
    (hne : ∀ dz, F.dz = some dz → dz.data ≠ []) (h : A.scanType ≠ "rhi" ∧ A.scanType ≠ "grid") :
    runWinter ⟨v, a⟩ A F = runWinter ⟨v', a⟩ A F ∧ meltingLayer ⟨v, a⟩ A F = meltingLayer ⟨v', a⟩ A F := by
  have h : isRhi A.scanType = false := by simpa [isRhi] using h
  have hm : meltingLayer ⟨v, a⟩ A F = meltingLayer ⟨v', a⟩ A F := by
    unfold meltingLayer meltLevels
    simp only [h, mlV_nonempty (I := mlInputs F) hne]
    rfl
  refine ⟨?_, hm⟩
  unfold runWinter
  rw [hm]
  simp only [winterRows_verbose v v' a a F hne]

theorem winterRows_silent {α : Type} [PyFloat α] {a : Bool} {warm : Bool} {F : Fields α} {rows : List (List α)}
    (h : winterRows ⟨true, a⟩ warm F = .ok rows) : winterRows ⟨false, a⟩ warm F = .ok rows := by
  unfold winterRows at h ⊢
  obtain ⟨r, h1, h2⟩ := Kdp.bind_ok h
  dsimp only
  rw [winterV_plain, winterV_ok h1]
  exact h2

theorem getMlRhi_silent {α : Type} [PyFloat α] {a : Bool} {fh : List Int} {height : List α} {e : Option α} {r : List Nat × α}
    (h : getMlRhi ⟨true, a⟩ fh height e = .ok r) : getMlRhi ⟨false, a⟩ fh height e = .ok r := by
  unfold getMlRhi mlHeightRhi at h ⊢
  dsimp only at h ⊢
  split at h <;> rename_i hl
  · rw [if_pos hl]
    split at h <;> rename_i hf
    · cases h
    · rw [if_neg hf]
      split at h
      · cases h
      · simpa using h
  · rw [if_neg hl]; exact h

theorem meltingLayer_silent {α : Type} [PyFloat α] {a : Bool} {A : MeltArgs α} {F : Fields α} {r : Option (MeltOut α)}
    (h : meltingLayer ⟨true, a⟩ A F = .ok r) : meltingLayer ⟨false, a⟩ A F = .ok r := by
  unfold meltingLayer at h ⊢
  obtain ⟨q, h1, h⟩ := Kdp.bind_ok h
  dsimp only at h1 ⊢
  rw [mlV_plain, mlV_ok h1]
  simp only [bind, Except.bind]
  cases q with
  | none => cases h
  | some p =>
    obtain ⟨sh, rows⟩ := p
    dsimp only at h ⊢
    cases hd : F.dz with
    | none => rw [hd] at h; cases h
    | some dz =>
      simp only [hd] at h ⊢
      split at h <;> rename_i hs
      · cases h
      · rw [if_neg hs]
        cases hr : F.rho with
        | none => simp [hr] at h
        | plain x => simp [hr] at h
        | masked rho =>
          simp only [hr] at h ⊢
          split at h <;> rename_i hm
          · cases h
          · rw [if_neg hm]
            cases hh : F.heights with
            | none => simpa [hh] using h
            | some height =>
              simp only [hh] at h ⊢
              obtain ⟨⟨lev, m⟩, h2, h3⟩ := Kdp.bind_ok h
              have : meltLevels ⟨false, a⟩ A F.azimuths dz height (qualityControl (F.sn.map (·.data)) A.snThresh rho A.minRH
                  ((classify dz.data.length rows).map Int.ofNat)) = .ok (lev, m) := by
                unfold meltLevels at h2 ⊢
                split at h2 <;> rename_i hi
                · rw [if_pos hi]
                  obtain ⟨⟨lev', m'⟩, h4, h5⟩ := Kdp.bind_ok h2
                  rw [getMlRhi_silent h4]
                  exact h5
                · rw [if_neg hi]; exact h2
              rw [this]
              exact h3

/-- C70, whatever SciPy is installed and for every input: a verbose call that returns, returns what the silent call returns; all
`verbose` can do is raise. -/
theorem C70_verbose_only_raises_partial {α : Type} [PyFloat α] (a : Bool) (A : MeltArgs α) (F : Fields α) (out : WinterOut α)
    (h : runWinter ⟨true, a⟩ A F = .ok out) : runWinter ⟨false, a⟩ A F = .ok out := by
  unfold runWinter at h ⊢
  obtain ⟨M, h1, h⟩ := Kdp.bind_ok h
  rw [meltingLayer_silent h1]
  cases M with
  | none => cases h
  | some M =>
    cases hd : F.dz with
    | none => simp [hd] at h
    | some dz =>
      simp only [hd] at h
      split at h <;> rename_i hs
      · cases h
      · obtain ⟨rw', h2, h⟩ := Kdp.bind_ok h
        obtain ⟨rc, h3, h⟩ := Kdp.bind_ok h
        simp only [bind, Except.bind, hs, winterRows_silent h2, winterRows_silent h3]
        simpa using h

/-- a wet-snow gate at height 4 -/
noncomputable def wetGate : Gate := ⟨25, 3, 1, 0.75, 0, 20, 4, false⟩

/-- C70 is false of the code: with SciPy 1.11 or later, `verbose=True` (the default) makes `run_winter` raise on an RHI
with 11 wet-snow gates, which works with `verbose=False`. -/
theorem C70_full_false : ¬ C70Full := by
  intro hf
  have h05 : (({ scanType := "rhi" } : MeltArgs XR)).minRH = fin 0.5 := by simp
  have h5 : (({ scanType := "rhi" } : MeltArgs XR)).snThresh = fin 5 := by simp
  have h4 : (({ scanType := "rhi" } : MeltArgs XR)).expected = some (fin 4) := by
    show some (4.0 : XR) = _; rw [fsci]; norm_num
  have h := hf false { scanType := "rhi" } (fieldsOf [11] none (List.replicate 11 wetGate))
  obtain ⟨out, m, h1, _⟩ := C33_finite_volume ⟨false, false⟩ rfl ({ scanType := "rhi" } : MeltArgs XR) 0.5 5 4 h05 h5 h4
    (by decide) [11] none (List.replicate 11 wetGate) ⟨by simp, by simp⟩ (by simp)
  rw [h1] at h
  have hcode : code "S" 0.5 5 wetGate = 2 := by
    have w1 : meltScore "S" wetGate 0 < meltScore "S" wetGate 1 := by
      have b1 : bell "S" .ml .DZ 1 = ⟨25, 23, 10⟩ := by simp [bell, csv, csvS, tabS_ml_DZ, bellOf]; norm_num
      have b2 : bell "S" .ml .DR 1 = ⟨3, 5, 10⟩ := by simp [bell, csv, csvS, tabS_ml_DR, bellOf]; norm_num
      have b3 : bell "S" .ml .RH 1 = ⟨0.75, 0.23, 30⟩ := by simp [bell, csv, csvS, tabS_ml_RH, bellOf]; norm_num
      have b0 : bell "S" .ml .DZ 0 = ⟨16, 17, 5⟩ := by simp [bell, csv, csvS, tabS_ml_DZ, bellOf]; norm_num
      have e1 : WinterSpec.mu "S" .ml .DZ 1 wetGate.dz = 1 := by
        unfold WinterSpec.mu; rw [b1]; exact mu_centre ⟨25, 23, 10⟩ (by norm_num)
      have e2 : WinterSpec.mu "S" .ml .DR 1 wetGate.zdr = 1 := by
        unfold WinterSpec.mu; rw [b2]; exact mu_centre ⟨3, 5, 10⟩ (by norm_num)
      have e3 : WinterSpec.mu "S" .ml .RH 1 wetGate.rho = 1 := by
        unfold WinterSpec.mu; rw [b3]; exact mu_centre ⟨0.75, 0.23, 30⟩ (by norm_num)
      have e0 : WinterSpec.mu "S" .ml .DZ 0 wetGate.dz < 1 := by
        unfold WinterSpec.mu; rw [b0]
        exact mu_lt_one ⟨16, 17, 5⟩ (by norm_num) (by show (25 : ℝ) ≠ 16; norm_num)
      have f2 : WinterSpec.mu "S" .ml .DR 0 wetGate.zdr ≤ 1 := mu_le_one _ _
      have f3 : WinterSpec.mu "S" .ml .RH 0 wetGate.rho ≤ 1 := mu_le_one _ _
      unfold meltScore
      rw [e1, e2, e3]
      linarith
    unfold code detector
    simp [w1]
    norm_num [wetGate]
  have hwet : nearWetSnow ((List.replicate 11 wetGate).map (code "S" 0.5 5)) ((List.replicate 11 wetGate).map (·.height)) 4 =
      List.replicate 11 4 := by
    unfold nearWetSnow
    have hh : wetGate.height = 4 := rfl
    have h15 : (0 : ℝ) ≤ 1.5 := by norm_num
    simp [hcode, List.replicate, hh, h15]
  have hr := C36_verbose_raises ⟨true, false⟩ ((List.replicate 11 wetGate).map (code "S" 0.5 5))
    ((List.replicate 11 wetGate).map (·.height)) 4 (by simp) rfl (by rw [hwet]; simp)
  have hm : meltingLayer ⟨true, false⟩ ({ scanType := "rhi" } : MeltArgs XR) (fieldsOf [11] none (List.replicate 11 wetGate)) =
      .error .indexError := by
    rw [meltingLayer_fields _ _ 0.5 5 h05 h5 (by decide) _ _ _ ⟨by simp, by simp⟩ (by simp), h4, hr]
    rfl
  have : runWinter ⟨true, false⟩ ({ scanType := "rhi" } : MeltArgs XR) (fieldsOf [11] none (List.replicate 11 wetGate)) =
      .error .indexError := by
    unfold runWinter; rw [hm]; rfl
  rw [this] at h
  cases h

end Csu.Fhc
