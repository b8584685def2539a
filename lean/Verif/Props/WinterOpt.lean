import Verif.Props.MeltSweep
/-!
# C132: `run_winter` and `melting_layer` when optional fields are left out; C36 with non-finite heights

The optional fields are `zdr`, `kdp`, `T` and `sn`; `dz`, `rho` (masked) and `heights` are given.
-/
namespace Csu.WinterSpec
open Csu Tables FhcSpec
noncomputable section

/-- which optional fields a call supplies -/
structure Given where
  zdr : Bool
  kdp : Bool
  T : Bool
  sn : Bool

/-- Score of `other` (0) or `wet snow` (1) with the supplied variables only: weights 4, 7 and 14 for reflectivity, differential reflectivity (if
given) and correlation coefficient. -/
def meltScoreOf (band : String) (G : Given) (g : Gate) (c : Nat) : ℝ :=
  if G.zdr then (4 * mu band .ml .DZ c g.dz + 7 * mu band .ml .DR c g.zdr + 14 * mu band .ml .RH c g.rho) / 25
  else (4 * mu band .ml .DZ c g.dz + 14 * mu band .ml .RH c g.rho) / 18

/-- Score of the warm species, `frozen` (4) and `rain` (5): weights 10 and 20 for reflectivity and temperature; without temperature the
membership in reflectivity alone. -/
def warmScoreOf (band : String) (G : Given) (g : Gate) (c : Nat) : ℝ :=
  if G.T then (10 * mu band .winter .DZ c g.dz + 20 * mu band .winter .T c g.T) / 30 else mu band .winter .DZ c g.dz

/-- Score of the cold species with the supplied variables only: weights 5, 9 and 11 (for aggregates, 3: 5, 10 and 10) for reflectivity, differential
reflectivity and differential phase. -/
def coldScoreOf (band : String) (G : Given) (g : Gate) (c : Nat) : ℝ :=
  let wr : ℝ := if c < 3 then 9 else 10
  let wk : ℝ := if c < 3 then 11 else 10
  let z := 5 * mu band .winter .DZ c g.dz
  let r := wr * mu band .winter .DR c g.zdr
  let k := wk * mu band .winter .KD c g.kdp
  if G.zdr then (if G.kdp then (z + r + k) / 25 else (z + r) / (5 + wr))
  else if G.kdp then (z + k) / (5 + wk) else mu band .winter .DZ c g.dz

/-- the detector code of a gate: without a signal-to-noise field no gate has a weak signal -/
def codeOf (band : String) (G : Given) (minRH snThresh : ℝ) (g : Gate) : Int :=
  open Classical in
  detector (g.masked || decide (g.rho ≤ minRH)) (G.sn && decide (g.sn < snThresh))
    (decide (meltScoreOf band G g 0 < meltScoreOf band G g 1))

end
end Csu.WinterSpec

namespace Csu.Fhc
open Csu PyFloat Tables XR FhcSpec WinterSpec

/-- an optional field -/
def optField (b : Bool) (sh : List Nat) (gs : List Gate) (f : Gate → ℝ) : Option (NdArray XR) :=
  if b then some (field sh gs f) else none

/-- the fields of a volume, with only the given optional ones -/
def optFields (G : Given) (sh : List Nat) (az : Option (List ℝ)) (gs : List Gate) : Fields XR :=
  { fieldsOf sh az gs with
    zdr := optField G.zdr sh gs (·.zdr), kdp := optField G.kdp sh gs (·.kdp), T := optField G.T sh gs (·.T),
    sn := optField G.sn sh gs (·.sn) }

/-- with everything given, these are the fields, scores and codes of C33 -/
theorem optFields_all (sh : List Nat) (az : Option (List ℝ)) (gs : List Gate) : optFields ⟨true, true, true, true⟩ sh az gs = fieldsOf sh az gs := rfl

def PMlG (G : Given) (k : Key) : Bool := k == .DZ || (k == .DR && G.zdr) || (k == .KD && G.kdp) || k == .RH
def PWinG (G : Given) (k : Key) : Bool := k == .DZ || (k == .DR && G.zdr) || (k == .KD && G.kdp) || (k == .T && G.T)

theorem mlInputs_opt (G : Given) (sh : List Nat) (az : Option (List ℝ)) (gs : List Gate) :
    IsGates (mlInputs (optFields G sh az gs)) (PMlG G) ((gs.map val).map (fun x k => fin (x k))) := by
  obtain ⟨a, b, c, d⟩ := G
  intro k
  cases k <;> cases a <;> cases b <;>
    simp [mlInputs, optFields, optField, fieldsOf, Inputs.get, PMlG, RhoArg.array, field, val, Function.comp_def]

theorem winterInputs_opt (G : Given) (sh : List Nat) (az : Option (List ℝ)) (gs : List Gate) :
    IsGates (winterInputs (optFields G sh az gs)) (PWinG G) ((gs.map val).map (fun x k => fin (x k))) := by
  obtain ⟨a, b, c, d⟩ := G
  intro k
  cases k <;> cases a <;> cases b <;> cases c <;>
    simp [winterInputs, optFields, optField, fieldsOf, Inputs.get, PWinG, field, val, Function.comp_def]

theorem meltScoreOf_eq (G : Given) (g : Gate) (c : Nat) :
    score false (PMlG G) (effTemp (PMlG G) false) (fun k => mlW k c) (fun k => (bellT "S" .ml 1 k c).mu (val g k)) =
      meltScoreOf "S" G g c := by
  obtain ⟨a, b, c', d⟩ := G
  cases a <;> cases b <;>
  · simp [score, linearScore, wmean, allKeys, PMlG, effTemp, mlW, bellT, meltScoreOf, WinterSpec.mu, val]
    ring

theorem warmScoreOf_eq (G : Given) (g : Gate) (c : Nat) (hc : c = 4 ∨ c = 5) :
    score false (PWinG G) (effTemp (PWinG G) true) (fun k => winterW k c) (fun k => (bellT "C" .winter 1 k c).mu (val g k)) =
      warmScoreOf "C" G g c := by
  obtain ⟨a, b, t, d⟩ := G
  rcases hc with rfl | rfl <;> cases a <;> cases b <;> cases t <;>
  · simp [score, linearScore, wmean, allKeys, PWinG, effTemp, winterW, bellT, scale_one, warmScoreOf, WinterSpec.mu, val]
    try ring

theorem coldScoreOf_eq (G : Given) (g : Gate) (c : Nat) (hc : c < 4) :
    score false (PWinG G) (effTemp (PWinG G) true) (fun k => winterW k c) (fun k => (bellT "C" .winter 1 k c).mu (val g k)) =
      coldScoreOf "C" G g c := by
  obtain ⟨a, b, t, d⟩ := G
  rcases (show c = 0 ∨ c = 1 ∨ c = 2 ∨ c = 3 by omega) with rfl | rfl | rfl | rfl <;> cases a <;> cases b <;> cases t <;>
  · simp [score, linearScore, wmean, allKeys, PWinG, effTemp, winterW, bellT, scale_one, coldScoreOf, WinterSpec.mu, val]
    try ring_nf

/-- the wet-snow scores -/
theorem ml_opt (G : Given) (sh : List Nat) (az : Option (List ℝ)) (gs : List Gate) : csuFhcMl mlCallArgs (mlInputs (optFields G sh az gs)) =
    .ok (some (2 :: sh, [0, 1].map (fun c => gs.map (fun g => fin (meltScoreOf "S" G g c))))) := by
  obtain ⟨dz, h1, h2⟩ := ml_fin (A := (mlCallArgs : MlArgs XR)) (P := PMlG G) (xs := gs.map val) (hybrid := false)
    ⟨by show "S" ∈ bands; simp [bands], by show methodOf "linear" = _; decide, rfl, by intro _; simp [pol, PMlG],
      by intro _ h; simp [PMlG] at h⟩ rfl one_pos
    (by show (1 : XR) = _; simp) (w := mlW) mlW_eq (by
      intro h; simp at h)
    (by
      intro _ c _
      obtain ⟨a, b, c', d⟩ := G
      cases a <;> cases b <;> simp [totalWeight, allKeys, PMlG, mlW] <;> norm_num)
    (mlInputs_opt G sh az gs)
  cases h1
  rw [h2]
  congr 3
  apply List.map_congr_left
  intro c _
  rw [List.map_map]
  apply List.map_congr_left
  intro g _
  exact congrArg fin (meltScoreOf_eq G g c)

/-- the winter scores, if a polarimetric field is given -/
theorem winter_opt (G : Given) (hG : G.zdr = true ∨ G.kdp = true) (sh : List Nat) (az : Option (List ℝ)) (gs : List Gate) (warm : Bool) :
    csuFhcWinter (winterCallArgs warm : WinterArgs XR) (winterInputs (optFields G sh az gs)) =
    .ok (some ((winterTypes warm).length :: sh, (winterTypes warm).map (fun c => gs.map (fun g => fin
      (score false (PWinG G) (effTemp (PWinG G) true) (fun k => winterW k c)
        (fun k => (bellT "C" .winter 1 k c).mu (val g k))))))) := by
  obtain ⟨dz, h1, h2⟩ := winter_fin (A := (winterCallArgs warm : WinterArgs XR)) (P := PWinG G)
    (xs := gs.map val) (hybrid := false)
    ⟨by show "C" ∈ bands; simp [bands], by show methodOf "linear" = _; decide, rfl, by
        intro _; rcases hG with h | h <;> simp [pol, PWinG, h, List.filter_cons]; split_ifs <;> simp,
      fun _ _ => rfl⟩ rfl rfl one_pos
    (by show (1 : XR) = _; simp) (w := winterW) winterW_eq (by intro h; simp at h)
    (by
      intro _ c hc
      exact (goodWeights_winter (PWinG G) true rfl warm c hc).total_lin.ne')
    (winterInputs_opt G sh az gs)
  cases h1
  rw [h2]
  congr 3
  apply List.map_congr_left
  intro c _
  rw [List.map_map]
  rfl

theorem winterV_opt (G : Given) (env : Env) (sh : List Nat) (az : Option (List ℝ)) (gs : List Gate) (hne : env.verbose = true → gs ≠ []) (n : Nat) (A : WinterArgs XR) :
    csuFhcWinterV env.verbose false n A (winterInputs (optFields G sh az gs)) = csuFhcWinter A (winterInputs (optFields G sh az gs)) := by
  cases hv : env.verbose with
  | false => exact winterV_plain _ _ _
  | true =>
    apply winterV_nonempty
    rintro dz ⟨⟩
    exact field_ne (hne hv)

theorem mlV_opt (G : Given) (env : Env) (sh : List Nat) (az : Option (List ℝ)) (gs : List Gate) (hne : env.verbose = true → gs ≠ []) (A : MlArgs XR) :
    csuFhcMlV env.verbose false A (mlInputs (optFields G sh az gs)) = csuFhcMl A (mlInputs (optFields G sh az gs)) := by
  cases hv : env.verbose with
  | false => exact mlV_plain _ _
  | true =>
    apply mlV_nonempty
    rintro dz ⟨⟩
    exact field_ne (hne hv)

theorem winterRows_opt (G : Given) (hG : G.zdr = true ∨ G.kdp = true) (env : Env) (sh : List Nat) (az : Option (List ℝ)) (gs : List Gate)
    (hne : env.verbose = true → gs ≠ []) :
    winterRows env true (optFields G sh az gs) = .ok ([4, 5].map (fun c => gs.map (fun g => fin (warmScoreOf "C" G g c)))) ∧
    winterRows env false (optFields G sh az gs) = .ok ([0, 1, 2, 3].map (fun c => gs.map (fun g => fin (coldScoreOf "C" G g c)))) := by
  constructor
  · unfold winterRows
    rw [winterV_opt G env sh az gs hne, winter_opt G hG]
    simp only [bind, Except.bind]
    congr 1
    show [4, 5].map _ = _
    apply List.map_congr_left
    intro c hc
    apply List.map_congr_left
    intro g _
    exact congrArg fin (warmScoreOf_eq G g c (by simpa using hc))
  · unfold winterRows
    rw [winterV_opt G env sh az gs hne, winter_opt G hG]
    simp only [bind, Except.bind]
    congr 1
    show [0, 1, 2, 3].map _ = _
    apply List.map_congr_left
    intro c hc
    apply List.map_congr_left
    intro g _
    exact congrArg fin (coldScoreOf_eq G g c (by simp at hc; omega))

theorem sameShape_opt (G : Given) (sh : List Nat) (az : Option (List ℝ)) (gs : List Gate) (hsh : IsShape sh gs) :
    sameShape (field sh gs (·.dz)) [(optFields G sh az gs).zdr, (optFields G sh az gs).kdp, (optFields G sh az gs).rho.array,
      (optFields G sh az gs).sn, (optFields G sh az gs).heights] = true := by
  obtain ⟨a, b, c, d⟩ := G
  cases a <;> cases b <;> cases d <;>
    simpa [sameShape, optFields, optField, fieldsOf, RhoArg.array, field, NdArray.WF, IsShape] using hsh

theorem codes_opt (G : Given) (sh : List Nat) (gs : List Gate) (minRH snT : ℝ) :
    qualityControl ((optField G.sn sh gs (·.sn)).map (·.data)) (fin snT) ⟨field sh gs (·.rho), gs.map (·.masked)⟩ (fin minRH)
      ((classify gs.length ([0, 1].map (fun c => gs.map (fun g => fin (meltScoreOf "S" G g c))))).map Int.ofNat) =
    gs.map (codeOf "S" G minRH snT) := by
  unfold qualityControl
  rw [classify_map gs [0, 1] (fun c g => fin (meltScoreOf "S" G g c))]
  have : ∀ g, (meltScoreOf "S" G g 1 ≤ meltScoreOf "S" G g 0) ↔ ¬ (meltScoreOf "S" G g 0 < meltScoreOf "S" G g 1) := fun g => not_lt.symm
  cases hs : G.sn <;>
  · simp only [optField, field, List.map_map, Function.comp_def, maskSet_map, zipWith_map_map, List.map_cons, List.map_nil,
      argmaxPlus1_two, fisnan, fle, flt, Bool.false_or, Bool.or_false, Option.map_some, Option.map_none, Bool.false_eq_true, if_false, if_true]
    apply List.map_congr_left
    intro g _
    unfold codeOf detector
    by_cases h1 : g.rho ≤ minRH <;> cases g.masked <;> by_cases h2 : g.sn < snT <;>
      by_cases h3 : meltScoreOf "S" G g 0 < meltScoreOf "S" G g 1 <;> simp [h1, h2, h3, hs, this g]

/-- `melting_layer` with optional fields, up to the melting levels -/
theorem meltingLayer_opt (G : Given) (env : Env) (A : MeltArgs XR) (minRH snT : ℝ)
    (h1 : A.minRH = fin minRH) (h2 : A.snThresh = fin snT) (sh : List Nat) (az : Option (List ℝ)) (gs : List Gate) (hsh : IsShape sh gs)
    (hne : env.verbose = true → gs ≠ []) :
    meltingLayer env A (optFields G sh az gs) =
      (meltLevels env A (az.map (·.map fin)) (field sh gs (·.dz)) (field sh gs (·.height)) (gs.map (codeOf "S" G minRH snT))).map (fun p =>
        some ⟨sh, p.1, p.2, gs.map (codeOf "S" G minRH snT),
          [0, 1].map (fun c => gs.map (fun g => fin (meltScoreOf "S" G g c)))⟩) := by
  have hsh := sameShape_opt G sh az gs hsh
  have hcode := codes_opt G sh gs minRH snT
  have hdz : (field sh gs (·.dz)).data.length = gs.length := by simp [field]
  unfold meltingLayer
  rw [mlV_opt G env sh az gs hne, ml_opt]
  simp only [bind, Except.bind]
  rw [show (optFields G sh az gs).dz = some (field sh gs (·.dz)) from rfl]
  simp only [hsh, Bool.not_true, Bool.false_eq_true, if_false, hdz]
  simp only [show (optFields G sh az gs).rho = .masked ⟨field sh gs (·.rho), gs.map (·.masked)⟩ from rfl,
    show (optFields G sh az gs).sn = optField G.sn sh gs (·.sn) from rfl,
    show (optFields G sh az gs).heights = some (field sh gs (·.height)) from rfl,
    show (optFields G sh az gs).azimuths = az.map (·.map fin) from rfl, List.length_map, ne_eq, not_true, if_false,
    h1, h2, hcode]
  cases meltLevels env A (az.map (·.map fin)) (field sh gs (·.dz)) (field sh gs (·.height)) (gs.map (codeOf "S" G minRH snT)) <;> rfl

/-- `run_winter` with optional fields, given the result of `melting_layer` -/
theorem runWinter_opt (G : Given) (hG : G.zdr = true ∨ G.kdp = true) (env : Env) (A : MeltArgs XR) (minRH snT : ℝ) (sh : List Nat)
    (az : Option (List ℝ)) (gs : List Gate) (hsh : IsShape sh gs) (hne : env.verbose = true → gs ≠ []) (M : MeltOut XR)
    (m1 : meltingLayer env A (optFields G sh az gs) = .ok (some M)) (m0 : M.shape = sh) (m2 : M.fh = gs.map (codeOf "S" G minRH snT))
    (hl : M.meltlev.length = gs.length) :
    ∃ out, runWinter env A (optFields G sh az gs) = .ok out ∧ out.shape = sh ∧ out.hca.length = gs.length ∧
      ∀ (i : Nat) (g : Gate) (lev : Nat), gs[i]? = some g → M.meltlev[i]? = some lev → ∃ w c,
        FirstBest ([4, 5].map (warmScoreOf "C" G g)) w ∧ FirstBest ([0, 1, 2, 3].map (coldScoreOf "C" G g)) c ∧
        out.hca[i]? = some (category (A.scanType == "grid") (codeOf "S" G minRH snT g) lev w c) := by
  obtain ⟨w1, w2⟩ := winterRows_opt G hG env sh az gs hne
  have hdz : (field sh gs (·.dz)).data.length = gs.length := by simp [field]
  have hsh : sameShape (field sh gs (·.dz)) [(optFields G sh az gs).T] = true := by
    obtain ⟨a, b, c, d⟩ := G
    cases c <;> simpa [sameShape, optFields, optField, fieldsOf, field, NdArray.WF, IsShape] using hsh
  have call : runWinter env A (optFields G sh az gs) = .ok ⟨M.shape, combine (A.scanType == "grid") M.meltlev M.fh
      ((classify gs.length ([4, 5].map (fun c => gs.map (fun g => fin (warmScoreOf "C" G g c))))).map Int.ofNat)
      ((classify gs.length ([0, 1, 2, 3].map (fun c => gs.map (fun g => fin (coldScoreOf "C" G g c))))).map Int.ofNat),
      M.scores, [4, 5].map (fun c => gs.map (fun g => fin (warmScoreOf "C" G g c))),
      [0, 1, 2, 3].map (fun c => gs.map (fun g => fin (coldScoreOf "C" G g c))), renumberMl M.fh,
      renumberWarm ((classify gs.length ([4, 5].map (fun c => gs.map (fun g => fin (warmScoreOf "C" G g c))))).map Int.ofNat),
      (classify gs.length ([0, 1, 2, 3].map (fun c => gs.map (fun g => fin (coldScoreOf "C" G g c))))).map Int.ofNat⟩ := by
    unfold runWinter
    rw [m1]
    simp only [bind, Except.bind]
    rw [show (optFields G sh az gs).dz = some (field sh gs (·.dz)) from rfl]
    simp only [hsh, Bool.not_true, Bool.false_eq_true, if_false, w1, w2, hdz]
  refine ⟨_, call, m0, ?_, ?_⟩
  · rw [m2]
    cases (A.scanType == "grid") <;> simp [combine, renumberWarm, renumberMl, maskSet, maskCopy, classify, hl]
  · intro i g lev hg hlev
    refine ⟨argmaxPlus1 ([4, 5].map (fun c => fin (warmScoreOf "C" G g c))),
      argmaxPlus1 ([0, 1, 2, 3].map (fun c => fin (coldScoreOf "C" G g c))), ?_, ?_, ?_⟩
    · have := argmaxPlus1_fin ([4, 5].map (warmScoreOf "C" G g)) (by simp)
      simpa using this
    · have := argmaxPlus1_fin ([0, 1, 2, 3].map (coldScoreOf "C" G g)) (by simp)
      simpa using this
    · apply combine_get?
      · exact hlev
      · rw [m2, List.getElem?_map, hg]; rfl
      · rw [classify_map gs [4, 5] (fun c g => fin (warmScoreOf "C" G g c)), List.map_map, List.getElem?_map, hg]; rfl
      · rw [classify_map gs [0, 1, 2, 3] (fun c g => fin (coldScoreOf "C" G g c)), List.map_map, List.getElem?_map, hg]; rfl
      · have := argmaxPlus1_range ([4, 5].map (fun c => fin (warmScoreOf "C" G g c))) (by simp)
        simp only [List.length_map, List.length_cons, List.length_nil] at this
        omega
      · unfold codeOf detector
        split_ifs <;> simp

/-- the melting levels of a volume with one melting height: RHIs and grids, and PPIs without azimuths -/
theorem meltLevels_one (env : Env) (A : MeltArgs XR) (e : ℝ) (h3 : A.expected = some (fin e)) (sh : List Nat) (az : Option (List ℝ))
    (gs : List Gate) (k : Gate → Int)
    (h : (env.breaks = false ∧ (A.scanType = "rhi" ∨ A.scanType = "grid")) ∨ (az = none ∧ A.scanType ≠ "rhi" ∧ A.scanType ≠ "grid")) :
    ∃ m, meltLevels env A (az.map (·.map fin)) (field sh gs (·.dz)) (field sh gs (·.height)) (gs.map k) =
      .ok (gs.map (fun g => level g.height m), .one (fin m)) ∧ MeltHeight (gs.map k) (gs.map (·.height)) e m := by
  have hd : (field sh gs (·.height)).data = (gs.map (·.height)).map fin := by simp [field]
  rcases h with ⟨henv, h4⟩ | ⟨rfl, h4⟩
  · obtain ⟨lev, m, g1, g2, g3, g4⟩ := C36_rhi env (gs.map k) (gs.map (·.height)) e (by simp) henv
    have h4 : isRhi A.scanType = true := by simpa [isRhi] using h4
    refine ⟨m, ?_, g2, g3⟩
    unfold meltLevels
    rw [if_pos h4, hd, h3, g1, g4, List.map_map]
    rfl
  · obtain ⟨lev, m, g1, g2, g3, g4⟩ := C36_rhi { env with verbose := false } (gs.map k) (gs.map (·.height)) e (by simp) rfl
    have h4 : isRhi A.scanType = false := by simpa [isRhi] using h4
    refine ⟨m, ?_, g2, g3⟩
    rw [Option.map_none, meltLevels_no_azimuths env A h4, hd, h3, g1, g4, List.map_map]
    rfl

/-- **C132**, `melting_layer`: whatever optional fields are left out, the call returns and every gate gets the code of the scores over the
supplied variables; the levels follow the melting height.  (RHIs, grids, and PPIs without azimuths.) -/
theorem C132_melting_layer (G : Given) (env : Env) (A : MeltArgs XR) (minRH snT e : ℝ)
    (h1 : A.minRH = fin minRH) (h2 : A.snThresh = fin snT) (h3 : A.expected = some (fin e)) (sh : List Nat) (az : Option (List ℝ))
    (gs : List Gate) (hsh : IsShape sh gs) (hne : env.verbose = true → gs ≠ [])
    (h : (env.breaks = false ∧ (A.scanType = "rhi" ∨ A.scanType = "grid")) ∨ (az = none ∧ A.scanType ≠ "rhi" ∧ A.scanType ≠ "grid")) :
    ∃ M m, meltingLayer env A (optFields G sh az gs) = .ok (some M) ∧ M.shape = sh ∧ M.fh = gs.map (codeOf "S" G minRH snT) ∧
      M.melt = .one (fin m) ∧ MeltHeight M.fh (gs.map (·.height)) e m ∧ M.meltlev = gs.map (fun g => level g.height m) := by
  obtain ⟨m, g1, g2⟩ := meltLevels_one env A e h3 sh az gs (codeOf "S" G minRH snT) h
  have call : meltingLayer env A (optFields G sh az gs) = .ok (some ⟨sh, gs.map (fun g => level g.height m), .one (fin m),
      gs.map (codeOf "S" G minRH snT), [0, 1].map (fun c => gs.map (fun g => fin (meltScoreOf "S" G g c)))⟩) := by
    rw [meltingLayer_opt G env A minRH snT h1 h2 sh az gs hsh hne, g1]
    rfl
  exact ⟨_, m, call, rfl, rfl, rfl, g2, rfl⟩

/-- **C132**, `run_winter`: with `zdr` or `kdp` supplied (and `T`, `sn` and the other one optional), the call returns and every gate gets the
category of the scores over the supplied variables.  (RHIs, grids, and PPIs without azimuths.) -/
theorem C132_run_winter (G : Given) (hG : G.zdr = true ∨ G.kdp = true) (env : Env) (A : MeltArgs XR) (minRH snT e : ℝ)
    (h1 : A.minRH = fin minRH) (h2 : A.snThresh = fin snT) (h3 : A.expected = some (fin e)) (sh : List Nat) (az : Option (List ℝ))
    (gs : List Gate) (hsh : IsShape sh gs) (hne : env.verbose = true → gs ≠ [])
    (h : (env.breaks = false ∧ (A.scanType = "rhi" ∨ A.scanType = "grid")) ∨ (az = none ∧ A.scanType ≠ "rhi" ∧ A.scanType ≠ "grid")) :
    ∃ out m, runWinter env A (optFields G sh az gs) = .ok out ∧ out.shape = sh ∧
      MeltHeight (gs.map (codeOf "S" G minRH snT)) (gs.map (·.height)) e m ∧ out.hca.length = gs.length ∧
      ∀ (i : Nat) (g : Gate), gs[i]? = some g → ∃ w c,
        FirstBest ([4, 5].map (warmScoreOf "C" G g)) w ∧ FirstBest ([0, 1, 2, 3].map (coldScoreOf "C" G g)) c ∧
        out.hca[i]? = some (category (A.scanType == "grid") (codeOf "S" G minRH snT g) (level g.height m) w c) := by
  obtain ⟨M, m, m1, m0, m2, m3, m4, m5⟩ := C132_melting_layer G env A minRH snT e h1 h2 h3 sh az gs hsh hne h
  obtain ⟨out, o1, o2, o3, o4⟩ := runWinter_opt G hG env A minRH snT sh az gs hsh hne M m1 m0 m2 (by rw [m5]; simp)
  refine ⟨out, m, o1, o2, by rw [← m2]; exact m4, o3, fun i g hg => o4 i g _ hg ?_⟩
  rw [m5, List.getElem?_map, hg]; rfl

/-- **C132**, sweeps with azimuths that leave no sector empty: the same, with the height of each gate's sector. -/
theorem C132_run_winter_sweep (G : Given) (hG : G.zdr = true ∨ G.kdp = true) (env : Env) (A : MeltArgs XR) (minRH snT e : ℝ)
    (h1 : A.minRH = fin minRH) (h2 : A.snThresh = fin snT) (h3 : A.expected = some (fin e))
    (h4 : A.scanType ≠ "rhi" ∧ A.scanType ≠ "grid") (hn : 2 ≤ A.nsect) (S : PolSweep) (hcov : S.Covers A.nsect) :
    ∃ out ms, runWinter env A (optFields G [S.rays.length, S.cols] (some S.rayAz) S.gates) = .ok out ∧
      out.shape = [S.rays.length, S.cols] ∧ out.hca.length = S.gates.length ∧
      SweepHeights A.nsect (S.codedBy (codeOf "S" G minRH snT)).gates e ms ∧
      ∀ (i : Nat) (g : Gate) (a : ℝ), S.gates[i]? = some g → S.azs[i]? = some a → 0 ≤ a → a < 360 → ∃ m w c,
        ms[sectorOf A.nsect a]? = some m ∧
        FirstBest ([4, 5].map (warmScoreOf "C" G g)) w ∧ FirstBest ([0, 1, 2, 3].map (coldScoreOf "C" G g)) c ∧
        out.hca[i]? = some (category false (codeOf "S" G minRH snT g) (if g.height ≤ m then 0 else 2) w c) := by
  have h4' : isRhi A.scanType = false := by simpa [isRhi] using h4
  have hg : (A.scanType == "grid") = false := by simpa using h4.2
  obtain ⟨lev, ms, p1, p2, p3, p4, p5⟩ := C37_ppi_partial env A.nsect hn (S.codedBy (codeOf "S" G minRH snT))
    (by simpa [PolSweep.codedBy] using hcov.rays hn) e (hcov.gatesBy _)
  have call : meltingLayer env A (optFields G [S.rays.length, S.cols] (some S.rayAz) S.gates) =
      .ok (some ⟨[S.rays.length, S.cols], lev, .sectors (ms.map fin), S.gates.map (codeOf "S" G minRH snT),
        [0, 1].map (fun c => S.gates.map (fun g => fin (meltScoreOf "S" G g c)))⟩) := by
    rw [meltingLayer_opt G env A minRH snT h1 h2 _ _ _ S.isShape (fun _ => hcov.gates_ne hn), Option.map_some,
      meltLevels_codedBy env A _ e h3 h4' S, p1]
    rfl
  obtain ⟨out, o1, o2, o3, o4⟩ := runWinter_opt G hG env A minRH snT _ _ S.gates S.isShape (fun _ => hcov.gates_ne hn) _ call rfl rfl (by
    show lev.length = _
    rw [p3, S.codedBy_gates, List.length_zipWith, S.length_azs]; simp)
  refine ⟨out, ms, o1, o2, o3, ⟨p2, p4⟩, ?_⟩
  intro i g a hgi ha a0 a1
  obtain ⟨m, hm, hl⟩ := p5 i _ (S.codedBy_get _ i g a hgi ha) a0 a1
  obtain ⟨w, c, hw, hc, ho⟩ := o4 i g _ hgi hl
  rw [hg] at ho
  exact ⟨m, w, c, hm, hw, hc, ho⟩

/-- **C132**: without `zdr` and `kdp`, `melting_layer` still returns (previous theorem), but `run_winter` raises UnboundLocalError. -/
theorem C132_no_pol (G : Given) (hr : G.zdr = false) (hk : G.kdp = false) (env : Env) (A : MeltArgs XR) (minRH snT e : ℝ)
    (h1 : A.minRH = fin minRH) (h2 : A.snThresh = fin snT) (h3 : A.expected = some (fin e)) (sh : List Nat) (az : Option (List ℝ))
    (gs : List Gate) (hsh : IsShape sh gs) (hne : env.verbose = true → gs ≠ [])
    (h : (env.breaks = false ∧ (A.scanType = "rhi" ∨ A.scanType = "grid")) ∨ (az = none ∧ A.scanType ≠ "rhi" ∧ A.scanType ≠ "grid")) :
    runWinter env A (optFields G sh az gs) = .error .unboundLocalError := by
  obtain ⟨M, m, m1, _⟩ := C132_melting_layer G env A minRH snT e h1 h2 h3 sh az gs hsh hne h
  have hsh : sameShape (field sh gs (·.dz)) [(optFields G sh az gs).T] = true := by
    obtain ⟨a, b, c, d⟩ := G
    cases c <;> simpa [sameShape, optFields, optField, fieldsOf, field, NdArray.WF, IsShape] using hsh
  have hw : winterRows env true (optFields G sh az gs) = .error .unboundLocalError := by
    unfold winterRows
    rw [winterV_opt G env sh az gs hne, C31_needs_pol _ _ (PWinG G) _ (by show "C" ∈ bands; simp [bands])
      (by show methodOf "linear" = _; decide) rfl (by
        intro k hp
        simp only [pol, List.mem_cons, List.not_mem_nil, or_false] at hp
        rcases hp with rfl | rfl | rfl | rfl <;> simp [PWinG, hr, hk]) (winterInputs_opt G sh az gs)]
    rfl
  unfold runWinter
  rw [m1]
  simp only [bind, Except.bind]
  rw [show (optFields G sh az gs).dz = some (field sh gs (·.dz)) from rfl]
  simp only [hsh, Bool.not_true, Bool.false_eq_true, if_false, hw]

/-- `zdr` and nothing else, default arguments: a masked gate and a good one -/
example : ∃ out, runWinter ⟨true, false⟩ ({} : MeltArgs XR) (optFields ⟨true, false, false, false⟩ [2] none
      [⟨20, 1, 0.1, 0.99, -5, 0, 6, false⟩, ⟨20, 1, 0.1, 0.99, -5, 20, 6, true⟩]) = .ok out ∧
    out.hca.length = 2 ∧ out.hca[1]? = some (-1) := by
  obtain ⟨out, m, o1, o2, o3, o4, o5⟩ := C132_run_winter ⟨true, false, false, false⟩ (Or.inl rfl) ⟨true, false⟩ ({} : MeltArgs XR) 0.5 5 4
    (by simp) (by simp) (by show some (4.0 : XR) = _; rw [fsci]; norm_num) [2] none
    [⟨20, 1, 0.1, 0.99, -5, 0, 6, false⟩, ⟨20, 1, 0.1, 0.99, -5, 20, 6, true⟩] ⟨by simp, by simp⟩ (by simp) (Or.inr ⟨rfl, by decide⟩)
  refine ⟨out, o1, o4, ?_⟩
  obtain ⟨w, c, _, _, h⟩ := o5 1 _ rfl
  rw [h]
  simp [codeOf, detector, category]

example : ∃ out, runWinter ⟨true, false⟩ ({ nsect := 3 } : MeltArgs XR)
    (optFields ⟨false, true, false, true⟩ [twoRays.rays.length, twoRays.cols] (some twoRays.rayAz) twoRays.gates) = .ok out := by
  obtain ⟨out, ms, o1, _⟩ := C132_run_winter_sweep ⟨false, true, false, true⟩ (Or.inr rfl) ⟨true, false⟩ ({ nsect := 3 } : MeltArgs XR) 0.5 5 4
    (by simp) (by simp) (by show some (4.0 : XR) = _; rw [fsci]; norm_num) (by decide) (by decide) twoRays twoRays_covers
  exact ⟨out, o1⟩

example : runWinter ⟨true, false⟩ ({} : MeltArgs XR) (optFields ⟨false, false, true, true⟩ [1] none
      [⟨20, 1, 0.1, 0.99, -5, 0, 6, false⟩]) = .error .unboundLocalError :=
  C132_no_pol ⟨false, false, true, true⟩ rfl rfl ⟨true, false⟩ ({} : MeltArgs XR) 0.5 5 4
    (by simp) (by simp) (by show some (4.0 : XR) = _; rw [fsci]; norm_num) [1] none
    [⟨20, 1, 0.1, 0.99, -5, 0, 6, false⟩] ⟨by simp, by simp⟩ (by simp) (Or.inr ⟨rfl, by decide⟩)

/-! ## C36, heights that are not real numbers -/

/-- C36: without an expected height, more than 10 wet-snow gates of which one has a NaN or infinite height make the call raise ValueError (the
histogram of the heights). -/
theorem C36_nonfinite_raises (env : Env) (codes : List Int) (height : List XR)
    (hn : 10 < (WinterSpec.wetSnow codes height).length) (hx : ∃ x ∈ WinterSpec.wetSnow codes height, ¬ IsFin x) :
    getMlRhi env codes height none = .error .valueError := by
  have ha : (WinterSpec.wetSnow codes height).any (fun h => !npIsFinite h) = true := by
    obtain ⟨x, h1, h2⟩ := hx
    rw [List.any_eq_true]
    refine ⟨x, h1, ?_⟩
    cases x with
    | fin r => exact absurd (isFin_fin r) h2
    | nan => rfl
    | pinf => rfl
    | ninf => rfl
  unfold getMlRhi mlHeightRhi
  rw [mlHeights_none]
  simp only [if_pos hn, ha, if_true, bind, Except.bind]

example : getMlRhi ⟨false, false⟩ (List.replicate 11 2) (XR.nan :: List.replicate 10 (fin 3)) none = .error .valueError :=
  C36_nonfinite_raises _ _ _ (by simp [WinterSpec.wetSnow, List.replicate])
    ⟨XR.nan, by simp [WinterSpec.wetSnow, List.replicate], by rintro ⟨r, h⟩; cases h⟩

/-- the real heights of the wet-snow gates within 1.5 of `e`, when heights may be NaN or infinite -/
noncomputable def nearWetSnowX (codes : List Int) (hs : List XR) (e : ℝ) : List ℝ :=
  (codes.zip hs).filterMap (fun p => match p.2 with
    | .fin h => if p.1 = 2 ∧ |h - e| ≤ 1.5 then some h else none
    | _ => none)

/-- the level of a gate whose height may be NaN (level 1), or infinite -/
noncomputable def levelX (h : XR) (m : ℝ) : Nat :=
  match h with
  | .nan => 1
  | .ninf => 0
  | .pinf => 2
  | .fin h => level h m

theorem mlHeights_x (codes : List Int) (hs : List XR) (e : ℝ) (hl : codes.length = hs.length) :
    mlHeights codes hs (some (fin e)) = (nearWetSnowX codes hs e).map fin := by
  obtain ⟨ps, h1, h2⟩ : ∃ ps : List (Int × XR), codes = ps.map (·.1) ∧ hs = ps.map (·.2) := by
    refine ⟨codes.zip hs, ?_, ?_⟩
    · rw [List.map_fst_zip]; omega
    · rw [List.map_snd_zip]; omega
  subst h1 h2
  have h15 : (1.5 : XR) = fin 1.5 := by simp
  simp only [mlHeights, List.map_map, logicalAnd_map]
  rw [maskGet_map]
  unfold nearWetSnowX
  have hz : (ps.map (·.1)).zip (ps.map (·.2)) = ps := by
    rw [List.zip_map', List.map_id']
  rw [hz, h15, fadd, fsub, List.map_filterMap, ← List.filterMap_eq_map, ← List.filterMap_eq_filter, List.filterMap_filterMap]
  apply List.filterMap_congr
  rintro ⟨c, x⟩ _
  cases x with
  | fin r =>
    have : (|r - e| ≤ 1.5) ↔ (r ≤ e + 1.5 ∧ e - 1.5 ≤ r) := by
      rw [abs_le]; constructor <;> rintro ⟨a, b⟩ <;> constructor <;> linarith
    by_cases h1 : c = 2 <;> by_cases h2 : r ≤ e + 1.5 <;> by_cases h3 : e - 1.5 ≤ r <;>
      simp only [Option.guard, this, h1, h2, h3, Function.comp, fle, fge] <;> simp [h1]
  | nan => by_cases h1 : c = 2 <;> simp [Option.guard, Function.comp, h1]
  | pinf =>
    have : (XR.pinf <=. fin (e + 1.5)) = false := rfl
    simp [Option.guard, Function.comp, this]
  | ninf =>
    have : (XR.ninf >=. fin (e - 1.5)) = false := rfl
    simp [Option.guard, Function.comp, this]

/-- C36: with an expected height, gates whose height is NaN or infinite are left out of the median; a NaN height gets level 1, an infinite one 0 or 2. -/
theorem C36_nonfinite_ignored (env : Env) (codes : List Int) (hs : List XR) (e : ℝ) (hl : codes.length = hs.length)
    (henv : env.breaks = false) :
    ∃ m, getMlRhi env codes hs (some (fin e)) = .ok (hs.map (fun h => levelX h m), fin m) ∧
      (10 < (nearWetSnowX codes hs e).length → WinterSpec.IsMedian (nearWetSnowX codes hs e) m) ∧
      ((nearWetSnowX codes hs e).length ≤ 10 → m = e) := by
  have hz := mlHeights_x codes hs e hl
  set z := nearWetSnowX codes hs e
  have hfin : (z.map fin).any (fun h => !npIsFinite h) = false := by
    rw [List.any_eq_false]; intro x hx; obtain ⟨r, _, rfl⟩ := List.mem_map.mp hx
    simp [npIsFinite]
  have hlev : ∀ m : ℝ, splitRhi hs (some (fin m)) = .ok (hs.map (fun h => levelX h m)) := by
    intro m
    simp only [splitRhi, maskSet_map]
    congr 1
    apply List.map_congr_left
    intro h _
    cases h with
    | fin h =>
      simp only [flt, fgt, decide_eq_true_eq, levelX, WinterSpec.level]
      split_ifs <;> first | rfl | (exfalso; linarith)
    | nan => simp [levelX]
    | pinf =>
      have : (XR.pinf >. fin m) = true := rfl
      simp [levelX, this]
    | ninf =>
      have h1 : (XR.ninf >. fin m) = false := rfl
      have h2 : (XR.ninf <. fin m) = true := rfl
      simp [levelX, h1, h2]
  unfold getMlRhi mlHeightRhi
  rw [hz]
  dsimp only
  rw [hfin]
  unfold Env.breaks at henv
  rw [henv]
  simp only [List.length_map]
  by_cases hn : z.length > 10
  · obtain ⟨m, hm, hmed⟩ := npMedian_fin z (by intro e; rw [e] at hn; simp at hn)
    refine ⟨m, ?_, fun _ => hmed, fun h => by omega⟩
    simp only [if_pos hn, Bool.false_eq_true, if_false, hm, bind, Except.bind, hlev]
  · refine ⟨e, ?_, fun h => absurd h hn, fun _ => rfl⟩
    simp only [if_neg hn, bind, Except.bind, hlev]

example : ∃ m, getMlRhi ⟨false, false⟩ [2, 2] [XR.nan, XR.fin 9] (some (fin 4)) = .ok ([1, 2], fin m) := by
  obtain ⟨m, h1, _, h3⟩ := C36_nonfinite_ignored ⟨false, false⟩ [2, 2] [XR.nan, XR.fin 9] 4 rfl rfl
  have : m = 4 := h3 (by
    unfold nearWetSnowX
    refine le_trans (List.length_filterMap_le _ _) (by simp))
  subst this
  refine ⟨4, ?_⟩
  rw [h1]
  simp [levelX, WinterSpec.level]
  norm_num

end Csu.Fhc
