import Verif.Props.MeltPpi
/-!
# C33, C35 and C37 for sweeps (the default scan type), and C118: the sectors of a PPI
-/
namespace Csu.Fhc
open Csu PyFloat Tables XR FhcSpec WinterSpec

/-- a sweep of polarimetric data: rays with their azimuths, all with `cols` gates -/
structure PolSweep where
  rays : List (ℝ × List Gate)
  cols : Nat
  len : ∀ r ∈ rays, r.2.length = cols

namespace PolSweep
/-- its gates, ray by ray -/
def gates (S : PolSweep) : List Gate := S.rays.flatMap (·.2)

/-- the azimuth of each gate -/
def azs (S : PolSweep) : List ℝ := S.rays.flatMap (fun r => r.2.map (fun _ => r.1))

/-- the azimuths of the rays -/
def rayAz (S : PolSweep) : List ℝ := S.rays.map (·.1)

/-- the fields, as passed to `run_winter` and `melting_layer` -/
def fields (S : PolSweep) : Fields XR := fieldsOf [S.rays.length, S.cols] (some S.rayAz) S.gates

/-- the same sweep with a code for each gate -/
noncomputable def codedBy (S : PolSweep) (f : Gate → Int) : Sweep :=
  ⟨S.rays.map (fun r => (r.1, r.2.map (fun g => (f g, g.dz, g.height)))), S.cols, by
    intro r hr
    obtain ⟨r', h', rfl⟩ := List.mem_map.mp hr
    simpa using S.len r' h'⟩

/-- the same sweep with the detector codes, for thresholds `minRH` and `snT` -/
noncomputable def coded (S : PolSweep) (minRH snT : ℝ) : Sweep := S.codedBy (code "S" minRH snT)

theorem codedBy_gates (S : PolSweep) (f : Gate → Int) : (S.codedBy f).gates =
    List.zipWith (fun a g => (⟨a, f g, g.dz, g.height⟩ : PpiGate)) S.azs S.gates := by
  unfold Sweep.gates codedBy azs gates
  dsimp only
  induction S.rays with
  | nil => rfl
  | cons r rs ih =>
    simp only [List.map_cons, List.flatMap_cons, ih]
    rw [List.zipWith_append (by simp)]
    congr 1
    rw [List.map_map, List.zipWith_map_left, List.zipWith_self]
    rfl

theorem coded_gates (S : PolSweep) (minRH snT : ℝ) : (S.coded minRH snT).gates =
    List.zipWith (fun a g => (⟨a, code "S" minRH snT g, g.dz, g.height⟩ : PpiGate)) S.azs S.gates := S.codedBy_gates _

theorem length_azs (S : PolSweep) : S.azs.length = S.gates.length := by
  unfold azs gates; induction S.rays with
  | nil => rfl
  | cons r rs ih => simp only [List.flatMap_cons, List.length_append, List.length_map, ih]

theorem isShape (S : PolSweep) : IsShape [S.rays.length, S.cols] S.gates := by
  refine ⟨by simp, ?_⟩
  have := S.len
  unfold gates
  revert this
  generalize S.cols = c
  induction S.rays with
  | nil => intro _; simp
  | cons r rs ih =>
    intro h
    simp only [List.flatMap_cons, List.length_append, ih (fun r hr => h r (List.mem_cons_of_mem _ hr)), h r (by simp)]
    simp [Nat.succ_mul]; ring

theorem codedBy_get (S : PolSweep) (f : Gate → Int) (i : Nat) (g : Gate) (a : ℝ) (hg : S.gates[i]? = some g) (ha : S.azs[i]? = some a) :
    (S.codedBy f).gates[i]? = some ⟨a, f g, g.dz, g.height⟩ := by
  rw [codedBy_gates, List.getElem?_zipWith, ha, hg]

theorem coded_get (S : PolSweep) (minRH snT : ℝ) (i : Nat) (g : Gate) (a : ℝ) (hg : S.gates[i]? = some g) (ha : S.azs[i]? = some a) :
    (S.coded minRH snT).gates[i]? = some ⟨a, code "S" minRH snT g, g.dz, g.height⟩ := S.codedBy_get _ i g a hg ha

theorem codedBy_map {β : Type} (S : PolSweep) (k : Gate → Int) (f : PpiGate → β) (f' : Gate → β)
    (h : ∀ a g, f ⟨a, k g, g.dz, g.height⟩ = f' g) : (S.codedBy k).gates.map f = S.gates.map f' := by
  apply List.ext_getElem?
  intro i
  rw [List.getElem?_map, List.getElem?_map]
  by_cases hi : i < S.gates.length
  · have hg := List.getElem?_eq_getElem hi
    have ha := List.getElem?_eq_getElem (l := S.azs) (by rw [length_azs]; exact hi)
    rw [codedBy_get S k i _ _ hg ha, hg]
    simp [h]
  · have hl : (S.codedBy k).gates.length ≤ i := by rw [codedBy_gates, List.length_zipWith, length_azs]; omega
    rw [List.getElem?_eq_none hl, List.getElem?_eq_none (not_lt.mp hi)]
    rfl
end PolSweep

/-- the melting levels of a sweep: those of `get_ml_ppi` for the codes -/
theorem meltLevels_codedBy (env : Env) (A : MeltArgs XR) (k : Gate → Int) (e : ℝ) (h3 : A.expected = some (fin e))
    (h4 : isRhi A.scanType = false) (S : PolSweep) :
    meltLevels env A (some (S.rayAz.map fin)) (field [S.rays.length, S.cols] S.gates (·.dz))
      (field [S.rays.length, S.cols] S.gates (·.height)) (S.gates.map k) =
    ppiCall env A.nsect (S.codedBy k) e := by
  unfold meltLevels ppiCall
  rw [h4, if_neg (by simp), h3]
  have e1 : (S.codedBy k).rays.map (fun r => fin r.1) = S.rayAz.map fin := by
    simp [PolSweep.codedBy, PolSweep.rayAz, Function.comp_def]
  have e2 : (S.codedBy k).rays.length = S.rays.length := by simp [PolSweep.codedBy]
  rw [e1, e2, S.codedBy_map k (·.code) k (fun _ _ => rfl),
    S.codedBy_map k (fun g => fin g.dz) (fun g => fin g.dz) (fun _ _ => rfl),
    S.codedBy_map k (fun g => fin g.height) (fun g => fin g.height) (fun _ _ => rfl)]
  rfl

/-- the melting levels of a sweep: those of `get_ml_ppi` for the detector codes -/
theorem meltLevels_sweep (env : Env) (A : MeltArgs XR) (minRH snT e : ℝ) (h3 : A.expected = some (fin e))
    (h4 : isRhi A.scanType = false) (S : PolSweep) :
    meltLevels env A (some (S.rayAz.map fin)) (field [S.rays.length, S.cols] S.gates (·.dz))
      (field [S.rays.length, S.cols] S.gates (·.height)) (S.gates.map (code "S" minRH snT)) =
    ppiCall env A.nsect (S.coded minRH snT) e := meltLevels_codedBy env A _ e h3 h4 S

/-- the sweep has gates, and rays in every sector -/
def PolSweep.Covers (S : PolSweep) (n : Nat) : Prop :=
  0 < S.cols ∧ ∀ i, i + 2 ≤ n → ∃ a ∈ S.rayAz, edge n i ≤ a ∧ a < edge n (i + 1)

theorem PolSweep.Covers.gatesBy {S : PolSweep} {n : Nat} (h : S.Covers n) (k : Gate → Int) (i : Nat) (hi : i + 2 ≤ n) :
    sectorGates n i (S.codedBy k).gates ≠ [] := by
  obtain ⟨a, ha, h1, h2⟩ := h.2 i hi
  obtain ⟨r, hr, rfl⟩ := List.mem_map.mp ha
  obtain ⟨g, gs, hg⟩ := List.exists_cons_of_length_pos (by rw [S.len r hr]; exact h.1 : 0 < r.2.length)
  have : (⟨r.1, k g, g.dz, g.height⟩ : PpiGate) ∈ sectorGates n i (S.codedBy k).gates := by
    unfold sectorGates
    rw [List.mem_filter]
    refine ⟨?_, by simp only [decide_eq_true_eq]; exact ⟨h1, h2⟩⟩
    simp only [Sweep.gates, PolSweep.codedBy, List.mem_flatMap, List.mem_map]
    exact ⟨_, ⟨r, hr, rfl⟩, _, List.mem_map.mpr ⟨g, by rw [hg]; simp, rfl⟩, rfl⟩
  exact List.ne_nil_of_mem this

theorem PolSweep.Covers.gates {S : PolSweep} {n : Nat} (h : S.Covers n) (minRH snT : ℝ) (i : Nat) (hi : i + 2 ≤ n) :
    sectorGates n i (S.coded minRH snT).gates ≠ [] := h.gatesBy _ i hi

theorem PolSweep.Covers.rays {S : PolSweep} {n : Nat} (h : S.Covers n) (hn : 2 ≤ n) : S.rays ≠ [] := by
  obtain ⟨a, ha, _⟩ := h.2 0 (by omega)
  obtain ⟨r, hr, _⟩ := List.mem_map.mp ha
  exact List.ne_nil_of_mem hr

theorem PolSweep.Covers.gates_ne {S : PolSweep} {n : Nat} (h : S.Covers n) (hn : 2 ≤ n) : S.gates ≠ [] := by
  obtain ⟨r, hr⟩ := List.exists_mem_of_ne_nil _ (h.rays hn)
  obtain ⟨g, gs, hg⟩ := List.exists_cons_of_length_pos (by rw [S.len r hr]; exact h.1 : 0 < r.2.length)
  exact List.ne_nil_of_mem (List.mem_flatMap.mpr ⟨r, hr, by rw [hg]; exact List.mem_cons_self⟩)

/-- what `get_ml_ppi` does with a covered sweep: `ms` are the heights of the sectors, in order -/
def SweepHeights (n : Nat) (gs : List PpiGate) (e : ℝ) (ms : List ℝ) : Prop :=
  ms.length = n - 1 ∧ ∀ (i : Nat) (m : ℝ), ms[i]? = some m →
    SectorHeight n i gs e m ∨ (m = 0 ∧ ∀ m', ¬ SectorHeight n i gs e m')

/-- **C35**, PPIs: `melting_layer` on a finite sweep that leaves no sector empty: the codes of the specification, one height per sector, and the
level of each gate relative to the height of its sector. -/
theorem C35_finite_sweep (env : Env) (A : MeltArgs XR) (minRH snT e : ℝ)
    (h1 : A.minRH = fin minRH) (h2 : A.snThresh = fin snT) (h3 : A.expected = some (fin e))
    (h4 : A.scanType ≠ "rhi" ∧ A.scanType ≠ "grid") (hn : 2 ≤ A.nsect) (S : PolSweep) (hcov : S.Covers A.nsect) :
    ∃ M ms, meltingLayer env A S.fields = .ok (some M) ∧ M.shape = [S.rays.length, S.cols] ∧
      M.fh = S.gates.map (code "S" minRH snT) ∧ M.melt = .sectors (ms.map fin) ∧
      SweepHeights A.nsect (S.coded minRH snT).gates e ms ∧ M.meltlev.length = S.gates.length ∧
      ∀ (i : Nat) (g : Gate) (a : ℝ), S.gates[i]? = some g → S.azs[i]? = some a → 0 ≤ a → a < 360 →
        ∃ m, ms[sectorOf A.nsect a]? = some m ∧ M.meltlev[i]? = some (if g.height ≤ m then 0 else 2) := by
  have h4' : isRhi A.scanType = false := by simpa [isRhi] using h4
  obtain ⟨lev, ms, p1, p2, p3, p4, p5⟩ := C37_ppi_partial env A.nsect hn (S.coded minRH snT)
    (by simpa [PolSweep.coded, PolSweep.codedBy] using hcov.rays hn) e (hcov.gates minRH snT)
  refine ⟨⟨[S.rays.length, S.cols], lev, .sectors (ms.map fin), S.gates.map (code "S" minRH snT),
    [0, 1].map (fun c => S.gates.map (fun g => fin (meltScore "S" g c)))⟩, ms, ?_, rfl, rfl, rfl, ⟨p2, p4⟩, ?_, ?_⟩
  · unfold PolSweep.fields
    rw [meltingLayer_levels env A minRH snT h1 h2 _ _ _ S.isShape (fun _ => hcov.gates_ne hn), Option.map_some,
      meltLevels_sweep env A minRH snT e h3 h4' S, p1]
    rfl
  · show lev.length = _
    rw [p3, S.coded_gates, List.length_zipWith, S.length_azs]; simp
  · intro i g a hg ha a0 a1
    exact p5 i _ (S.coded_get minRH snT i g a hg ha) a0 a1

/-- **C33**, PPIs (the default scan type): `run_winter` on a finite sweep that leaves no sector empty: every gate gets the category of the
specification, with the level taken from the height of its sector. -/
theorem C33_finite_sweep (env : Env) (A : MeltArgs XR) (minRH snT e : ℝ)
    (h1 : A.minRH = fin minRH) (h2 : A.snThresh = fin snT) (h3 : A.expected = some (fin e))
    (h4 : A.scanType ≠ "rhi" ∧ A.scanType ≠ "grid") (hn : 2 ≤ A.nsect) (S : PolSweep) (hcov : S.Covers A.nsect) :
    ∃ out ms, runWinter env A S.fields = .ok out ∧ out.shape = [S.rays.length, S.cols] ∧ out.hca.length = S.gates.length ∧
      SweepHeights A.nsect (S.coded minRH snT).gates e ms ∧
      ∀ (i : Nat) (g : Gate) (a : ℝ), S.gates[i]? = some g → S.azs[i]? = some a → 0 ≤ a → a < 360 → ∃ m w c,
        ms[sectorOf A.nsect a]? = some m ∧
        FirstBest ([4, 5].map (warmScore "C" g)) w ∧ FirstBest ([0, 1, 2, 3].map (coldScore "C" g)) c ∧
        out.hca[i]? = some (category false (code "S" minRH snT g) (if g.height ≤ m then 0 else 2) w c) := by
  obtain ⟨M, ms, m1, m0, m2, _, m4, m5, m6⟩ := C35_finite_sweep env A minRH snT e h1 h2 h3 h4 hn S hcov
  obtain ⟨out, o1, o2, o3, o4⟩ := runWinter_fields env A minRH snT _ _ S.gates S.isShape (fun _ => hcov.gates_ne hn) M m1 m0 m2 m5
  have hg : (A.scanType == "grid") = false := by simpa using h4.2
  refine ⟨out, ms, o1, o2, o3, m4, ?_⟩
  intro i g a hgi ha a0 a1
  obtain ⟨m, hm, hl⟩ := m6 i g a hgi ha a0 a1
  obtain ⟨w, c, hw, hc, ho⟩ := o4 i g _ hgi hl
  rw [hg] at ho
  exact ⟨m, w, c, hm, hw, hc, ho⟩

/-- **C37**, what the code does, at the level of `run_winter`: a sweep that leaves a sector empty raises ZeroDivisionError. -/
theorem C37_run_winter_uncovered_partial (env : Env) (A : MeltArgs XR) (minRH snT e : ℝ)
    (h1 : A.minRH = fin minRH) (h2 : A.snThresh = fin snT) (h3 : A.expected = some (fin e))
    (h4 : A.scanType ≠ "rhi" ∧ A.scanType ≠ "grid") (hn : 2 ≤ A.nsect) (S : PolSweep) (hr : S.rays ≠ [])
    (hne : env.verbose = true → S.gates ≠ [])
    (hcov : ∃ i, i + 2 ≤ A.nsect ∧ ∀ a ∈ S.rayAz, ¬ (edge A.nsect i ≤ a ∧ a < edge A.nsect (i + 1))) :
    runWinter env A S.fields = .error .zeroDivisionError := by
  have h4' : isRhi A.scanType = false := by simpa [isRhi] using h4
  have hc : ppiCall env A.nsect (S.coded minRH snT) e = .error .zeroDivisionError := by
    apply C37_uncovered_partial env A.nsect hn (S.coded minRH snT) (by simpa [PolSweep.coded, PolSweep.codedBy] using hr) e
    obtain ⟨i, hi, h⟩ := hcov
    refine ⟨i, hi, ?_⟩
    unfold sectorGates
    rw [List.filter_eq_nil_iff]
    intro g hg
    simp only [Sweep.gates, PolSweep.coded, PolSweep.codedBy, List.mem_flatMap, List.mem_map] at hg
    obtain ⟨r, ⟨r', hr', rfl⟩, x, _, rfl⟩ := hg
    simp only [decide_eq_true_eq]
    exact h r'.1 (List.mem_map_of_mem hr')
  have hm : meltingLayer env A S.fields = .error .zeroDivisionError := by
    unfold PolSweep.fields
    rw [meltingLayer_levels env A minRH snT h1 h2 _ _ _ S.isShape hne, Option.map_some,
      meltLevels_sweep env A minRH snT e h3 h4' S, hc]
    rfl
  unfold runWinter
  rw [hm]; rfl

/-- two opposite rays with two gates each: they cover one sector (`nsect = 2`) and two sectors (`nsect = 3`) -/
noncomputable def twoRays : PolSweep :=
  ⟨[(10, [⟨20, 1, 0.1, 0.99, -5, 20, 6, false⟩, ⟨25, 3, 1, 0.75, 0, 20, 4, false⟩]), (190, [⟨20, 1, 0.1, 0.99, 5, 20, 1, false⟩,
    ⟨20, 1, 0.1, 0.99, -5, 20, 6, true⟩])], 2, by simp⟩

theorem twoRays_covers : twoRays.Covers 3 := by
  refine ⟨by simp [twoRays], ?_⟩
  intro i hi
  have : i = 0 ∨ i = 1 := by omega
  rcases this with rfl | rfl
  · exact ⟨10, by simp [twoRays, PolSweep.rayAz], by simp [edge], by simp [edge]; norm_num⟩
  · exact ⟨190, by simp [twoRays, PolSweep.rayAz], by simp [edge]; norm_num, by simp [edge]; norm_num⟩

/-- the masked gate of the second ray gets -1 -/
example : ∃ out, runWinter ⟨true, false⟩ ({ nsect := 3 } : MeltArgs XR) twoRays.fields = .ok out ∧ out.shape = [2, 2] ∧
    out.hca[3]? = some (-1) := by
  obtain ⟨out, ms, o1, o2, o3, o4, o5⟩ := C33_finite_sweep ⟨true, false⟩ ({ nsect := 3 } : MeltArgs XR) 0.5 5 4
    (by simp) (by simp) (by show some (4.0 : XR) = _; rw [fsci]; norm_num) (by decide) (by decide) twoRays twoRays_covers
  refine ⟨out, o1, o2, ?_⟩
  obtain ⟨m, w, c, _, _, _, h⟩ := o5 3 ⟨20, 1, 0.1, 0.99, -5, 20, 6, true⟩ 190 rfl rfl (by norm_num) (by norm_num)
  rw [h]
  simp [code, detector, category]

/-- with the default 36 the two rays leave sectors empty -/
example : runWinter ⟨false, false⟩ ({} : MeltArgs XR) twoRays.fields = .error .zeroDivisionError := by
  refine C37_run_winter_uncovered_partial ⟨false, false⟩ ({} : MeltArgs XR) 0.5 5 4 (by simp) (by simp)
    (by show some (4.0 : XR) = _; rw [fsci]; norm_num) (by decide) (by decide) twoRays (by simp [twoRays]) (by simp) ⟨5, by decide, ?_⟩
  intro a ha
  simp [twoRays, PolSweep.rayAz] at ha
  rcases ha with rfl | rfl <;> simp [edge] <;> norm_num

/-! ## PPIs without azimuths -/

/-- `melting_layer` on a PPI without azimuths is the silent RHI version -/
theorem meltLevels_no_azimuths (env : Env) (A : MeltArgs XR) (h4 : isRhi A.scanType = false) (dz height : NdArray XR) (fh : List Int) :
    meltLevels env A none dz height fh =
      (getMlRhi { env with verbose := false } fh height.data A.expected).map (fun p => (p.1, Melt.one p.2)) := by
  unfold meltLevels
  rw [h4, if_neg (by simp), C37_no_azimuths]

/-- **C33**, PPIs without azimuths, of any shape and whatever SciPy is installed: one melting height for the whole volume, by the RHI rule. -/
theorem C33_no_azimuths (env : Env) (A : MeltArgs XR) (minRH snT e : ℝ)
    (h1 : A.minRH = fin minRH) (h2 : A.snThresh = fin snT) (h3 : A.expected = some (fin e))
    (h4 : A.scanType ≠ "rhi" ∧ A.scanType ≠ "grid") (sh : List Nat) (gs : List Gate) (hsh : IsShape sh gs)
    (hne : env.verbose = true → gs ≠ []) :
    ∃ out m, runWinter env A (fieldsOf sh none gs) = .ok out ∧ out.shape = sh ∧
      MeltHeight (gs.map (code "S" minRH snT)) (gs.map (·.height)) e m ∧ out.hca.length = gs.length ∧
      ∀ (i : Nat) (g : Gate), gs[i]? = some g → ∃ w c,
        FirstBest ([4, 5].map (warmScore "C" g)) w ∧ FirstBest ([0, 1, 2, 3].map (coldScore "C" g)) c ∧
        out.hca[i]? = some (category false (code "S" minRH snT g) (level g.height m) w c) := by
  have h4' : isRhi A.scanType = false := by simpa [isRhi] using h4
  obtain ⟨lev, m, g1, g2, g3, g4⟩ := C36_rhi { env with verbose := false } (gs.map (code "S" minRH snT)) (gs.map (·.height)) e
    (by simp) rfl
  have call : meltingLayer env A (fieldsOf sh none gs) = .ok (some ⟨sh, lev, .one (fin m), gs.map (code "S" minRH snT),
      [0, 1].map (fun c => gs.map (fun g => fin (meltScore "S" g c)))⟩) := by
    rw [meltingLayer_levels env A minRH snT h1 h2 sh none gs hsh hne, Option.map_none, meltLevels_no_azimuths env A h4', h3,
      show (field sh gs (·.height)).data = (gs.map (·.height)).map fin by simp [field], g1]
    rfl
  obtain ⟨out, o1, o2, o3, o4⟩ := runWinter_fields env A minRH snT sh none gs hsh hne _ call rfl rfl (by show lev.length = _; rw [g4]; simp)
  have hg : (A.scanType == "grid") = false := by simpa using h4.2
  refine ⟨out, m, o1, o2, ⟨g2, g3⟩, o3, fun i g hgi => ?_⟩
  obtain ⟨w, c, hw, hc, ho⟩ := o4 i g (level g.height m) hgi (by show lev[i]? = _; rw [g4, List.map_map, List.getElem?_map, hgi]; rfl)
  rw [hg] at ho
  exact ⟨w, c, hw, hc, ho⟩

/-- the default arguments and one gate -/
example : ∃ out, runWinter ⟨true, false⟩ ({} : MeltArgs XR) (fieldsOf [1, 1] none [⟨20, 1, 0.1, 0.99, -5, 20, 6, true⟩]) = .ok out ∧
    out.hca[0]? = some (-1) := by
  obtain ⟨out, m, o1, o2, o3, o4, o5⟩ := C33_no_azimuths ⟨true, false⟩ ({} : MeltArgs XR) 0.5 5 4
    (by simp) (by simp) (by show some (4.0 : XR) = _; rw [fsci]; norm_num) (by decide) [1, 1] [⟨20, 1, 0.1, 0.99, -5, 20, 6, true⟩]
    ⟨by simp, by simp⟩ (by simp)
  refine ⟨out, o1, ?_⟩
  obtain ⟨w, c, _, _, h⟩ := o5 0 _ rfl
  rw [h]
  simp [code, detector, category]

/-! ## C118 -/

/-- Full statement of C118: `nsect` divides the circle into `nsect` equal sectors, each with its own height; the level of a gate follows the height
of the sector its azimuth is in. -/
def C118Full : Prop := ∀ (env : Env) (n : Nat) (S : Sweep) (e : ℝ) (lev : List Nat) (ms : List ℝ), 2 ≤ n →
  ppiCall env n S e = .ok (lev, .sectors (ms.map fin)) →
  ms.length = n ∧ ∀ (i : Nat) (g : PpiGate), S.gates[i]? = some g → 0 ≤ g.az → g.az < 360 →
    ∃ m, ms[⌊g.az / (360 / (n : ℝ))⌋₊]? = some m ∧ lev[i]? = some (if g.height ≤ m then 0 else 2)

/-- **C118**, what the code does, in any arithmetic: one sector fewer. -/
theorem C118_count_partial {α : Type} [PyFloat α] (env : Env) (n : Nat) (azs : List α) (shape : List Nat) (fh : List Int)
    (dz height : List α) (e : Option α) (lev : List Nat) (m : Melt α)
    (h : getMlPpi env n (some azs) shape fh dz height e = .ok (lev, m)) :
    0 < n ∧ ∃ ms, m = .sectors ms ∧ ms.length = n - 1 := by
  unfold getMlPpi at h
  dsimp only at h
  split at h
  · cases h
  · split at h
    · cases h
    · obtain ⟨⟨lev', ms⟩, h1, h2⟩ := Kdp.bind_ok h
      cases h2
      unfold getMlPpiAz at h1
      dsimp only at h1
      split at h1
      · cases h1
      · rename_i hn
        obtain ⟨meds, h3, h4⟩ := Kdp.bind_ok h1
        cases h4
        exact ⟨Nat.pos_of_ne_zero hn, _, rfl, by rw [mapM_length h3, List.length_range]⟩
  · cases h
  · cases h

/-- **C118**, what the code does: `nsect - 1` sectors of 360 / (`nsect` - 1) degrees. -/
theorem C118_sectors_partial (env : Env) (n : Nat) (hn : 2 ≤ n) (S : Sweep) (hr : S.rays ≠ []) (e : ℝ) (lev : List Nat) (ms : List ℝ)
    (h : ppiCall env n S e = .ok (lev, .sectors (ms.map fin))) :
    ms.length = n - 1 ∧ ∀ (i : Nat) (g : PpiGate), S.gates[i]? = some g → 0 ≤ g.az → g.az < 360 →
      ∃ m, ms[⌊g.az / (360 / ((n : ℝ) - 1))⌋₊]? = some m ∧ lev[i]? = some (if g.height ≤ m then 0 else 2) := by
  by_cases hcov : ∀ i, i + 2 ≤ n → sectorGates n i S.gates ≠ []
  · obtain ⟨lev', ms', p1, p2, p3, p4, p5⟩ := C37_ppi_partial env n hn S hr e hcov
    rw [h] at p1
    simp only [Except.ok.injEq, Prod.mk.injEq, Melt.sectors.injEq] at p1
    obtain ⟨rfl, hm⟩ := p1
    have : ms = ms' := List.map_injective_iff.mpr (fun a b hab => by simpa using hab) hm
    subst this
    exact ⟨p2, p5⟩
  · push Not at hcov
    rw [C37_uncovered_partial env n hn S hr e hcov] at h
    cases h

/-- **C118**, the default: not "36 sectors with 10 deg intervals" but 35 sectors of 72/7 degrees. -/
theorem C118_default_partial (env : Env) (S : Sweep) (hr : S.rays ≠ []) (e : ℝ) (lev : List Nat) (ms : List ℝ)
    (h : ppiCall env ({} : MeltArgs XR).nsect S e = .ok (lev, .sectors (ms.map fin))) :
    ms.length = 35 ∧ ∀ (i : Nat) (g : PpiGate), S.gates[i]? = some g → 0 ≤ g.az → g.az < 360 →
      ∃ m, ms[⌊g.az / (72 / 7)⌋₊]? = some m ∧ lev[i]? = some (if g.height ≤ m then 0 else 2) := by
  obtain ⟨h1, h2⟩ := C118_sectors_partial env 36 (by decide) S hr e lev ms h
  have : (360 / (((36 : ℕ) : ℝ) - 1)) = 72 / 7 := by norm_num
  rw [this] at h2
  exact ⟨h1, h2⟩

/-- **C118** is false of the code. -/
theorem C118_full_false : ¬ C118Full := by
  intro h
  obtain ⟨lev, ms, h1, h2, h3⟩ := C37_ppi_partial ⟨false, false⟩ 2 (by decide) dryGate (by simp [dryGate]) 4 (by
    intro i hi
    have : i = 0 := by omega
    subst this
    have : (⟨10, 1, 20, 2⟩ : PpiGate) ∈ sectorGates 2 0 dryGate.gates := by
      unfold sectorGates
      rw [List.mem_filter]
      exact ⟨by simp [dryGate, Sweep.gates], by simp [InSector, edge]; norm_num⟩
    exact List.ne_nil_of_mem this)
  have := (h ⟨false, false⟩ 2 dryGate 4 lev ms (by decide) h1).1
  omega

end Csu.Fhc
