import Verif.Lemmas.KdpNum
import Verif.QFloat
/-! # C09, C10: standard deviation of phase and least-squares line -/
namespace Csu.Kdp
open Csu PyFloat XR KdpSpec

/-! ## C09 -/

/-- the phases in the window of `2 h + 1` gates centred on gate `i` that are not bad -/
noncomputable def goodPhases (R : Ray XR) (h i : Nat) : List XR :=
  ((window ((i : Int) - h) (2 * h + 1)).map R.dp.mem).filter (fun x => x !=. R.bad)

theorem window_eq (i h : Nat) : rangeI ((i : Int) - h) (i + h + 1) = window ((i : Int) - h) (2 * h + 1) := by
  unfold rangeI window
  congr 2
  omega

theorem mapM_rd {α : Type} [PyFloat α] {chk : Bool} {name : String} {b : Buf α} {l : List Int} {r : List α}
    (h : l.mapM (rd chk name b) = .ok r) : r = l.map b.mem := by
  have := mapM_get h
  apply List.ext_getElem
  · simp [this.1]
  · intro i h1 h2
    rw [List.getElem_map]
    exact rd_val (this.2 i (by omega) h1)

/-- **C09.** For every ray, every odd window `2 h + 1` and every placement of bad gates, in both kernels: the returned
standard deviation is 100 when the window leaves the ray or holds at most `h` good phases; otherwise, when the good
phases are real numbers `xs`, it is their population standard deviation. -/
theorem C09_population_std (D : Dialect XR) (chk : Bool) (R : Ray XR) (h : Nat) (hs : R.stdGate = 2 * h + 1) (out : RayOut XR)
    (e : calcKdpRayFir D chk R = .ok out) (i : Nat) (hi : i < R.n) :
    ((i < h ∨ R.n ≤ i + h) → out.sd[i]? = some (.fin 100)) ∧
    (h ≤ i → i + h < R.n → (goodPhases R h i).length ≤ h → out.sd[i]? = some (.fin 100)) ∧
    (∀ xs : List ℝ, h ≤ i → i + h < R.n → h < xs.length → goodPhases R h i = xs.map .fin →
      out.sd[i]? = some (.fin (popStd xs))) := by
  obtain ⟨yz, r⟩ := calc_run e
  have hl := r.sdLen
  have h1 : i < out.sd.length := by omega
  have hsd := r.sd i h1
  rw [List.getElem?_eq_getElem h1]
  have hh : R.halfStd = h := by unfold Ray.halfStd; omega
  have h100 : (100.0 : XR) = .fin 100 := by rw [fsci]; norm_num
  unfold sdAt at hsd
  rw [hh, h100] at hsd
  refine ⟨fun hc => ?_, fun a b hc => ?_, fun xs a b hx hg => ?_⟩
  · rw [if_neg (by omega)] at hsd
    exact congrArg some (Except.ok.inj hsd).symm
  · rw [if_pos (by omega), window_eq] at hsd
    obtain ⟨l, hm, hsd⟩ := bind_ok hsd
    have hl := mapM_rd hm
    dsimp only at hsd
    have hN : (l.foldl (sdStep D R.bad) ⟨0, 0.0, 0.0, 0.0⟩).N = (goodPhases R h i).length := by
      rw [sd_count, hl]; simp [goodPhases]
    rw [hN, if_neg (by omega)] at hsd
    exact congrArg some (Except.ok.inj hsd).symm
  · rw [if_pos (by omega), window_eq] at hsd
    obtain ⟨l, hm, hsd⟩ := bind_ok hsd
    have hl := mapM_rd hm
    dsimp only at hsd
    rw [sd_skip, hl] at hsd
    have hg' : (List.map R.dp.mem (window (↑i - ↑h) (2 * h + 1))).filter (fun x => x !=. R.bad) = xs.map .fin := hg
    rw [hg'] at hsd
    have hne : xs ≠ [] := by rintro rfl; simp at hx
    have hgood : ∀ x ∈ xs, (XR.fin x !=. R.bad) = true := by
      intro x hx
      have : XR.fin x ∈ goodPhases R h i := by rw [hg]; exact List.mem_map_of_mem hx
      exact (List.mem_filter.mp this).2
    obtain ⟨e1, e2⟩ := sd_value D R.bad xs hgood hne
    rw [if_pos (by rw [e1]; exact_mod_cast hx), if_neg (by
      rw [e1]; have : xs.length ≠ 0 := by omega
      simp [this])] at hsd
    simp only [wx, XR.ff32] at hsd
    rw [e2] at hsd
    exact congrArg some (Except.ok.inj hsd).symm

/-- A NaN phase in a window with enough good gates makes the standard deviation NaN, so that the gate fails quality
control for every threshold. -/
theorem C09_nan_phase (D : Dialect XR) (chk : Bool) (R : Ray XR) (h : Nat) (hs : R.stdGate = 2 * h + 1) (out : RayOut XR)
    (e : calcKdpRayFir D chk R = .ok out) (i : Nat) (h0 : h ≤ i) (hi : i + h < R.n) (hl : h < (goodPhases R h i).length)
    (hnan : XR.nan ∈ goodPhases R h i) : out.sd[i]? = some .nan ∧ ∀ t : XR, (XR.nan <=. t) = false := by
  refine ⟨?_, fun t => nan_le t⟩
  obtain ⟨yz, r⟩ := calc_run e
  have h1 : i < out.sd.length := by have := r.sdLen; omega
  have hsd := r.sd i h1
  rw [List.getElem?_eq_getElem h1]
  have hh : R.halfStd = h := by unfold Ray.halfStd; omega
  unfold sdAt at hsd
  rw [hh, if_pos (by omega), window_eq] at hsd
  obtain ⟨l, hm, hsd⟩ := bind_ok hsd
  have hl' := mapM_rd hm
  dsimp only at hsd
  have hN : (l.foldl (sdStep D R.bad) ⟨0, 0.0, 0.0, 0.0⟩).N = (goodPhases R h i).length := by
    rw [sd_count, hl']; simp [goodPhases]
  rw [sd_nan D R.bad l _ (.inr (by rw [hl']; exact (List.mem_filter.mp hnan).1)), hN, if_pos (by omega), if_neg (by
    have : (goodPhases R h i).length ≠ 0 := by omega
    simp [this])] at hsd
  simp only [wx, XR.ff32] at hsd
  rw [nan_div] at hsd
  exact congrArg some (Except.ok.inj hsd).symm

/-- three gates of phases 1, 2, 6, window of 3 gates -/
noncomputable def stdRay (x : XR) : Ray XR :=
  { n := 3, dp := ⟨3, fun i => if i = 0 then .fin 1 else if i = 1 then x else .fin 6⟩, dz := ⟨3, fun _ => .fin 50⟩,
    rng := ⟨3, fun i => .fin i⟩, thsd := ⟨3, fun _ => .fin 12⟩, nf := 0, bad := .fin (-32768), order := 2, gain := 1,
    coef := ⟨3, fun _ => 1⟩, stdGate := 3, nadp0 := 0 }

/-- the hypotheses on the window of gate 1 are met: three good phases -/
example : goodPhases (stdRay (.fin 2)) 1 1 = [1, 2, 6].map XR.fin ∧ (1 : Nat) < [1, 2, (6 : ℝ)].length := by
  have : ((1 : ℝ) = -32768) = False := by norm_num
  have h2 : ((2 : ℝ) = -32768) = False := by norm_num
  have h6 : ((6 : ℝ) = -32768) = False := by norm_num
  simp [goodPhases, window, stdRay, List.range_succ, this, h2, h6]

/-- and with a bad gate in the middle: two good phases, still more than half a window -/
example : goodPhases (stdRay (.fin (-32768))) 1 1 = [1, 6].map XR.fin := by
  have : ((1 : ℝ) = -32768) = False := by norm_num
  have h6 : ((6 : ℝ) = -32768) = False := by norm_num
  simp [goodPhases, window, stdRay, List.range_succ, this, h6]

/-! ## C10 -/

/-- the samples of which neither coordinate is `bad` -/
noncomputable def goodPts (bad : XR) (pts : List (ℝ × ℝ)) : List (ℝ × ℝ) :=
  open Classical in pts.filter (fun p => decide (XR.fin p.1 ≠ bad ∧ XR.fin p.2 ≠ bad))

theorem feq_iff (x : ℝ) (b : XR) : (XR.fin x ==. b) = true ↔ XR.fin x = b := by
  cases b with
  | nan => simp
  | ninf => exact ⟨fun h => (by cases h), fun h => (by cases h)⟩
  | pinf => exact ⟨fun h => (by cases h), fun h => (by cases h)⟩
  | fin y => simp

theorem kept_cython (bad : XR) (pts : List (ℝ × ℝ)) : kept cython bad pts = goodPts bad pts := by
  unfold kept goodPts
  apply List.filter_congr
  intro p _
  show (!((XR.fin p.1 ==. bad) || (XR.fin p.2 ==. bad))) = _
  have h1 := feq_iff p.1 bad
  have h2 := feq_iff p.2 bad
  by_cases a : XR.fin p.1 = bad <;> by_cases b : XR.fin p.2 = bad <;> simp_all

/-- **C10.** `LSE` returns the unique line minimising the sum of squared residuals over the good samples. -/
theorem C10_least_squares (bad : XR) (pts : List (ℝ × ℝ)) (h : TwoAbscissae (goodPts bad pts)) :
    ∃ a b : ℝ, lse cython bad (pts.map lift) = .ok (.fin a, .fin b) ∧ IsLeastSquares (goodPts bad pts) a b := by
  rw [← kept_cython] at h ⊢
  exact ⟨_, _, lse_val cython bad pts ((detR_ne_zero_iff _).mpr h), least_squares _ h⟩

/-- Good samples on a line give back that line exactly. -/
theorem C10_collinear (bad : XR) (pts : List (ℝ × ℝ)) (a b : ℝ) (h : TwoAbscissae (goodPts bad pts))
    (hl : ∀ p ∈ goodPts bad pts, p.2 = a * p.1 + b) : lse cython bad (pts.map lift) = .ok (.fin a, .fin b) := by
  rw [← kept_cython] at h hl
  rw [lse_val cython bad pts ((detR_ne_zero_iff _).mpr h), (slope_of_line _ h a b hl).1, (slope_of_line _ h a b hl).2]

/-- The order of the samples is irrelevant. -/
theorem C10_order_irrelevant (D : Dialect XR) (bad : XR) (pts pts' : List (ℝ × ℝ)) (h : pts.Perm pts') :
    lse D bad (pts.map lift) = lse D bad (pts'.map lift) := by
  have hk : (kept D bad pts).Perm (kept D bad pts') := h.filter _
  unfold lse
  simp only [lseSums_val, (hk.map _).sum_eq, hk.length_eq]

/-- When the good abscissae all coincide, or there is no good sample, it raises ZeroDivisionError. -/
theorem C10_zero_division (bad : XR) (pts : List (ℝ × ℝ)) (h : ¬ TwoAbscissae (goodPts bad pts)) :
    lse cython bad (pts.map lift) = .error .zeroDivisionError := by
  have hd : detR (kept cython bad pts) = 0 := by
    by_contra hc
    exact h (kept_cython bad pts ▸ (detR_ne_zero_iff _).mp hc)
  unfold lse
  dsimp only
  rw [lse_det, hd]
  simp [cython]

/-- The Fortran version does not raise: it returns non-finite numbers. -/
theorem C10_fortran_degenerate (bad : XR) (pts : List (ℝ × ℝ)) (h : ¬ TwoAbscissae (kept fortran bad pts)) :
    ∃ a b : XR, lse fortran bad (pts.map lift) = .ok (a, b) ∧ ¬ IsFin a ∧ ¬ IsFin b := by
  have hd : detR (kept fortran bad pts) = 0 := by
    by_contra hc
    exact h ((detR_ne_zero_iff _).mp hc)
  unfold lse
  dsimp only
  rw [lse_det, hd, lseSums_val]
  refine ⟨_, _, by simp only [fortran, Bool.false_and, Bool.false_eq_true, if_false]; rfl, ?_, ?_⟩ <;>
    simp only [wx, XR.ff32, fmul, fsub, fdiv_def, if_true, infOfSign] <;> rintro ⟨r, hr⟩ <;> revert hr <;>
    split_ifs <;> intro hr <;> cases hr

/-- The line through distinct points, one of them bad. -/
example : TwoAbscissae (goodPts (.fin (-32768)) [(1, 3), (2, 5), (3, -32768), (4, 9)]) ∧
    ∀ p ∈ goodPts (.fin (-32768)) [(1, 3), (2, 5), (3, -32768), (4, 9)], p.2 = 2 * p.1 + 1 := by
  have e : goodPts (.fin (-32768)) [(1, 3), (2, 5), (3, -32768), (4, 9)] = [(1, 3), (2, 5), (4, 9)] := by
    unfold goodPts; norm_num [List.filter]
  rw [e]
  refine ⟨⟨(1, 3), by simp, (2, 5), by simp, by norm_num⟩, ?_⟩
  intro p hp
  simp at hp
  rcases hp with rfl | rfl | rfl <;> norm_num

/-- A vertical set of samples. -/
example : ¬ TwoAbscissae (goodPts (.fin (-32768)) [(1, 3), (1, 5)]) := by
  rintro ⟨p, hp, q, hq, h⟩
  have hp := List.mem_of_mem_filter hp
  have hq := List.mem_of_mem_filter hq
  simp at hp hq
  rcases hp with rfl | rfl <;> rcases hq with rfl | rfl <;> simp at h

end Csu.Kdp
