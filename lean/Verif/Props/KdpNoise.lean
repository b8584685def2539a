import Verif.Props.KdpSign
import Verif.Props.KdpLine
/-!
# C151: how much an error in the phase changes KDP
-/
namespace Csu.Kdp
open Csu PyFloat KdpSpec

/-! ## The slope of a least-squares line as a function of the ordinates -/

/-- the slope with deviations from the mean abscissa -/
theorem slopeR_dev (g : List (ℝ × ℝ)) (m : ℝ) (hm : (g.map (·.1)).sum = g.length * m) (hn : (g.length : ℝ) ≠ 0) :
    slopeR g = (g.map (fun p => (p.1 - m) * p.2)).sum / (g.map (fun p => (p.1 - m) ^ 2)).sum := by
  have key : (g.map (fun p : ℝ × ℝ => (p.1 - m) * p.2)).sum = (g.map (fun p => p.1 * p.2)).sum - m * (g.map (·.2)).sum := by
    clear hm hn
    induction g with
    | nil => simp
    | cons p g ih => simp only [List.map_cons, List.sum_cons, ih]; ring
  unfold slopeR
  rw [detR_dev g m hm, key, hm, show (g.length : ℝ) * (g.map (fun p => p.1 * p.2)).sum - g.length * m * (g.map (·.2)).sum =
    g.length * ((g.map (fun p => p.1 * p.2)).sum - m * (g.map (·.2)).sum) by ring, mul_div_mul_left _ _ hn]

theorem abs_list_sum_le {β : Type} (l : List β) (f g : β → ℝ) (h : ∀ k ∈ l, |f k| ≤ g k) : |(l.map f).sum| ≤ (l.map g).sum := by
  induction l with
  | nil => simp
  | cons a l ih =>
    simp only [List.map_cons, List.sum_cons]
    exact (abs_add_le _ _).trans (add_le_add (h a (by simp)) (ih fun k hk => h k (by simp [hk])))

/-- Ordinates that differ by at most `ε` give slopes that differ by at most `ε Σ|x - x̄| / Σ(x - x̄)²`. -/
theorem slope_diff {β : Type} (l : List β) (x y z : β → ℝ) (m ε : ℝ) (hl : l ≠ []) (hm : (l.map x).sum = l.length * m)
    (h : ∀ k ∈ l, |y k - z k| ≤ ε) :
    |slopeR (l.map fun k => (x k, y k)) - slopeR (l.map fun k => (x k, z k))| ≤
      ε * (l.map fun k => |x k - m|).sum / (l.map fun k => (x k - m) ^ 2).sum := by
  have hn : (l.length : ℝ) ≠ 0 := by
    have := List.length_pos_of_ne_nil hl
    positivity
  have e : ∀ f : β → ℝ, slopeR (l.map fun k => (x k, f k)) = (l.map fun k => (x k - m) * f k).sum / (l.map fun k => (x k - m) ^ 2).sum := by
    intro f
    rw [slopeR_dev _ m (by rw [List.map_map, List.length_map]; exact hm) (by rwa [List.length_map]), List.map_map, List.map_map]
    rfl
  have hd : 0 ≤ (l.map fun k => (x k - m) ^ 2).sum := List.sum_nonneg (by
    intro a ha; obtain ⟨k, -, rfl⟩ := List.mem_map.mp ha; positivity)
  rw [e, e, ← sub_div, abs_div, abs_of_nonneg hd]
  refine div_le_div_of_nonneg_right ?_ hd
  have : (l.map fun k => (x k - m) * y k).sum - (l.map fun k => (x k - m) * z k).sum = (l.map fun k => (x k - m) * (y k - z k)).sum := by
    clear hm h hd e hn hl
    induction l with
    | nil => simp
    | cons a l ih => simp only [List.map_cons, List.sum_cons, ← ih]; ring
  rw [this, ← mul_sum_map]
  refine abs_list_sum_le _ _ _ fun k hk => ?_
  rw [abs_mul, mul_comm]
  exact mul_le_mul_of_nonneg_right (h k hk) (abs_nonneg _)

/-! ## KDP from the good gates of the window -/

/-- the good gates of the window of `winLen D w` gates about gate `i`, counted from the left end -/
noncomputable def winGood (D : Dialect XR) (w i : Nat) (φ : Nat → ℝ) (β : ℝ) : List Nat :=
  (List.range (winLen D w)).filter (fun k => φ (i - w / 2 + k) ≠ β)

/-- KDP is bad or half the slope, and which of the two depends only on which gates are good. -/
theorem kdp_slope (D : Dialect XR) (hD : D = cython ∨ D = fortran) (chk : Bool) (R : Ray XR) (out : RayOut XR)
    (e : calcKdpRayFir D chk R = .ok out) (i : Nat) (hi : i < R.n) (w : Nat) (hw : Width R (R.dz.mem i) w) (h2 : 2 ≤ w)
    (β : ℝ) (hβ : R.bad = .fin β) (r φ : Nat → ℝ)
    (hr : ∀ j < R.n, R.rng.mem j = .fin (r j) ∧ D.skip R.bad (.fin (r j)) = false) (hinc : ∀ j k, j < k → k < R.n → r j < r k)
    (hφ : ∀ j < R.n, out.dp[j]? = some (.fin (φ j)) ∧ (φ j ≠ β → D.skip R.bad (.fin (φ j)) = false)) :
    if (R.dz.mem i ==. R.bad) = false ∧ w / 2 ≤ i ∧ i + w / 2 < R.n ∧ (0.8 : ℝ) * w < (winGood D w i φ β).length then
      out.kd[i]? = some (.fin (0.5 * slopeR ((winGood D w i φ β).map fun k => (r (i - w / 2 + k), φ (i - w / 2 + k))))) ∧ winGood D w i φ β ≠ []
    else out.kd[i]? = some R.bad := by
  split_ifs with hc
  · obtain ⟨hb, hin1, hin2, hmany⟩ := hc
    have hC := (C12_window_slope D hD chk R out e i hi hb w hw).2 hin1 hin2
    have hlen : i - w / 2 + winLen D w ≤ R.n := by
      unfold winLen
      rcases hD with rfl | rfl <;> simp [cython, fortran] <;> omega
    have hg := goodSamples_real (R := R) (out := out) (lo := i - w / 2) (len := winLen D w) (r := r) (φ := φ) hβ
      (fun j _ hj => (hr j (by omega)).1) (fun j _ hj => (hφ j (by omega)).1)
    change goodSamples R out (i - w / 2) (winLen D w) = ((winGood D w i φ β).map _).map lift at hg
    set l := winGood D w i φ β with hl
    have hlm : ∀ k ∈ l, k < winLen D w ∧ φ (i - w / 2 + k) ≠ β := by
      intro k hk
      rw [hl] at hk
      have := List.mem_filter.mp hk
      exact ⟨List.mem_range.mp this.1, by simpa using this.2⟩
    have hle : 2 ≤ l.length := by
      have : (2 : ℝ) ≤ w := by exact_mod_cast h2
      by_contra hc
      have : (l.length : ℝ) ≤ 1 := by exact_mod_cast (by omega : l.length ≤ 1)
      linarith
    have htwo : TwoAbscissae (l.map fun k => (r (i - w / 2 + k), φ (i - w / 2 + k))) := by
      have hsort : l.Pairwise (· < ·) := List.Pairwise.filter _ List.pairwise_lt_range
      match hll : l, hle, hsort with
      | a :: b :: t, _, hs =>
        have hab : a < b := (List.pairwise_cons.mp hs).1 b (by simp)
        have hbm := hlm b (by simp)
        refine ⟨_, List.mem_map.mpr ⟨a, by simp, rfl⟩, _, List.mem_map.mpr ⟨b, by simp, rfl⟩, ?_⟩
        exact ne_of_lt (hinc (i - w / 2 + a) (i - w / 2 + b) (by omega) (by omega))
    obtain ⟨a, b, hls, hkd⟩ := hC.2 _ hg (by rw [List.length_map]; exact hmany) (by
      intro p hp
      obtain ⟨k, hk, rfl⟩ := List.mem_map.mp hp
      have := hlm k hk
      exact ⟨(hr _ (by omega)).2, (hφ _ (by omega)).2 this.2⟩) htwo
    have h1 := least_squares _ htwo
    have h4 := h1 a b
    have h3 := hls (slopeR (l.map fun k => (r (i - w / 2 + k), φ (i - w / 2 + k)))) (interR (l.map fun k => (r (i - w / 2 + k), φ (i - w / 2 + k))))
    rw [hkd, (h4.2 (le_antisymm h3.1 h4.1)).1]
    exact ⟨rfl, fun h => by rw [h] at hle; simp at hle⟩
  · by_cases hb : (R.dz.mem i ==. R.bad) = true
    · exact kdp_bad_reflectivity' D chk R out e i hi hb
    have hC := C12_window_slope D hD chk R out e i hi (by simpa using hb) w hw
    by_cases hin : w / 2 ≤ i ∧ i + w / 2 < R.n
    swap
    · exact hC.1 (by omega)
    have hlen : i - w / 2 + winLen D w ≤ R.n := by
      unfold winLen
      rcases hD with rfl | rfl <;> simp [cython, fortran] <;> omega
    have hg := goodSamples_real (R := R) (out := out) (lo := i - w / 2) (len := winLen D w) (r := r) (φ := φ) hβ
      (fun j _ hj => (hr j (by omega)).1) (fun j _ hj => (hφ j (by omega)).1)
    refine (hC.2 hin.1 hin.2).1 ?_
    rw [hg, List.length_map, List.length_map]
    by_contra hh
    exact hc ⟨by simpa using hb, hin.1, hin.2, not_le.mp hh⟩

/-- **C151**, KDP from the filtered phase (both kernels, any filtering and gaps, any ray).  Two calls that differ only in the phases put in, gate `i` with
window width `w ≥ 2`: if in the window the same gates keep a filtered phase and these phases differ by at most `ε`, then KDP is missing in both
or differs by at most `ε/2 · Σ|r - r̄| / Σ(r - r̄)²`, the sums over the good gates of the window, `r̄` their mean range. -/
theorem C151_kdp_error (D : Dialect XR) (hD : D = cython ∨ D = fortran) (chk : Bool) (R : Ray XR) (dp' : Buf XR) (out out' : RayOut XR)
    (e : calcKdpRayFir D chk R = .ok out) (e' : calcKdpRayFir D chk { R with dp := dp' } = .ok out')
    (i : Nat) (hi : i < R.n) (w : Nat) (hw : Width R (R.dz.mem i) w) (h2 : 2 ≤ w)
    (β : ℝ) (hβ : R.bad = .fin β) (r φ φ' : Nat → ℝ)
    (hr : ∀ j < R.n, R.rng.mem j = .fin (r j) ∧ D.skip R.bad (.fin (r j)) = false) (hinc : ∀ j k, j < k → k < R.n → r j < r k)
    (hφ : ∀ j < R.n, out.dp[j]? = some (.fin (φ j)) ∧ (φ j ≠ β → D.skip R.bad (.fin (φ j)) = false))
    (hφ' : ∀ j < R.n, out'.dp[j]? = some (.fin (φ' j)) ∧ (φ' j ≠ β → D.skip R.bad (.fin (φ' j)) = false))
    (hsame : ∀ j < R.n, i - w / 2 ≤ j → j < i - w / 2 + winLen D w → (φ j = β ↔ φ' j = β))
    (ε : ℝ) (hε : ∀ j < R.n, i - w / 2 ≤ j → j < i - w / 2 + winLen D w → φ j ≠ β → |φ j - φ' j| ≤ ε) :
    (out.kd[i]? = some R.bad ∧ out'.kd[i]? = some R.bad) ∨
    ∃ x x' : ℝ, out.kd[i]? = some (.fin x) ∧ out'.kd[i]? = some (.fin x') ∧
      ∀ (W : Finset Nat) (m : ℝ), (∀ j, j ∈ W ↔ i - w / 2 ≤ j ∧ j < i - w / 2 + winLen D w ∧ φ j ≠ β) → ∑ j ∈ W, r j = W.card * m →
        |x - x'| ≤ ε / 2 * (∑ j ∈ W, |r j - m|) / ∑ j ∈ W, (r j - m) ^ 2 := by
  have hk := kdp_slope D hD chk R out e i hi w hw h2 β hβ r φ hr hinc hφ
  have hw' : Width { R with dp := dp' } (R.dz.mem i) w := by
    cases hw with
    | high h => exact .high h
    | mid h h' => exact .mid (R := { R with dp := dp' }) h h'
    | low h => exact .low (R := { R with dp := dp' }) h
  have hk' := kdp_slope D hD chk { R with dp := dp' } out' e' i hi w hw' h2 β hβ r φ' hr hinc hφ'
  dsimp only at hk'
  by_cases hin : w / 2 ≤ i ∧ i + w / 2 < R.n
  swap
  · rw [if_neg (by tauto)] at hk hk'
    exact .inl ⟨hk, hk'⟩
  have hlen : i - w / 2 + winLen D w ≤ R.n ∧ ∀ k < winLen D w, i - w / 2 + k ≤ i + w / 2 := by
    unfold winLen
    rcases hD with rfl | rfl <;> simp [cython, fortran] <;> refine ⟨by omega, fun k hk => by omega⟩
  have hgg : winGood D w i φ' β = winGood D w i φ β := by
    unfold winGood
    refine List.filter_congr fun k hk => ?_
    have hk := List.mem_range.mp hk
    have := hsame (i - w / 2 + k) (by omega) (by omega) (by omega)
    simp only [ne_eq, this]
  rw [hgg] at hk'
  split_ifs at hk hk' with hc
  swap
  · exact .inl ⟨hk, hk'⟩
  refine .inr ⟨_, _, hk.1, hk'.1, fun W m hW hm => ?_⟩
  set l := winGood D w i φ β with hl
  have hlm : ∀ k, k ∈ l ↔ k < winLen D w ∧ φ (i - w / 2 + k) ≠ β := by
    intro k
    rw [hl]; unfold winGood
    simp [List.mem_filter]
  have hnd : l.Nodup := List.Nodup.filter _ List.nodup_range
  have hWl : W = (l.map fun k => i - w / 2 + k).toFinset := by
    ext j
    rw [hW, List.mem_toFinset, List.mem_map]
    constructor
    · rintro ⟨h1, h3, h4⟩
      exact ⟨j - (i - w / 2), (hlm _).mpr ⟨by omega, by rwa [Nat.add_sub_of_le h1]⟩, by omega⟩
    · rintro ⟨k, hk, rfl⟩
      have := (hlm k).mp hk
      exact ⟨by omega, by omega, this.2⟩
  have hnd' : (l.map fun k => i - w / 2 + k).Nodup := hnd.map (fun a b h => by simpa using h)
  have hs : ∀ f : Nat → ℝ, ∑ j ∈ W, f j = (l.map fun k => f (i - w / 2 + k)).sum := by
    intro f
    rw [hWl, List.sum_toFinset f hnd', List.map_map]; rfl
  have hcard : W.card = l.length := by
    rw [hWl, List.toFinset_card_of_nodup hnd', List.length_map]
  rw [hs, hcard] at hm
  have hd := slope_diff l (fun k => r (i - w / 2 + k)) (fun k => φ (i - w / 2 + k)) (fun k => φ' (i - w / 2 + k)) m ε hk.2 hm (by
    intro k hkk
    have := (hlm k).mp hkk
    exact hε _ (by omega) (by omega) (by omega) this.2)
  rw [hs, hs, ← mul_sub, abs_mul, show |(0.5 : ℝ)| = 0.5 by norm_num]
  calc _ ≤ 0.5 * (ε * (l.map fun k => |r (i - w / 2 + k) - m|).sum / (l.map fun k => (r (i - w / 2 + k) - m) ^ 2).sum) := by gcongr
    _ = _ := by ring

theorem sum_dev_sq (N : Nat) (c : ℝ) : ∑ k ∈ Finset.range N, ((k : ℝ) - c) ^ 2 = N * (N - 1) * (2 * N - 1) / 6 - c * (N * (N - 1)) + N * c ^ 2 := by
  induction N with
  | zero => simp
  | succ N ih => rw [Finset.sum_range_succ, ih]; push_cast; ring

theorem sum_dev_abs (N : Nat) : ∑ k ∈ Finset.range N, |(k : ℝ) - ((N : ℝ) - 1) / 2| ≤ (N : ℝ) ^ 2 / 4 := by
  induction N using Nat.twoStepInduction with
  | zero => simp
  | one => simp
  | more N ih _ =>
    rw [Finset.sum_range_succ, Finset.sum_range_succ']
    have h1 : ∀ k : Nat, |((k + 1 : Nat) : ℝ) - (((N + 2 : Nat) : ℝ) - 1) / 2| = |(k : ℝ) - ((N : ℝ) - 1) / 2| := by
      intro k; congr 1; push_cast; ring
    simp only [h1]
    have h2 : |((0 : Nat) : ℝ) - (((N + 2 : Nat) : ℝ) - 1) / 2| = ((N : ℝ) + 1) / 2 := by
      rw [abs_of_nonpos]
      · push_cast; ring
      · have : (0 : ℝ) ≤ N := by positivity
        push_cast; linarith
    have h3 : |((N + 1 : Nat) : ℝ) - (((N + 2 : Nat) : ℝ) - 1) / 2| = ((N : ℝ) + 1) / 2 := by
      rw [abs_of_nonneg]
      · push_cast; ring
      · have : (0 : ℝ) ≤ N := by positivity
        push_cast; linarith
    rw [h1 N] at h3
    rw [h2, h3]
    push_cast
    nlinarith [ih]

/-- **C151**, gates a distance `s` apart and no filtered phase missing in the window of `N` gates (`N = 2⌊w/2⌋`, one more for the fortran kernel): an error of at
most `ε` in the filtered phases changes KDP by at most `3 N ε / (2 (N² - 1) s)`. -/
theorem C151_kdp_error_spacing (D : Dialect XR) (hD : D = cython ∨ D = fortran) (chk : Bool) (R : Ray XR) (dp' : Buf XR) (out out' : RayOut XR)
    (e : calcKdpRayFir D chk R = .ok out) (e' : calcKdpRayFir D chk { R with dp := dp' } = .ok out')
    (i : Nat) (hi : i < R.n) (w : Nat) (hw : Width R (R.dz.mem i) w) (h2 : 2 ≤ w)
    (β : ℝ) (hβ : R.bad = .fin β) (r0 s : ℝ) (hs : 0 < s) (φ φ' : Nat → ℝ)
    (hr : ∀ j < R.n, R.rng.mem j = .fin (r0 + s * j) ∧ D.skip R.bad (.fin (r0 + s * j)) = false)
    (hφ : ∀ j < R.n, out.dp[j]? = some (.fin (φ j)) ∧ (φ j ≠ β → D.skip R.bad (.fin (φ j)) = false))
    (hφ' : ∀ j < R.n, out'.dp[j]? = some (.fin (φ' j)) ∧ (φ' j ≠ β → D.skip R.bad (.fin (φ' j)) = false))
    (ε : ℝ) (hε : ∀ j < R.n, i - w / 2 ≤ j → j < i - w / 2 + winLen D w → φ j ≠ β ∧ φ' j ≠ β ∧ |φ j - φ' j| ≤ ε) :
    (out.kd[i]? = some R.bad ∧ out'.kd[i]? = some R.bad) ∨
    ∃ x x' : ℝ, out.kd[i]? = some (.fin x) ∧ out'.kd[i]? = some (.fin x') ∧
      |x - x'| ≤ 3 * (winLen D w : ℝ) * ε / (2 * ((winLen D w : ℝ) ^ 2 - 1) * s) := by
  rcases C151_kdp_error D hD chk R dp' out out' e e' i hi w hw h2 β hβ (fun j => r0 + s * j) φ φ' hr
    (fun j k hjk _ => by
      have : (j : ℝ) < k := by exact_mod_cast hjk
      have := mul_lt_mul_of_pos_left this hs
      linarith) hφ hφ'
    (fun j hj h1 h3 => by have := hε j hj h1 h3; tauto) ε (fun j hj h1 h3 _ => (hε j hj h1 h3).2.2) with h | ⟨x, x', hx, hx', hb⟩
  · exact .inl h
  by_cases hin : w / 2 ≤ i ∧ i + w / 2 < R.n
  swap
  · by_cases hbz : (R.dz.mem i ==. R.bad) = true
    · exact .inl ⟨kdp_bad_reflectivity' D chk R out e i hi hbz, kdp_bad_reflectivity' D chk _ out' e' i hi hbz⟩
    · have hw' : Width { R with dp := dp' } (R.dz.mem i) w := by
        cases hw with
        | high h => exact .high h
        | mid h h' => exact .mid (R := { R with dp := dp' }) h h'
        | low h => exact .low (R := { R with dp := dp' }) h
      exact .inl ⟨(C12_window_slope D hD chk R out e i hi (by simpa using hbz) w hw).1 (by omega),
        (C12_window_slope D hD chk _ out' e' i hi (by simpa using hbz) w hw').1 (by show _ ∨ R.n ≤ _; omega)⟩
  refine .inr ⟨x, x', hx, hx', ?_⟩
  have hN : 2 ≤ winLen D w := by unfold winLen; omega
  have hlen : i - w / 2 + winLen D w ≤ R.n ∧ ∀ k < winLen D w, i - w / 2 + k ≤ i + w / 2 := by
    unfold winLen
    rcases hD with rfl | rfl <;> simp [cython, fortran] <;> refine ⟨by omega, fun k hk => by omega⟩
  set N := winLen D w with hNdef
  set lo := i - w / 2 with hlo
  have hε0 : 0 ≤ ε := (abs_nonneg _).trans (hε (i - w / 2) (by omega) (by omega) (by omega)).2.2
  have hsum : ∀ f : Nat → ℝ, ∑ j ∈ Finset.Ico lo (lo + N), f j = ∑ k ∈ Finset.range N, f (lo + k) := fun f => by
    rw [Finset.sum_Ico_eq_sum_range]; simp
  have hb := hb (Finset.Ico lo (lo + N)) (r0 + s * (lo + ((N : ℝ) - 1) / 2)) (fun j => by
    rw [Finset.mem_Ico]
    constructor
    · rintro ⟨h1, h3⟩
      have := hlen.2 (j - lo) (by omega)
      exact ⟨h1, h3, (hε j (by omega) (by omega) (by omega)).1⟩
    · rintro ⟨h1, h3, -⟩; exact ⟨h1, h3⟩) (by
    rw [hsum, Nat.card_Ico]
    have : ∀ M : Nat, ∑ k ∈ Finset.range M, (r0 + s * ((lo + k : Nat) : ℝ)) = M * (r0 + s * (lo + ((M : ℝ) - 1) / 2)) := by
      intro M
      induction M with
      | zero => simp
      | succ M ih => rw [Finset.sum_range_succ, ih]; push_cast; ring
    rw [this]; simp)
  rw [hsum, hsum] at hb
  have hdev : ∀ k : Nat, r0 + s * ((lo + k : Nat) : ℝ) - (r0 + s * (lo + ((N : ℝ) - 1) / 2)) = s * ((k : ℝ) - ((N : ℝ) - 1) / 2) := by
    intro k; push_cast; ring
  have ea : ∑ k ∈ Finset.range N, |r0 + s * ((lo + k : Nat) : ℝ) - (r0 + s * (lo + ((N : ℝ) - 1) / 2))| =
      s * ∑ k ∈ Finset.range N, |(k : ℝ) - ((N : ℝ) - 1) / 2| := by
    rw [Finset.mul_sum]
    refine Finset.sum_congr rfl fun k _ => ?_
    rw [hdev, abs_mul, abs_of_pos hs]
  have eb : ∑ k ∈ Finset.range N, (r0 + s * ((lo + k : Nat) : ℝ) - (r0 + s * (lo + ((N : ℝ) - 1) / 2))) ^ 2 =
      s ^ 2 * (N * ((N : ℝ) ^ 2 - 1) / 12) := by
    have : ∑ k ∈ Finset.range N, ((k : ℝ) - ((N : ℝ) - 1) / 2) ^ 2 = N * ((N : ℝ) ^ 2 - 1) / 12 := by
      rw [sum_dev_sq]; ring
    rw [← this, Finset.mul_sum]
    refine Finset.sum_congr rfl fun k _ => ?_
    rw [hdev, mul_pow]
  rw [ea, eb] at hb
  have hN2 : (2 : ℝ) ≤ N := by exact_mod_cast hN
  have hN0 : (0 : ℝ) < N := by linarith
  have hN1 : (0 : ℝ) < (N : ℝ) ^ 2 - 1 := by nlinarith
  calc |x - x'| ≤ _ := hb
    _ ≤ ε / 2 * (s * ((N : ℝ) ^ 2 / 4)) / (s ^ 2 * (N * ((N : ℝ) ^ 2 - 1) / 12)) := by
      have := sum_dev_abs N
      gcongr
    _ = _ := by field_simp; ring

/-! ## The filter -/

/-- **C151**, the filter: if no phase is missing in either call and the coefficients (as read) are not negative and keep a constant, phases that differ by at most
`ε` in the filter window of gate `i` give after one pass filtered phases that differ by at most `ε`, where neither is missing (both kernels, any
quality control). -/
theorem C151_filter_error_partial (D : Dialect XR) (chk : Bool) (R : Ray XR) (hnf : R.nf = 1) (dp' : Buf XR) (out out' : RayOut XR)
    (e : calcKdpRayFir D chk R = .ok out) (e' : calcKdpRayFir D chk { R with dp := dp' } = .ok out')
    (β g : ℝ) (hβ : R.bad = .fin β) (hg : R.gain = .fin g) (hg0 : 0 ≤ g)
    (φ φ' : Nat → ℝ) (hφ : ∀ j < R.n, R.dp.mem j = .fin (φ j) ∧ φ j ≠ β) (hφ' : ∀ j < R.n, dp'.mem j = .fin (φ' j) ∧ φ' j ≠ β)
    (c : Nat → ℝ) (hc : ∀ k ≤ 2 * (R.order / 2), R.coef.mem (k + D.coefOff) = .fin (c k) ∧ 0 ≤ c k)
    (hsum : (∑ k ∈ Finset.range (2 * (R.order / 2) + 1), c k) * g = 1) (i : Nat) (hi : i < R.n)
    (ε : ℝ) (hε : ∀ j < R.n, i ≤ j + R.order / 2 → j ≤ i + R.order / 2 → |φ j - φ' j| ≤ ε) :
    ∃ x x' : ℝ, out.dp[i]? = some (.fin x) ∧ out'.dp[i]? = some (.fin x') ∧ (x = β ∨ x' = β ∨ |x - x'| ≤ ε) := by
  rcases filtered_nobad D chk R hnf out e β g hβ hg φ hφ c (fun k hk => (hc k hk).1) i hi with h | ⟨h0, h1, h⟩
  · rcases filtered_nobad D chk { R with dp := dp' } hnf out' e' β g hβ hg φ' hφ' c (fun k hk => (hc k hk).1) i hi with h' | ⟨-, -, h'⟩
    · exact ⟨_, _, h, h', .inl rfl⟩
    · exact ⟨_, _, h, h', .inl rfl⟩
  rcases filtered_nobad D chk { R with dp := dp' } hnf out' e' β g hβ hg φ' hφ' c (fun k hk => (hc k hk).1) i hi with h' | ⟨-, -, h'⟩
  · exact ⟨_, _, h, h', .inr (.inl rfl)⟩
  refine ⟨_, _, h, h', .inr (.inr ?_)⟩
  dsimp only
  unfold firAt
  rw [← sub_mul, ← Finset.sum_sub_distrib, abs_mul, abs_of_nonneg hg0]
  calc _ ≤ (∑ k ∈ Finset.range (2 * (R.order / 2) + 1), c k * ε) * g := by
        refine mul_le_mul_of_nonneg_right ((Finset.abs_sum_le_sum_abs _ _).trans (Finset.sum_le_sum fun k hk => ?_)) hg0
        have hk := Finset.mem_range.mp hk
        have hck := (hc k (by omega)).2
        rw [← mul_sub, abs_mul, abs_of_nonneg hck]
        exact mul_le_mul_of_nonneg_left (hε _ (by omega) (by omega) (by omega)) hck
    _ = ε := by rw [← Finset.sum_mul, show ∀ S : ℝ, S * ε * g = S * g * ε from fun S => by ring, hsum, one_mul]

/-- **C151**, from the phases put in: gates a distance `s` apart, no phase missing, one pass of a filter that is not negative and keeps a constant.  If the phases
of the two calls differ by at most `ε`, then at a gate where neither call's quality control drops a gate of the window, KDP is missing in both or
differs by at most `3 N ε / (2 (N² - 1) s)`. -/
theorem C151_phase_error_partial (D : Dialect XR) (hD : D = cython ∨ D = fortran) (chk : Bool) (R : Ray XR) (hnf : R.nf = 1) (dp' : Buf XR) (out out' : RayOut XR)
    (e : calcKdpRayFir D chk R = .ok out) (e' : calcKdpRayFir D chk { R with dp := dp' } = .ok out')
    (β g : ℝ) (hβ : R.bad = .fin β) (hg : R.gain = .fin g) (hg0 : 0 ≤ g)
    (φ φ' : Nat → ℝ) (hφ : ∀ j < R.n, R.dp.mem j = .fin (φ j) ∧ φ j ≠ β) (hφ' : ∀ j < R.n, dp'.mem j = .fin (φ' j) ∧ φ' j ≠ β)
    (c : Nat → ℝ) (hc : ∀ k ≤ 2 * (R.order / 2), R.coef.mem (k + D.coefOff) = .fin (c k) ∧ 0 ≤ c k)
    (hsum : (∑ k ∈ Finset.range (2 * (R.order / 2) + 1), c k) * g = 1)
    (i : Nat) (hi : i < R.n) (w : Nat) (hw : Width R (R.dz.mem i) w) (h2 : 2 ≤ w) (r0 s : ℝ) (hs : 0 < s)
    (hr : ∀ j < R.n, R.rng.mem j = .fin (r0 + s * j)) (hcy : D = cython → ∀ j < R.n, r0 + s * j ≠ β)
    (hfo : D = fortran → ∀ j < R.n, r0 + s * j ≤ 1e35 ∧ φ j ≤ 1e35 ∧ φ' j ≤ 1e35) (hfb : D = fortran → β ≤ 1e35)
    (hgood : ∀ j < R.n, i - w / 2 ≤ j → j < i - w / 2 + winLen D w → out.dp[j]? ≠ some R.bad ∧ out'.dp[j]? ≠ some R.bad)
    (ε : ℝ) (hε : ∀ j < R.n, |φ j - φ' j| ≤ ε) :
    (out.kd[i]? = some R.bad ∧ out'.kd[i]? = some R.bad) ∨
    ∃ x x' : ℝ, out.kd[i]? = some (.fin x) ∧ out'.kd[i]? = some (.fin x') ∧
      |x - x'| ≤ 3 * (winLen D w : ℝ) * ε / (2 * ((winLen D w : ℝ) ^ 2 - 1) * s) := by
  have hx : ∀ j, ∃ x x' : ℝ, j < R.n → (out.dp[j]? = some (.fin x) ∧ out'.dp[j]? = some (.fin x') ∧ (x = β ∨ x' = β ∨ |x - x'| ≤ ε)) := by
    intro j
    by_cases hj : j < R.n
    · obtain ⟨x, x', h⟩ := C151_filter_error_partial D chk R hnf dp' out out' e e' β g hβ hg hg0 φ φ' hφ hφ' c hc hsum j hj ε (fun k hk _ _ => hε k hk)
      exact ⟨x, x', fun _ => h⟩
    · exact ⟨0, 0, fun h => absurd h hj⟩
  choose ψ ψ' hψ using hx
  have hskip : ∀ x : ℝ, (D = cython → x ≠ β) → (D = fortran → x ≤ 1e35) → D.skip R.bad (.fin x) = false := by
    intro x h1 h3
    rcases hD with rfl | rfl
    · rw [hβ]; simpa [cython, XR.feq] using h1 rfl
    · have : (1e35 : XR) = .fin 1e35 := by rw [XR.fsci]
      show (XR.fin x >. (1e35 : XR)) = false
      rw [this]
      simpa [XR.fgt] using h3 rfl
  -- a filtered phase is at most the largest phase
  have hle : ∀ (S : Ray XR) (o : RayOut XR) (f : Nat → ℝ), S.nf = 1 → calcKdpRayFir D chk S = .ok o → S.bad = .fin β → S.gain = .fin g →
      (∀ j < S.n, S.dp.mem j = .fin (f j) ∧ f j ≠ β) → (∀ k ≤ 2 * (S.order / 2), S.coef.mem (k + D.coefOff) = .fin (c k) ∧ 0 ≤ c k) →
      (∑ k ∈ Finset.range (2 * (S.order / 2) + 1), c k) * g = 1 → (∀ j < S.n, f j ≤ 1e35) → β ≤ 1e35 →
      ∀ (j : Nat) (x : ℝ), j < S.n → o.dp[j]? = some (.fin x) → x ≤ 1e35 := by
    intro S o f snf so sb sg sf sc ss s35 sb35 j x hj hxj
    rcases filtered_nobad D chk S snf o so β g sb sg f sf c (fun k hk => (sc k hk).1) j hj with h | ⟨h0, h1, h⟩
    · rw [h] at hxj
      injection hxj with hxj; injection hxj with hxj
      rw [← hxj]; exact sb35
    · rw [h] at hxj
      injection hxj with hxj; injection hxj with hxj
      rw [← hxj]
      unfold firAt
      calc _ ≤ (∑ k ∈ Finset.range (2 * (S.order / 2) + 1), c k * 1e35) * g := by
            refine mul_le_mul_of_nonneg_right (Finset.sum_le_sum fun k hk => ?_) hg0
            have hk := Finset.mem_range.mp hk
            exact mul_le_mul_of_nonneg_left (s35 _ (by omega)) (sc k (by omega)).2
        _ = 1e35 := by rw [← Finset.sum_mul, show ∀ S : ℝ, S * 1e35 * g = S * g * 1e35 from fun S => by ring, ss, one_mul]
  refine C151_kdp_error_spacing D hD chk R dp' out out' e e' i hi w hw h2 β hβ r0 s hs ψ ψ' (fun j hj => ⟨hr j hj, hskip _ (fun h => hcy h j hj)
    (fun h => (hfo h j hj).1)⟩) (fun j hj => ⟨(hψ j hj).1, fun hne => hskip _ (fun _ => hne) fun h => ?_⟩)
    (fun j hj => ⟨(hψ j hj).2.1, fun hne => hskip _ (fun _ => hne) fun h => ?_⟩) ε (fun j hj h1 h3 => ?_)
  · exact hle R out φ hnf e hβ hg hφ hc hsum (fun k hk => (hfo h k hk).2.1) (hfb h) j _ hj (hψ j hj).1
  · exact hle { R with dp := dp' } out' φ' hnf e' hβ hg hφ' hc hsum (fun k hk => (hfo h k hk).2.2) (hfb h) j _ hj (hψ j hj).2.1
  · obtain ⟨ha, hb, hd⟩ := hψ j hj
    have := hgood j hj h1 h3
    rw [ha, hb, hβ] at this
    have g1 : ψ j ≠ β := fun h => this.1 (by rw [h])
    have g2 : ψ' j ≠ β := fun h => this.2 (by rw [h])
    exact ⟨g1, g2, by tauto⟩

/-! ## The full statement -/

/-- C151 in full, for the filtered phase: two rays that differ only in their phases, with the same gates missing and the other phases at most `ε` apart, a filter that is
not negative and keeps a constant: then the filtered phases that are not missing in either are at most `ε` apart. -/
def C151Full (D : Dialect QF) : Prop := ∀ (R : Ray QF) (dp' : Buf QF) (out out' : RayOut QF) (ε : QF),
  calcKdpRayFir D true R = .ok out → calcKdpRayFir D true { R with dp := dp' } = .ok out' →
  (0 <=. R.gain) = true → (∀ k : Nat, k < R.coef.len → (0 <=. R.coef.mem k) = true) →
  (((List.range (R.order + 1)).map (fun (k : Nat) => R.coef.mem (k + D.coefOff))).foldl (· + ·) 0 * R.gain ==. 1) = true →
  (∀ j : Nat, j < R.n → (R.dp.mem j ==. R.bad) = (dp'.mem j ==. R.bad) ∧
    ((R.dp.mem j ==. R.bad) = false → (PyFloat.abs (R.dp.mem j - dp'.mem j) <=. ε) = true)) →
  ∀ (j : Nat) (x x' : QF), out.dp[j]? = some x → out'.dp[j]? = some x' → (x ==. R.bad) = true ∨ (x' ==. R.bad) = true ∨ (PyFloat.abs (x - x') <=. ε) = true

/-- `stepRay` (phases between -100 and 0) and the same ray with phase -50 at every gate that is not missing -/
def flatDp : Buf QF := ⟨12, fun j => if j = 4 then .q (-999) else .q (-50)⟩

theorem step_error (D : Dialect QF) (hs : (((List.range (stepRay.order + 1)).map (fun (k : Nat) => stepRay.coef.mem (k + D.coefOff))).foldl (· + ·) 0 *
      stepRay.gain ==. 1) = true)
    (h1 : ((calcKdpRayFir D true stepRay).toOption.bind fun o => (calcKdpRayFir D true { stepRay with dp := flatDp }).toOption.map fun o' =>
      (List.range 12).any fun j => (o.dp[j]?.bind fun x => o'.dp[j]?.map fun x' =>
        !(x ==. stepRay.bad) && !(x' ==. stepRay.bad) && !(PyFloat.abs (x - x') <=. QF.q 50)).getD false) = some true) : ¬ C151Full D := by
  intro h
  have hh := h stepRay flatDp
  revert h1 hh
  cases calcKdpRayFir D true stepRay with
  | error e => intro h1; cases h1
  | ok o =>
    cases calcKdpRayFir D true { stepRay with dp := flatDp } with
    | error e => intro h1; cases h1
    | ok o' =>
      intro h1 hh
      have := hh o o' (.q 50) rfl rfl (by decide +kernel) (by intro k _; show ((0 : QF) <=. 1) = true; decide +kernel) hs (by
        intro j hj
        have : ((List.range 12).all fun j => ((stepRay.dp.mem (j : Nat) ==. stepRay.bad) == (flatDp.mem (j : Nat) ==. stepRay.bad)) &&
          ((stepRay.dp.mem (j : Nat) ==. stepRay.bad) || (PyFloat.abs (stepRay.dp.mem (j : Nat) - flatDp.mem (j : Nat)) <=. QF.q 50))) = true := by decide +kernel
        rw [List.all_eq_true] at this
        have := Bool.and_eq_true _ _ |>.mp (this j (List.mem_range.mpr hj))
        refine ⟨by simpa using this.1, fun a => ?_⟩
        have t := this.2
        rw [a, Bool.false_or] at t
        exact t)
      have h1' := Option.some.inj h1
      rw [List.any_eq_true] at h1'
      obtain ⟨j, -, hb⟩ := h1'
      have hj := this j
      revert hb hj
      cases o.dp[j]? with
      | none => intro hb; cases hb
      | some x =>
        cases o'.dp[j]? with
        | none => intro hb; cases hb
        | some x' =>
          intro hb hj
          have hb : (!(x ==. stepRay.bad) && !(x' ==. stepRay.bad) && !(PyFloat.abs (x - x') <=. QF.q 50)) = true := hb
          simp only [Bool.and_eq_true, Bool.not_eq_true'] at hb
          rcases hj x x' rfl rfl with h | h | h
          · rw [h] at hb; cases hb.1.1
          · rw [h] at hb; cases hb.1.2
          · rw [h] at hb; cases hb.2

/-- **C151** does not hold in full (compiled cython kernel): a gap is filled from a line through the phases on one side of it, which magnifies the error;
phases at most 50 apart give filtered phases 60 apart. -/
theorem C151_full_false : ¬ C151Full cython := step_error _ (by decide +kernel) (by decide +kernel)

/-- **C151** does not hold in full for the fortran kernel either. -/
theorem C151_fortran_full_false : ¬ C151Full fortran := step_error _ (by decide +kernel) (by decide +kernel)

/-! ## Non-vacuity -/

/-- phases 2, 6, 10 -/
noncomputable def steepDp : Buf XR := ⟨3, fun i => .fin (2 + 4 * i)⟩

theorem lin_kdp (dp : Buf XR) (a b : ℝ) (h0 : dp.mem 0 = .fin b) (h1 : dp.mem 1 = .fin (b + 2 * a)) (hb : b ≠ -32768) (hab : b + 2 * a ≠ -32768)
    (out : RayOut XR) (e : calcKdpRayFir cython false { linRay with nf := 0, dp := dp } = .ok out) : out.kd[1]? = some (.fin a) := by
  have hdp : ∀ j : Nat, j < 2 → out.dp.getD j .nan = dp.mem j := by
    intro j hj
    have := C11_no_passes cython false _ rfl out e j (by show j < 3; omega)
    rw [List.getD_eq_getElem?_getD, this]
    rfl
  have hw : Width { linRay with nf := 0, dp := dp } (XR.fin 40) 2 := by
    rw [show (2 : Nat) = 2 * (linRay.order / 2) from rfl]
    exact Width.mid (R := { linRay with nf := 0, dp := dp }) (by show (XR.fin 40 >=. XR.fin 35) = true; rw [XR.fge]; norm_num)
      (by show (XR.fin 40 <. XR.fin 45) = true; rw [XR.flt]; norm_num)
  have hgs : goodSamples { linRay with nf := 0, dp := dp } out (1 - 2 / 2) (winLen cython 2) = [((0 : ℝ), b), (1, b + 2 * a)].map lift := by
    have g0 := hdp 0 (by omega)
    have g1 := hdp 1 (by omega)
    have hw2 : winLen cython 2 = 2 := by decide
    have hrg : List.range 2 = [0, 1] := by decide
    unfold goodSamples
    rw [hw2, hrg]
    simp only [Nat.cast_zero, Nat.cast_one] at g0 g1
    rw [h0] at g0
    rw [h1] at g1
    simp only [List.filter, List.map, Nat.reduceDiv, Nat.reduceSub, Nat.zero_add, g0, g1]
    rw [List.getD_eq_getElem?_getD] at g0 g1
    simp [linRay, hb, hab, lift, g0, g1]
  refine C12_linear_phase cython (.inl rfl) false _ out e 1 (by show 1 < 3; decide) ?_ 2 hw (by decide) (by show 1 + 2 / 2 < 3; decide) _ hgs ?_ ?_ ?_ a b ?_
  · show (XR.fin 40 ==. XR.fin (-32768)) = false
    rw [XR.feq]; norm_num
  · norm_num
  · intro p hp
    simp at hp
    rcases hp with rfl | rfl <;> constructor <;> show (XR.fin _ ==. XR.fin (-32768)) = false <;> rw [XR.feq] <;>
      rw [decide_eq_false_iff_not] <;> first | assumption | norm_num
  · exact ⟨(0, b), by simp, (1, b + 2 * a), by simp, by norm_num⟩
  · intro p hp
    simp at hp
    rcases hp with rfl | rfl <;> ring

/-- The hypotheses of `C151_kdp_error_spacing` (and so of `C151_kdp_error`) are met, and the bound is attained: three gates 1 km apart, phases 3, 5, 7 and
2, 6, 10, window of two gates with `ε = 1`: KDP is 1 and 2. -/
theorem C151_bound_attained : ∃ out out' : RayOut XR, calcKdpRayFir cython false { linRay with nf := 0 } = .ok out ∧
    calcKdpRayFir cython false { linRay with nf := 0, dp := steepDp } = .ok out' ∧ winLen cython 2 = 2 ∧
    (∀ j : Nat, j < 2 → ∃ y y' : ℝ, out.dp[j]? = some (.fin y) ∧ out'.dp[j]? = some (.fin y') ∧ |y - y'| = 1) ∧
    ∃ x x' : ℝ, out.kd[1]? = some (.fin x) ∧ out'.kd[1]? = some (.fin x') ∧
      |x - x'| = 3 * ((2 : Nat) : ℝ) * 1 / (2 * (((2 : Nat) : ℝ) ^ 2 - 1) * 1) ∧ |x - x'| ≤ 3 * (winLen cython 2 : ℝ) * 1 / (2 * ((winLen cython 2 : ℝ) ^ 2 - 1) * 1) := by
  have hr : Ranges { linRay with nf := 0 } (fun j => (j : ℝ)) := ⟨linRay_ranges.val, linRay_ranges.inj⟩
  have hr' : Ranges { linRay with nf := 0, dp := steepDp } (fun j => (j : ℝ)) := ⟨linRay_ranges.val, linRay_ranges.inj⟩
  obtain ⟨out, e⟩ := C71_cython_returns { linRay with nf := 0 } _ hr (by decide) (by decide) (by decide)
  obtain ⟨out', e'⟩ := C71_cython_returns { linRay with nf := 0, dp := steepDp } _ hr' (by decide) (by decide) (by decide)
  have hk := lin_kdp linRay.dp 1 3 (by show XR.fin (3 + 2 * ((0 : Int) : ℝ)) = _; norm_num) (by show XR.fin (3 + 2 * ((1 : Int) : ℝ)) = _; norm_num)
    (by norm_num) (by norm_num) out e
  have hk' := lin_kdp steepDp 2 2 (by show XR.fin (2 + 4 * ((0 : Int) : ℝ)) = _; norm_num) (by show XR.fin (2 + 4 * ((1 : Int) : ℝ)) = _; norm_num)
    (by norm_num) (by norm_num) out' e'
  have hdp : ∀ j : Nat, j < 3 → out.dp[j]? = some (.fin (3 + 2 * (j : ℝ))) := by
    intro j hj
    rw [C11_no_passes cython false _ rfl out e j hj]
    show some (XR.fin (3 + 2 * ((j : Int) : ℝ))) = _
    push_cast; rfl
  have hdp' : ∀ j : Nat, j < 3 → out'.dp[j]? = some (.fin (2 + 4 * (j : ℝ))) := by
    intro j hj
    rw [C11_no_passes cython false _ rfl out' e' j hj]
    show some (XR.fin (2 + 4 * ((j : Int) : ℝ))) = _
    push_cast; rfl
  have hw2 : winLen cython 2 = 2 := by decide
  have hone : ∀ j : Nat, j < 2 → |(3 + 2 * (j : ℝ)) - (2 + 4 * (j : ℝ))| = 1 := by
    intro j hj
    have : j = 0 ∨ j = 1 := by omega
    rcases this with rfl | rfl <;> norm_num
  refine ⟨out, out', e, e', hw2, fun j hj => ⟨_, _, hdp j (by omega), hdp' j (by omega), hone j hj⟩, 1, 2, hk, hk', by norm_num, ?_⟩
  have hskip : ∀ x : ℝ, 0 ≤ x → (cython : Dialect XR).skip (.fin (-32768)) (.fin x) = false := by
    intro x hx
    show (XR.fin x ==. XR.fin (-32768)) = false
    rw [XR.feq]
    simp only [decide_eq_false_iff_not]
    intro h; linarith
  have hnn : ∀ j : Nat, (0 : ℝ) ≤ j := fun j => by positivity
  rcases C151_kdp_error_spacing cython (.inl rfl) false { linRay with nf := 0 } steepDp out out' e e' 1 (by decide) 2
    (Width.mid (R := { linRay with nf := 0 }) (by simp [linRay]; norm_num) (by simp [linRay]; norm_num)) (le_refl 2) (-32768) rfl 0 1 one_pos
    (fun j => 3 + 2 * (j : ℝ)) (fun j => 2 + 4 * (j : ℝ))
    (fun j _ => ⟨by show XR.fin ((j : Int) : ℝ) = _; push_cast; simp, hskip _ (by have := hnn j; linarith)⟩)
    (fun j hj => ⟨hdp j hj, fun _ => hskip _ (by have := hnn j; linarith)⟩) (fun j hj => ⟨hdp' j hj, fun _ => hskip _ (by have := hnn j; linarith)⟩) 1
    (fun j _ _ hj => by
      have hn := hnn j
      refine ⟨fun h => ?_, fun h => ?_, (hone j (by rw [hw2] at hj; omega)).le⟩ <;> linarith) with h | ⟨x, x', hx, hx', hb⟩
  · rw [hk] at h
    have := h.1
    injection this with this
    injection this with this
    norm_num at this
  · rw [hk] at hx
    rw [hk'] at hx'
    injection hx with hx; injection hx with hx
    injection hx' with hx'; injection hx' with hx'
    rwa [← hx, ← hx'] at hb

/-- The hypotheses of `C151_filter_error_partial` are met: phases 3, 5, 7 and 2, 6, 10, coefficients 1/4, 1/2, 1/4, `ε = 3`. -/
example : ∃ out out' : RayOut XR, calcKdpRayFir fortran false linRay = .ok out ∧ calcKdpRayFir fortran false { linRay with dp := steepDp } = .ok out' ∧
    ∃ x x' : ℝ, out.dp[1]? = some (.fin x) ∧ out'.dp[1]? = some (.fin x') ∧ (x = -32768 ∨ x' = -32768 ∨ |x - x'| ≤ 3) := by
  obtain ⟨out, e⟩ := C71_fortran_returns linRay
  obtain ⟨out', e'⟩ := C71_fortran_returns { linRay with dp := steepDp }
  refine ⟨out, out', e, e', C151_filter_error_partial fortran false linRay rfl steepDp out out' e e' (-32768) 1 rfl rfl (by norm_num)
    (fun j => 3 + 2 * (j : ℝ)) (fun j => 2 + 4 * (j : ℝ)) (fun j _ => lin_phase j)
    (fun j _ => ⟨by show XR.fin (2 + 4 * ((j : Int) : ℝ)) = _; push_cast; rfl, by
      have : (0 : ℝ) ≤ j := by positivity
      intro h; linarith⟩)
    (fun k => if k = 1 then 0.5 else 0.25) (fun k _ => lin_coef k)
    (by have : linRay.order = 2 := rfl
        rw [this]; norm_num [Finset.sum_range_succ]) 1 (by decide) 3 (fun j hj _ _ => ?_)⟩
  have hj : j < 3 := hj
  have : j = 0 ∨ j = 1 ∨ j = 2 := by omega
  rcases this with rfl | rfl | rfl <;> norm_num

/-- phases on a line from 3 with slope `a` -/
noncomputable def lineDp (a : ℝ) : Buf XR := ⟨9, fun i => .fin (a * i + 3)⟩

/-- nine gates 1 km apart, reflectivity 40, coefficients 1/4, 1/2, 1/4 -/
noncomputable def nineRay (a : ℝ) : Ray XR :=
  { n := 9, dp := lineDp a, dz := ⟨9, fun _ => .fin 40⟩, rng := ⟨9, fun i => .fin i⟩,
    thsd := ⟨9, fun _ => .fin 12⟩, nf := 1, bad := .fin (-32768), order := 2, gain := .fin 1,
    coef := ⟨3, fun i => if i = 1 then .fin 0.5 else .fin 0.25⟩, stdGate := 1, nadp0 := 0 }

theorem nine_dp (a : ℝ) (h0 : 0 ≤ a) (h9 : a ≤ 9) (out : RayOut XR) (e : calcKdpRayFir fortran false (nineRay a) = .ok out) (i : Nat) (hi : 1 ≤ i) (hi' : i < 8) :
    out.dp[i]? = some (.fin (a * i + 3)) := by
  have hj : ∀ j : Nat, (0 : ℝ) ≤ j := fun j => by positivity
  have hat : ∀ j : Int, (⟨a, 3⟩ : Line).at ⟨0, 1⟩ j = a * j + 3 := by intro j; simp [Line.at, Spacing.at]
  have ho : (nineRay a).order = 2 := rfl
  have hF : FirData fortran (nineRay a) ⟨0, 1⟩ (fun k => if k = 1 then 0.5 else 0.25) 1 0 := by
    refine ⟨by rw [ho], rfl, ⟨_, rfl⟩, one_ne_zero, fun j j0 j1 => ?_, fun k _ => ?_, ?_, ?_⟩
    · have h : (j : ℝ) ≤ 9 := by
        have j1 : j < ((9 : Nat) : Int) := j1
        exact_mod_cast (by omega : j ≤ 9)
      refine ⟨by show XR.fin (j : ℝ) = _; simp [Spacing.at], fortran_skip ?_ _⟩
      simp only [Spacing.at]; norm_num; linarith
    · exact (lin_coef k).1
    · show ∑ k ∈ Finset.range 3, _ = _
      norm_num [Finset.sum_range_succ]
    · rw [ho]
      norm_num [Finset.sum_range_succ]
  have hc : CleanRay (nineRay a) ⟨0, 1⟩ ⟨a, 3⟩ 0 := by
    refine ⟨rfl, fun j _ => ?_, fun j _ => ⟨12, rfl, by simp⟩⟩
    rw [hat]
    refine ⟨rfl, fun h => ?_⟩
    have h := XR.fin.inj h
    have := mul_nonneg h0 (hj j)
    push_cast at h
    linarith
  have hN : NoSkip fortran (nineRay a) ⟨0, 1⟩ ⟨a, 3⟩ := by
    intro j j0 j1 _
    rw [hat]
    have h : (j : ℝ) ≤ 9 := by
      have j1 : j < ((9 : Nat) : Int) := j1
      exact_mod_cast (by omega : j ≤ 9)
    have h' : (0 : ℝ) ≤ j := by exact_mod_cast j0
    refine fortran_skip ?_ _
    have := mul_le_mul h9 h h' (by norm_num : (0 : ℝ) ≤ 9)
    norm_num; linarith
  have hd := (clean_dp e hF hc hN (.inl rfl)).2 i (by rw [ho]; omega) (by rw [ho]; show _ < 9; omega)
  obtain ⟨yz, r⟩ := calc_run e
  have hl : i < out.dp.length := by rw [r.dpLen]; show i < 9; omega
  rw [List.getD_eq_getElem?_getD, List.getElem?_eq_getElem hl, Option.getD_some] at hd
  rw [List.getElem?_eq_getElem hl, hd]
  simp [Line.step, Line.at, Spacing.at]

/-- The hypotheses of `C151_phase_error_partial` are met: nine gates, phases `2 j + 3` and `3 j + 3`, at most 8 apart; window of three gates. -/
example : ∃ out out' : RayOut XR, calcKdpRayFir fortran false (nineRay 2) = .ok out ∧ calcKdpRayFir fortran false (nineRay 3) = .ok out' ∧
    ((out.kd[4]? = some (nineRay 2).bad ∧ out'.kd[4]? = some (nineRay 2).bad) ∨
    ∃ x x' : ℝ, out.kd[4]? = some (.fin x) ∧ out'.kd[4]? = some (.fin x') ∧ |x - x'| ≤ 3 * (winLen fortran 2 : ℝ) * 8 / (2 * ((winLen fortran 2 : ℝ) ^ 2 - 1) * 1)) := by
  obtain ⟨out, e⟩ := C71_fortran_returns (nineRay 2)
  obtain ⟨out', e'⟩ := C71_fortran_returns (nineRay 3)
  have hj : ∀ j : Nat, (0 : ℝ) ≤ j := fun j => by positivity
  have hj9 : ∀ j : Nat, j < 9 → (j : ℝ) ≤ 8 := fun j h => by exact_mod_cast (by omega : j ≤ 8)
  have hbig : (100 : ℝ) ≤ 1e35 := by norm_num
  refine ⟨out, out', e, e', C151_phase_error_partial fortran (.inr rfl) false (nineRay 2) rfl (lineDp 3) out out' e e' (-32768) 1 rfl rfl zero_le_one
    (fun j => 2 * (j : ℝ) + 3) (fun j => 3 * (j : ℝ) + 3)
    (fun j _ => ⟨by show XR.fin (2 * ((j : Int) : ℝ) + 3) = _; push_cast; rfl, by have := hj j; intro h; linarith⟩)
    (fun j _ => ⟨by show XR.fin (3 * ((j : Int) : ℝ) + 3) = _; push_cast; rfl, by have := hj j; intro h; linarith⟩)
    (fun k => if k = 1 then 0.5 else 0.25) (fun k _ => lin_coef k)
    (by show (∑ k ∈ Finset.range 3, _) * _ = _
        norm_num [Finset.sum_range_succ])
    4 (by show 4 < 9; decide) 2 (Width.mid (R := nineRay 2) (by show (XR.fin 40 >=. XR.fin 35) = true; rw [XR.fge]; norm_num)
      (by show (XR.fin 40 <. XR.fin 45) = true; rw [XR.flt]; norm_num)) (le_refl 2) 0 1 one_pos
    (fun j _ => by show XR.fin ((j : Int) : ℝ) = _; push_cast; simp) (fun h => absurd (congrArg Dialect.coefOff h) (by decide))
    (fun _ j hj' => by have := hj9 j hj'; exact ⟨by linarith, by linarith, by linarith⟩) (fun _ => by linarith) (fun j hj' h1 h2 => ?_) 8
    (fun j hj' => by
      have := hj9 j hj'
      have h0 := hj j
      rw [abs_le]; constructor <;> linarith)⟩
  have h2 : j < 4 - 2 / 2 + 3 := h2
  have h1 : 4 - 2 / 2 ≤ j := h1
  rw [nine_dp 2 (by norm_num) (by norm_num) out e j (by omega) (by omega), nine_dp 3 (by norm_num) (by norm_num) out' e' j (by omega) (by omega)]
  have := hj j
  constructor <;> intro h <;> have h := XR.fin.inj (Option.some.inj h) <;> linarith

end Csu.Kdp
