import Verif.Props.KdpGate
import Verif.Props.KdpFir
import Verif.Props.KdpLocal
/-!
# C128, C129: the sign of KDP and overshoot of the filter
-/
namespace Csu.Kdp
open Csu PyFloat KdpSpec

/-! ## The slope of a least-squares line lies between the slopes of the pairs of points -/

theorem dsum_left (g : List (ℝ × ℝ)) (p : ℝ × ℝ) : (g.map (fun q => (p.1 - q.1) * (p.2 - q.2))).sum =
    g.length * (p.1 * p.2) - p.1 * (g.map (·.2)).sum - p.2 * (g.map (·.1)).sum + (g.map (fun q => q.1 * q.2)).sum := by
  induction g with
  | nil => simp
  | cons q g ih => simp only [List.map_cons, List.sum_cons, ih, List.length_cons]; push_cast; ring

theorem lin_sum (g : List (ℝ × ℝ)) (n a b c : ℝ) : (g.map (fun p => n * (p.1 * p.2) - p.1 * a - p.2 * b + c)).sum =
    n * (g.map (fun p => p.1 * p.2)).sum - (g.map (·.1)).sum * a - (g.map (·.2)).sum * b + g.length * c := by
  induction g with
  | nil => simp
  | cons p g ih => simp only [List.map_cons, List.sum_cons, ih, List.length_cons]; push_cast; ring

theorem dsum (g : List (ℝ × ℝ)) : (g.map (fun p => (g.map (fun q => (p.1 - q.1) * (p.2 - q.2))).sum)).sum =
    2 * (g.length * (g.map (fun p => p.1 * p.2)).sum - (g.map (·.1)).sum * (g.map (·.2)).sum) := by
  simp only [dsum_left]
  rw [lin_sum]; ring

theorem dsum_det (g : List (ℝ × ℝ)) : (g.map (fun p => (g.map (fun q => (p.1 - q.1) * (p.1 - q.1))).sum)).sum = 2 * detR g := by
  have := dsum (g.map (fun p => (p.1, p.1)))
  simp only [List.map_map, Function.comp_def, List.length_map] at this
  rw [this]; unfold detR; ring

theorem sum_le_map {β : Type} (l : List β) (f g : β → ℝ) (h : ∀ x ∈ l, f x ≤ g x) : (l.map f).sum ≤ (l.map g).sum := by
  induction l with
  | nil => simp
  | cons x l ih =>
    simp only [List.map_cons, List.sum_cons]
    have := h x (by simp)
    have := ih fun y hy => h y (by simp [hy])
    linarith

theorem mul_sum_map {β : Type} (l : List β) (f : β → ℝ) (m : ℝ) : (l.map (fun x => m * f x)).sum = m * (l.map f).sum := by
  induction l with
  | nil => simp
  | cons x l ih => simp only [List.map_cons, List.sum_cons, ih]; ring

theorem det_pos {g : List (ℝ × ℝ)} (h : TwoAbscissae g) : 0 < detR g := by
  have h0 := (detR_ne_zero_iff g).mpr h
  have h1 : 0 ≤ 2 * detR g := by
    rw [← dsum_det]
    refine List.sum_nonneg fun x hx => ?_
    obtain ⟨p, -, rfl⟩ := List.mem_map.mp hx
    refine List.sum_nonneg fun y hy => ?_
    obtain ⟨q, -, rfl⟩ := List.mem_map.mp hy
    exact mul_self_nonneg _
  rcases lt_or_eq_of_le h1 with h1 | h1
  · linarith
  · exact absurd (by linarith) h0

theorem slope_ge {g : List (ℝ × ℝ)} (h : TwoAbscissae g) {m : ℝ} (hm : ∀ p ∈ g, ∀ q ∈ g, p.1 < q.1 → m * (q.1 - p.1) ≤ q.2 - p.2) : m ≤ slopeR g := by
  unfold slopeR
  rw [le_div_iff₀ (det_pos h)]
  have := dsum g
  have hd := dsum_det g
  have hle : (g.map (fun p => (g.map (fun q => m * ((p.1 - q.1) * (p.1 - q.1)))).sum)).sum ≤
      (g.map (fun p => (g.map (fun q => (p.1 - q.1) * (p.2 - q.2))).sum)).sum := by
    refine sum_le_map _ _ _ fun p hp => sum_le_map _ _ _ fun q hq => ?_
    rcases lt_trichotomy p.1 q.1 with hlt | heq | hgt
    · have := hm p hp q hq hlt; nlinarith
    · simp [heq]
    · have := hm q hq p hp hgt; nlinarith
  simp only [mul_sum_map] at hle
  rw [this, hd] at hle
  linarith

theorem slope_le {g : List (ℝ × ℝ)} (h : TwoAbscissae g) {M : ℝ} (hM : ∀ p ∈ g, ∀ q ∈ g, p.1 < q.1 → q.2 - p.2 ≤ M * (q.1 - p.1)) : slopeR g ≤ M := by
  unfold slopeR
  rw [div_le_iff₀ (det_pos h)]
  have := dsum g
  have hd := dsum_det g
  have hle : (g.map (fun p => (g.map (fun q => (p.1 - q.1) * (p.2 - q.2))).sum)).sum ≤
      (g.map (fun p => (g.map (fun q => M * ((p.1 - q.1) * (p.1 - q.1)))).sum)).sum := by
    refine sum_le_map _ _ _ fun p hp => sum_le_map _ _ _ fun q hq => ?_
    rcases lt_trichotomy p.1 q.1 with hlt | heq | hgt
    · have := hM p hp q hq hlt; nlinarith
    · simp [heq]
    · have := hM q hq p hp hgt; nlinarith
  simp only [mul_sum_map] at hle
  rw [this, hd] at hle
  linarith

/-! ## KDP between half the slopes of the filtered phase -/

/-- the good samples of a window of real data -/
theorem goodSamples_real {R : Ray XR} {out : RayOut XR} {lo len : Nat} {r φ : Nat → ℝ} {β : ℝ} (hβ : R.bad = .fin β)
    (hr : ∀ j, lo ≤ j → j < lo + len → R.rng.mem j = .fin (r j))
    (hφ : ∀ j, lo ≤ j → j < lo + len → out.dp[j]? = some (.fin (φ j))) :
    goodSamples R out lo len = (((List.range len).filter (fun k => φ (lo + k) ≠ β)).map (fun k => (r (lo + k), φ (lo + k)))).map lift := by
  unfold goodSamples
  have h1 : ∀ k < len, out.dp.getD (lo + k) .nan = .fin (φ (lo + k)) := by
    intro k hk
    rw [List.getD_eq_getElem?_getD, hφ _ (by omega) (by omega)]; rfl
  have h2 : (List.range len).filter (fun k => (out.dp.getD (lo + k) .nan) !=. R.bad) = (List.range len).filter (fun k => φ (lo + k) ≠ β) := by
    refine List.filter_congr fun k hk => ?_
    rw [h1 k (List.mem_range.mp hk), hβ]
    simp [PyFloat.ne, XR.feq]
  rw [h2, List.map_map]
  refine List.map_congr_left fun k hk => ?_
  have hk := List.mem_range.mp (List.mem_of_mem_filter hk)
  simp only [Function.comp, lift, h1 k hk, hr _ (by omega : lo ≤ lo + k) (by omega)]

/-- **C128**, for both kernels, any filtering and gaps: where the filtered phase is real, KDP lies between half the smallest and half the largest slope
between two good gates of the window (`w ≥ 2`): at least `m / 2` if no pair of them rises by less than `m` per unit of range, at most `M / 2` if no pair
rises by more than `M`.  In particular KDP is not negative where the filtered phase does not decrease, and not positive where it does not increase. -/
theorem C128_between_slopes_partial (D : Dialect XR) (hD : D = cython ∨ D = fortran) (chk : Bool) (R : Ray XR) (out : RayOut XR)
    (e : calcKdpRayFir D chk R = .ok out) (i : Nat) (hi : i < R.n) (w : Nat) (hw : Width R (R.dz.mem i) w) (h2 : 2 ≤ w)
    (β : ℝ) (hβ : R.bad = .fin β) (r φ : Nat → ℝ)
    (hr : ∀ j < R.n, R.rng.mem j = .fin (r j) ∧ D.skip R.bad (.fin (r j)) = false) (hinc : ∀ j k, j < k → k < R.n → r j < r k)
    (hφ : ∀ j < R.n, out.dp[j]? = some (.fin (φ j)) ∧ (φ j ≠ β → D.skip R.bad (.fin (φ j)) = false)) :
    out.kd[i]? = some R.bad ∨ ∃ x : ℝ, out.kd[i]? = some (.fin x) ∧
      (∀ m : ℝ, (∀ j k, i ≤ j + w / 2 → j < k → k ≤ i + w / 2 → k < R.n → φ j ≠ β → φ k ≠ β → m * (r k - r j) ≤ φ k - φ j) → m / 2 ≤ x) ∧
      (∀ M : ℝ, (∀ j k, i ≤ j + w / 2 → j < k → k ≤ i + w / 2 → k < R.n → φ j ≠ β → φ k ≠ β → φ k - φ j ≤ M * (r k - r j)) → x ≤ M / 2) := by
  by_cases hb : (R.dz.mem i ==. R.bad) = true
  · exact .inl (kdp_bad_reflectivity' D chk R out e i hi hb)
  have hC := C12_window_slope D hD chk R out e i hi (by simpa using hb) w hw
  by_cases hin : w / 2 ≤ i ∧ i + w / 2 < R.n
  swap
  · exact .inl (hC.1 (by omega))
  have hC := hC.2 hin.1 hin.2
  have hlen : i - w / 2 + winLen D w ≤ R.n := by
    unfold winLen
    rcases hD with rfl | rfl <;> simp [cython, fortran] <;> omega
  have hlen' : ∀ k < winLen D w, i - w / 2 + k ≤ i + w / 2 := by
    unfold winLen
    rcases hD with rfl | rfl <;> simp [cython, fortran] <;> intros <;> omega
  have hg := goodSamples_real (R := R) (out := out) (lo := i - w / 2) (len := winLen D w) (r := r) (φ := φ) hβ
    (fun j _ hj => (hr j (by omega)).1) (fun j _ hj => (hφ j (by omega)).1)
  set l := (List.range (winLen D w)).filter (fun k => φ (i - w / 2 + k) ≠ β) with hl
  set pts := l.map (fun k => (r (i - w / 2 + k), φ (i - w / 2 + k))) with hpts
  have hlm : ∀ k ∈ l, k < winLen D w ∧ φ (i - w / 2 + k) ≠ β := by
    intro k hk
    rw [hl] at hk
    have := List.mem_filter.mp hk
    exact ⟨List.mem_range.mp this.1, by simpa using this.2⟩
  by_cases hmany : (0.8 : ℝ) * w < pts.length
  swap
  · refine .inl (hC.1 ?_)
    rw [hg, List.length_map]
    exact not_lt.mp hmany
  have htwo : TwoAbscissae pts := by
    have hle : 2 ≤ l.length := by
      have h1 : (1.6 : ℝ) < pts.length := by
        have : (2 : ℝ) ≤ w := by exact_mod_cast h2
        linarith
      have h3 : pts.length = l.length := by simp [hpts]
      by_contra hc
      have : (l.length : ℝ) ≤ 1 := by exact_mod_cast (by omega : l.length ≤ 1)
      rw [h3] at h1
      linarith
    have hsort : l.Pairwise (· < ·) := List.Pairwise.filter _ List.pairwise_lt_range
    match hll : l, hle, hsort with
    | a :: b :: t, _, hs =>
      have hab : a < b := (List.pairwise_cons.mp hs).1 b (by simp)
      have hbm := hlm b (by simp)
      refine ⟨_, List.mem_map.mpr ⟨a, by rw [hll]; simp, rfl⟩, _, List.mem_map.mpr ⟨b, by rw [hll]; simp, rfl⟩, ?_⟩
      have := hinc (i - w / 2 + a) (i - w / 2 + b) (by omega) (by omega)
      exact ne_of_lt this
  obtain ⟨a, b, hls, hkd⟩ := hC.2 pts hg hmany (by
    intro p hp
    obtain ⟨k, hk, rfl⟩ := List.mem_map.mp hp
    have := hlm k hk
    exact ⟨(hr _ (by omega)).2, (hφ _ (by omega)).2 this.2⟩) htwo
  have ha : a = slopeR pts := by
    have h1 := least_squares pts htwo
    have h3 := hls (slopeR pts) (interR pts)
    have h4 := h1 a b
    exact ((h4.2 (le_antisymm h3.1 h4.1)).1)
  -- pairs of samples in the order of their ranges
  have hpair : ∀ p ∈ pts, ∀ q ∈ pts, p.1 < q.1 → ∃ j k, i ≤ j + w / 2 ∧ j < k ∧ k ≤ i + w / 2 ∧ k < R.n ∧ φ j ≠ β ∧ φ k ≠ β ∧ p = (r j, φ j) ∧ q = (r k, φ k) := by
    intro p hp q hq hlt
    obtain ⟨j, hj, rfl⟩ := List.mem_map.mp hp
    obtain ⟨k, hk, rfl⟩ := List.mem_map.mp hq
    have h1 := hlm j hj
    have h3 := hlm k hk
    refine ⟨i - w / 2 + j, i - w / 2 + k, by omega, ?_, hlen' k h3.1, by omega, h1.2, h3.2, rfl, rfl⟩
    by_contra hc
    rcases Nat.lt_or_ge k j with h | h
    · have := hinc (i - w / 2 + k) (i - w / 2 + j) (by omega) (by omega)
      dsimp only at hlt
      linarith
    · have : j = k := by omega
      subst this
      exact lt_irrefl _ hlt
  refine .inr ⟨_, hkd, fun m hm => ?_, fun M hM => ?_⟩
  · have := slope_ge htwo (m := m) (by
      intro p hp q hq hlt
      obtain ⟨j, k, h1, h3, h4, h7, h5, h6, rfl, rfl⟩ := hpair p hp q hq hlt
      exact hm j k h1 h3 h4 h7 h5 h6)
    rw [ha]; linarith
  · have := slope_le htwo (M := M) (by
      intro p hp q hq hlt
      obtain ⟨j, k, h1, h3, h4, h7, h5, h6, rfl, rfl⟩ := hpair p hp q hq hlt
      exact hM j k h1 h3 h4 h7 h5 h6)
    rw [ha]; linarith

/-! ## One pass over a ray without missing phases -/

/-- One pass over phases none of which is bad: every gate keeps its previous value of `y` or gets the filter sum of its window. -/
theorem firPass_nobad {α : Type} [PyFloat α] {D : Dialect α} {chk : Bool} {R : Ray α} {sd : Buf α} {yz r : Buf α × Buf α}
    (e : firPass D chk R sd yz = .ok r) (hz : ∀ j : Int, 0 ≤ j → j < R.n → (yz.2.mem j !=. R.bad) = true) (i : Int) :
    r.2.mem i = yz.1.mem i ∨ (R.half ≤ i ∧ i + R.half < R.n ∧ r.2.mem i = f32 ((rangeI (i - R.half) (i + R.half + 1)).foldl
      (fun A j => D.w (A + D.w (R.coef.mem (j - (i - R.half) + D.coefOff) * yz.2.mem j))) 0.0 * R.gain)) := by
  unfold firPass at e
  obtain ⟨w, h, e⟩ := bind_ok e
  cases e
  refine (foldlM_inv (I := fun s : Buf α × Buf α => (∀ j : Int, 0 ≤ j → j < R.n → s.2.mem j = yz.2.mem j) ∧
    (s.1.mem i = yz.1.mem i ∨ (R.half ≤ i ∧ i + R.half < R.n ∧ s.1.mem i = f32 ((rangeI (i - R.half) (i + R.half + 1)).foldl
      (fun A j => D.w (A + D.w (R.coef.mem (j - (i - R.half) + D.coefOff) * yz.2.mem j))) 0.0 * R.gain)))) ⟨fun _ _ _ => rfl, .inl rfl⟩ ?_ h).2
  intro s k t hk hs ht
  have hk := mem_rangeI.mp hk
  refine ⟨fun j j0 j1 => ?_, ?_⟩
  · rw [firGate_z ht (by rw [hs.1 j j0 j1]; exact hz j j0 j1), hs.1 j j0 j1]
  · by_cases hki : i = k
    swap
    · rw [firGate_y ht (.inl hki)]; exact hs.2
    · subst hki
      rcases firGate_cases ht with rfl | ⟨pts, z, A, -, -, -, -, hfz, hA, rfl⟩
      · exact hs.2
      · refine .inr ⟨by omega, by omega, ?_⟩
        have hzz : ∀ j : Int, 0 ≤ j → j < R.n → z.mem j = yz.2.mem j := by
          intro j j0 j1
          rcases hfz with ⟨-, ab, -, hf⟩ | ⟨-, rfl⟩
          · rw [fill_keeps hf (by rw [hs.1 j j0 j1]; exact hz j j0 j1), hs.1 j j0 j1]
          · exact hs.1 j j0 j1
        dsimp only
        rw [if_pos rfl, firSum_val hA]
        congr 2
        have key : ∀ (js : List Int) (a : α), (∀ j ∈ js, 0 ≤ j ∧ j < R.n) →
            js.foldl (fun A j => D.w (A + D.w (R.coef.mem (j - (i - R.half) + D.coefOff) * z.mem j))) a =
              js.foldl (fun A j => D.w (A + D.w (R.coef.mem (j - (i - R.half) + D.coefOff) * yz.2.mem j))) a := by
          intro js
          induction js with
          | nil => intro a _; rfl
          | cons j js ih =>
            intro a ha
            have := ha j (by simp)
            rw [List.foldl_cons, List.foldl_cons, hzz j this.1 this.2, ih _ fun k hk => ha k (by simp [hk])]
        exact key _ _ fun j hj => by have := mem_rangeI.mp hj; omega

/-- the filter sum at gate `i` with coefficients `c` (as read), gain `g` and phases `φ` -/
noncomputable def firAt (h : Nat) (c φ : Nat → ℝ) (g : ℝ) (i : Nat) : ℝ := (∑ k ∈ Finset.range (2 * h + 1), c k * φ (i - h + k)) * g

/-- What one pass returns on a ray without missing phases: at each gate the bad value or the filter sum (whatever the quality control says). -/
theorem filtered_nobad (D : Dialect XR) (chk : Bool) (R : Ray XR) (hnf : R.nf = 1) (out : RayOut XR) (e : calcKdpRayFir D chk R = .ok out)
    (β g : ℝ) (hβ : R.bad = .fin β) (hg : R.gain = .fin g) (φ : Nat → ℝ) (hφ : ∀ j < R.n, R.dp.mem j = .fin (φ j) ∧ φ j ≠ β)
    (c : Nat → ℝ) (hc : ∀ k ≤ 2 * (R.order / 2), R.coef.mem (k + D.coefOff) = .fin (c k)) (i : Nat) (hi : i < R.n) :
    out.dp[i]? = some (.fin β) ∨ (R.order / 2 ≤ i ∧ i + R.order / 2 < R.n ∧ out.dp[i]? = some (.fin (firAt (R.order / 2) c φ g i))) := by
  obtain ⟨yz, r⟩ := calc_run e
  have hlt : i < out.dp.length := by rw [r.dpLen]; omega
  rw [List.getElem?_eq_getElem hlt, r.dp i hlt]
  have hp := r.passes
  rw [hnf] at hp
  unfold firPasses at hp
  obtain ⟨v, hv, hp⟩ := bind_ok hp
  cases hp
  have hh : (R.half : Int) = ((R.order / 2 : Nat) : Int) := rfl
  have hz : ∀ j : Nat, j < R.n → (ofList R.n ((gates R.n).map R.dp.mem)).mem j = .fin (φ j) := fun j hj => by
    rw [ofList_map_gates _ _ (by omega) (by omega), (hφ j hj).1]
  rcases firPass_nobad hv (fun j j0 j1 => by
      obtain ⟨q, rfl⟩ : ∃ q : Nat, j = q := ⟨j.toNat, by omega⟩
      dsimp only
      rw [hz q (by omega), hβ]
      simp [PyFloat.ne, XR.feq, (hφ q (by omega)).2]) (i : Int) with h | ⟨h0, h1, h⟩
  · left
    rw [h, ofList_get _ _ _ (by simpa using hi)]
    simp [hβ]
  · right
    rw [hh] at h0 h1
    refine ⟨by omega, by omega, ?_⟩
    simp only [wx, XR.ff32] at h
    rw [h, hh, hg]
    unfold firAt rangeI
    rw [show (((i : Int) + (R.order / 2 : Nat) + 1) - ((i : Int) - (R.order / 2 : Nat))).toNat = 2 * (R.order / 2) + 1 by omega, List.foldl_map]
    have key : ∀ (l : List Nat) (s : XR), (∀ k ∈ l, k < 2 * (R.order / 2) + 1) → l.foldl (fun A (k : Nat) =>
        A + R.coef.mem ((i : Int) - (R.order / 2 : Nat) + Int.ofNat k - ((i : Int) - (R.order / 2 : Nat)) + D.coefOff) *
          (ofList R.n ((gates R.n).map R.dp.mem)).mem ((i : Int) - (R.order / 2 : Nat) + Int.ofNat k)) s =
        l.foldl (fun (A : XR) (k : Nat) => A + .fin (c k) * .fin (φ (i - R.order / 2 + k))) s := by
      intro l
      induction l with
      | nil => intro s _; rfl
      | cons k l ih =>
        intro s hs
        have hk := hs k (by simp)
        rw [List.foldl_cons, List.foldl_cons, ih _ fun j hj => hs j (by simp [hj])]
        rw [show (i : Int) - (R.order / 2 : Nat) + Int.ofNat k - ((i : Int) - (R.order / 2 : Nat)) + D.coefOff = k + D.coefOff by
            simp only [Int.ofNat_eq_natCast]; omega, hc k (by omega),
          show (i : Int) - (R.order / 2 : Nat) + Int.ofNat k = ((i - R.order / 2 + k : Nat) : Int) by simp only [Int.ofNat_eq_natCast]; omega,
          hz _ (by omega)]
    rw [key _ _ fun k hk => List.mem_range.mp hk, fir_fin, XR.fmul]

/-- filter sums with nonnegative coefficients keep the order of the phases -/
theorem firAt_mono {h n : Nat} {c φ : Nat → ℝ} {g : ℝ} (hc : ∀ k ≤ 2 * h, 0 ≤ c k) (hg : 0 ≤ g) (hφ : ∀ j k, j ≤ k → k < n → φ j ≤ φ k)
    {i j : Nat} (hi : h ≤ i) (hij : i ≤ j) (hj : j + h < n) : firAt h c φ g i ≤ firAt h c φ g j := by
  unfold firAt
  refine mul_le_mul_of_nonneg_right (Finset.sum_le_sum fun k hk => ?_) hg
  have hk := Finset.mem_range.mp hk
  exact mul_le_mul_of_nonneg_left (hφ _ _ (by omega) (by omega)) (hc k (by omega))

/-- **C128**, what holds for the phases put in: if no phase is missing, the phases never decrease with range and the filter coefficients (as read) and the
gain are not negative, then after one pass no KDP is negative (both kernels, any reflectivity, any quality control thresholds; `w ≥ 2`). -/
theorem C128_nondecreasing_partial (D : Dialect XR) (hD : D = cython ∨ D = fortran) (chk : Bool) (R : Ray XR) (hnf : R.nf = 1) (out : RayOut XR)
    (e : calcKdpRayFir D chk R = .ok out) (β g : ℝ) (hβ : R.bad = .fin β) (hg : R.gain = .fin g) (hg0 : 0 ≤ g)
    (φ : Nat → ℝ) (hφ : ∀ j < R.n, R.dp.mem j = .fin (φ j) ∧ φ j ≠ β) (hmono : ∀ j k, j ≤ k → k < R.n → φ j ≤ φ k)
    (c : Nat → ℝ) (hc : ∀ k ≤ 2 * (R.order / 2), R.coef.mem (k + D.coefOff) = .fin (c k) ∧ 0 ≤ c k)
    (r : Nat → ℝ) (hr : ∀ j < R.n, R.rng.mem j = .fin (r j)) (hinc : ∀ j k, j < k → k < R.n → r j < r k)
    (hcy : D = cython → ∀ j < R.n, r j ≠ β)
    (hfo : D = fortran → ∀ j < R.n, r j ≤ 1e35 ∧ firAt (R.order / 2) c φ g j ≤ 1e35)
    (i : Nat) (hi : i < R.n) (w : Nat) (hw : Width R (R.dz.mem i) w) (h2 : 2 ≤ w) :
    out.kd[i]? = some R.bad ∨ ∃ x : ℝ, 0 ≤ x ∧ out.kd[i]? = some (.fin x) := by
  have hf := filtered_nobad D chk R hnf out e β g hβ hg φ hφ c (fun k hk => (hc k hk).1)
  have hex : ∀ j, ∃ x : ℝ, j < R.n → (out.dp[j]? = some (.fin x) ∧ (x ≠ β → R.order / 2 ≤ j ∧ j + R.order / 2 < R.n ∧ x = firAt (R.order / 2) c φ g j)) := by
    intro j
    by_cases hj : j < R.n
    · rcases hf j hj with h | ⟨h0, h1, h⟩
      · exact ⟨β, fun _ => ⟨h, fun h => absurd rfl h⟩⟩
      · exact ⟨_, fun _ => ⟨h, fun _ => ⟨h0, h1, rfl⟩⟩⟩
    · exact ⟨0, fun h => absurd h hj⟩
  choose ψ hψ using hex
  have hskip : ∀ x : ℝ, (D = cython → x ≠ β) → (D = fortran → x ≤ 1e35) → D.skip R.bad (.fin x) = false := by
    intro x h1 h3
    rcases hD with rfl | rfl
    · rw [hβ]; simpa [cython, XR.feq] using h1 rfl
    · have : (1e35 : XR) = .fin 1e35 := by rw [XR.fsci]
      show (XR.fin x >. (1e35 : XR)) = false
      rw [this]
      simpa [XR.fgt] using h3 rfl
  rcases C128_between_slopes_partial D hD chk R out e i hi w hw h2 β hβ r ψ
    (fun j hj => ⟨hr j hj, hskip _ (fun h => hcy h j hj) (fun h => (hfo h j hj).1)⟩) hinc (fun j hj => ⟨(hψ j hj).1, fun hne =>
      hskip _ (fun _ => hne) (fun h => by rw [((hψ j hj).2 hne).2.2]; exact (hfo h j hj).2)⟩) with h | ⟨x, hx, hlo, -⟩
  · exact .inl h
  · refine .inr ⟨x, ?_, hx⟩
    have := hlo 0 (fun j k h1 h3 h4 h7 h5 h6 => by
      have hj := (hψ j (by omega)).2 h5
      have hk := (hψ k (by omega)).2 h6
      have := firAt_mono (fun k hk => (hc k hk).2) hg0 hmono hj.1 (by omega : j ≤ k) hk.2.1
      rw [hj.2.2, hk.2.2]; linarith)
    linarith

/-- **C129**, what holds: if no phase is missing and the coefficients (as read) are not negative and keep a constant (their sum times the gain is 1), one pass
leaves every filtered phase between the smallest and the largest phase of its filter window (both kernels, any quality control). -/
theorem C129_no_overshoot_partial (D : Dialect XR) (chk : Bool) (R : Ray XR) (hnf : R.nf = 1) (out : RayOut XR)
    (e : calcKdpRayFir D chk R = .ok out) (β g : ℝ) (hβ : R.bad = .fin β) (hg : R.gain = .fin g) (hg0 : 0 ≤ g)
    (φ : Nat → ℝ) (hφ : ∀ j < R.n, R.dp.mem j = .fin (φ j) ∧ φ j ≠ β)
    (c : Nat → ℝ) (hc : ∀ k ≤ 2 * (R.order / 2), R.coef.mem (k + D.coefOff) = .fin (c k) ∧ 0 ≤ c k)
    (hsum : (∑ k ∈ Finset.range (2 * (R.order / 2) + 1), c k) * g = 1) (i : Nat) (hi : i < R.n) :
    out.dp[i]? = some R.bad ∨ ∃ x : ℝ, out.dp[i]? = some (.fin x) ∧
      ∀ lo hi : ℝ, (∀ j, i ≤ j + R.order / 2 → j ≤ i + R.order / 2 → lo ≤ φ j ∧ φ j ≤ hi) → lo ≤ x ∧ x ≤ hi := by
  rcases filtered_nobad D chk R hnf out e β g hβ hg φ hφ c (fun k hk => (hc k hk).1) i hi with h | ⟨h0, h1, h⟩
  · exact .inl (by rw [h, hβ])
  · refine .inr ⟨_, h, fun lo up hb => ?_⟩
    unfold firAt
    have hw : ∀ k ∈ Finset.range (2 * (R.order / 2) + 1), lo ≤ φ (i - R.order / 2 + k) ∧ φ (i - R.order / 2 + k) ≤ up := by
      intro k hk
      have hk := Finset.mem_range.mp hk
      exact hb _ (by omega) (by omega)
    have hl : (∑ k ∈ Finset.range (2 * (R.order / 2) + 1), c k * lo) ≤ ∑ k ∈ Finset.range (2 * (R.order / 2) + 1), c k * φ (i - R.order / 2 + k) :=
      Finset.sum_le_sum fun k hk => mul_le_mul_of_nonneg_left (hw k hk).1 (hc k (by have := Finset.mem_range.mp hk; omega)).2
    have hu : (∑ k ∈ Finset.range (2 * (R.order / 2) + 1), c k * φ (i - R.order / 2 + k)) ≤ ∑ k ∈ Finset.range (2 * (R.order / 2) + 1), c k * up :=
      Finset.sum_le_sum fun k hk => mul_le_mul_of_nonneg_left (hw k hk).2 (hc k (by have := Finset.mem_range.mp hk; omega)).2
    rw [← Finset.sum_mul] at hl hu
    refine ⟨?_, ?_⟩
    · have := mul_le_mul_of_nonneg_right hl hg0
      calc lo = (∑ k ∈ Finset.range (2 * (R.order / 2) + 1), c k) * g * lo := by rw [hsum, one_mul]
        _ = (∑ k ∈ Finset.range (2 * (R.order / 2) + 1), c k) * lo * g := by ring
        _ ≤ _ := this
    · have := mul_le_mul_of_nonneg_right hu hg0
      calc _ ≤ (∑ k ∈ Finset.range (2 * (R.order / 2) + 1), c k) * up * g := this
        _ = (∑ k ∈ Finset.range (2 * (R.order / 2) + 1), c k) * g * up := by ring
        _ = up := by rw [hsum, one_mul]

/-! ## The full statements -/

/-- C128 in full: if the phases that are not missing never decrease with range, and the filter is not negative, no KDP is negative. -/
def C128Full (D : Dialect QF) : Prop := ∀ (R : Ray QF) (out : RayOut QF), calcKdpRayFir D true R = .ok out →
  (∀ j k : Nat, j ≤ k → k < R.n → (R.dp.mem j ==. R.bad) = false → (R.dp.mem k ==. R.bad) = false → (R.dp.mem j <=. R.dp.mem k) = true) →
  (∀ j : Nat, j + 1 < R.n → (R.rng.mem j <. R.rng.mem (j + 1 : Nat)) = true) → (0 <=. R.gain) = true →
  (∀ k : Nat, k < R.coef.len → (0 <=. R.coef.mem k) = true) →
  ∀ k ∈ out.kd, (k ==. R.bad) = true ∨ (0 <=. k) = true

/-- C129 in full: if the filter coefficients that are read are not negative and keep a constant, every filtered phase lies between the smallest and the
largest phase of the ray that is not missing. -/
def C129Full (D : Dialect QF) : Prop := ∀ (R : Ray QF) (out : RayOut QF) (lo hi : QF), calcKdpRayFir D true R = .ok out →
  (0 <=. R.gain) = true → (∀ k : Nat, k < R.coef.len → (0 <=. R.coef.mem k) = true) →
  (((List.range (R.order + 1)).map (fun (k : Nat) => R.coef.mem (k + D.coefOff))).foldl (· + ·) 0 * R.gain ==. 1) = true →
  (∀ j : Nat, j < R.n → (R.dp.mem j ==. R.bad) = false → (lo <=. R.dp.mem j) = true ∧ (R.dp.mem j <=. hi) = true) →
  ∀ x ∈ out.dp, (x ==. R.bad) = true ∨ ((lo <=. x) = true ∧ (x <=. hi) = true)

/-- Twelve gates; phase -100 at the first gate, missing at gate 4, 0 elsewhere.  The first window to reach gate 4 is that of gate 2; its line rises by 30 per
gate and fills gate 4 with 50, more than any phase of the ray. -/
def stepRay : Ray QF :=
  { n := 12, dp := ⟨12, fun j => if j = 0 then .q (-100) else if j = 4 then .q (-999) else 0⟩, dz := ⟨12, fun _ => 50⟩, rng := ⟨12, fun j => .q j⟩,
    thsd := ⟨12, fun _ => 200⟩, nf := 1, bad := .q (-999), order := 4, gain := .q (1 / 5), coef := ⟨6, fun _ => 1⟩, stdGate := 1, nadp0 := 0 }

/-- the phases put in at gates `j ≤ k` -/
def stepOk : Bool := (List.range 12).all fun j => (List.range 12).all fun k =>
  !(decide (j ≤ k)) || (stepRay.dp.mem (j : Nat) ==. stepRay.bad) || (stepRay.dp.mem (k : Nat) ==. stepRay.bad) ||
    (stepRay.dp.mem (j : Nat) <=. stepRay.dp.mem (k : Nat))

theorem step_sign (D : Dialect QF) (h1 : ((calcKdpRayFir D true stepRay).toOption.map fun o => o.kd.any fun k => !(k ==. stepRay.bad) && !(0 <=. k)) = some true) :
    ¬ C128Full D := by
  intro h
  have hh := h stepRay
  revert h1 hh
  cases calcKdpRayFir D true stepRay with
  | error e => intro h1; cases h1
  | ok o =>
    intro h1 hh
    have := hh o rfl (by
      intro j k hjk hk
      have : stepOk = true := by decide +kernel
      unfold stepOk at this
      rw [List.all_eq_true] at this
      have := this j (List.mem_range.mpr (by show j < 12; exact lt_of_le_of_lt hjk hk))
      rw [List.all_eq_true] at this
      have := this k (List.mem_range.mpr hk)
      intro a b
      simp only [a, b, hjk, decide_true, Bool.not_true, Bool.false_or, Bool.or_false] at this
      exact this) (by
      intro j hj
      show decide (((j : Int) : Rat) < (((j + 1 : Nat) : Int) : Rat)) = true
      rw [decide_eq_true_eq]
      exact_mod_cast Nat.lt_succ_self j) (by decide +kernel) (by intro k _; show ((0 : QF) <=. 1) = true; decide +kernel)
    have h1' := Option.some.inj h1
    rw [List.any_eq_true] at h1'
    obtain ⟨k, hk, hb⟩ := h1'
    have hb := Bool.and_eq_true _ _ |>.mp hb
    rcases this k hk with h | h
    · rw [h] at hb; cases hb.1
    · rw [h] at hb; cases hb.2

theorem step_over (D : Dialect QF) (hs : (((List.range (stepRay.order + 1)).map (fun (k : Nat) => stepRay.coef.mem (k + D.coefOff))).foldl (· + ·) 0 *
      stepRay.gain ==. 1) = true)
    (h1 : ((calcKdpRayFir D true stepRay).toOption.map fun o => o.dp.any fun x => !(x ==. stepRay.bad) && !(x <=. 0)) = some true) : ¬ C129Full D := by
  intro h
  have hh := h stepRay
  revert h1 hh
  cases calcKdpRayFir D true stepRay with
  | error e => intro h1; cases h1
  | ok o =>
    intro h1 hh
    have := hh o (.q (-100)) 0 rfl (by decide +kernel) (by intro k _; show ((0 : QF) <=. 1) = true; decide +kernel) hs (by
      intro j hj
      have : ((List.range 12).all fun j => (stepRay.dp.mem (j : Nat) ==. stepRay.bad) ||
        ((QF.q (-100) <=. stepRay.dp.mem (j : Nat)) && (stepRay.dp.mem (j : Nat) <=. 0))) = true := by decide +kernel
      rw [List.all_eq_true] at this
      have := this j (List.mem_range.mpr hj)
      intro a
      simp only [a, Bool.false_or, Bool.and_eq_true] at this
      exact this)
    have h1' := Option.some.inj h1
    rw [List.any_eq_true] at h1'
    obtain ⟨k, hk, hb⟩ := h1'
    have hb := Bool.and_eq_true _ _ |>.mp hb
    rcases this k hk with h | h
    · rw [h] at hb; cases hb.1
    · rw [h.2] at hb; cases hb.2

/-- **C128** does not hold in full (compiled cython kernel): the filled gate lifts the filtered phase of the gates around it, and where the phase falls back
KDP is negative although no phase put in decreases. -/
theorem C128_full_false : ¬ C128Full cython := step_sign _ (by decide +kernel)

/-- **C128** does not hold in full for the fortran kernel either. -/
theorem C128_fortran_full_false : ¬ C128Full fortran := step_sign _ (by decide +kernel)

/-- **C129** does not hold in full (compiled cython kernel): phases between -100 and 0 give a filtered phase of 10. -/
theorem C129_full_false : ¬ C129Full cython := step_over _ (by decide +kernel) (by decide +kernel)

/-- **C129** does not hold in full for the fortran kernel either. -/
theorem C129_fortran_full_false : ¬ C129Full fortran := step_over _ (by decide +kernel) (by decide +kernel)

/-! ## Non-vacuity -/

theorem lin_phase (j : Nat) : linRay.dp.mem j = .fin (3 + 2 * (j : ℝ)) ∧ (3 + 2 * (j : ℝ) : ℝ) ≠ -32768 := by
  refine ⟨?_, ?_⟩
  · show XR.fin (3 + 2 * ((j : Int) : ℝ)) = _
    push_cast; rfl
  · have : (0 : ℝ) ≤ j := by positivity
    intro h; linarith

theorem lin_coef (k : Nat) : linRay.coef.mem (k + (fortran : Dialect XR).coefOff) = .fin (if k = 1 then 0.5 else 0.25) ∧ (0 : ℝ) ≤ (if k = 1 then 0.5 else 0.25) := by
  refine ⟨?_, by split_ifs <;> norm_num⟩
  show (if ((k : Int) + 0) = 1 then XR.fin 0.5 else XR.fin 0.25) = _
  by_cases hk : k = 1
  · simp [hk]
  · have : ¬ ((k : Int) = 1) := by omega
    simp [hk]

/-- The hypotheses of `C128_nondecreasing_partial` (and so of `C128_between_slopes_partial`) and of `C129_no_overshoot_partial` are met: the ray of three
gates with phases 3, 5, 7, coefficients 1/4, 1/2, 1/4. -/
example : ∃ out, calcKdpRayFir fortran false linRay = .ok out ∧ (out.kd[1]? = some linRay.bad ∨ ∃ x : ℝ, 0 ≤ x ∧ out.kd[1]? = some (.fin x)) ∧
    (out.dp[1]? = some linRay.bad ∨ ∃ x : ℝ, out.dp[1]? = some (.fin x) ∧ 3 ≤ x ∧ x ≤ 7) := by
  obtain ⟨out, e⟩ := C71_fortran_returns linRay
  refine ⟨out, e, ?_, ?_⟩
  · refine C128_nondecreasing_partial fortran (.inr rfl) false linRay rfl out e (-32768) 1 rfl rfl (by norm_num) (fun j => 3 + 2 * (j : ℝ))
      (fun j _ => lin_phase j) (fun j k h _ => by have : (j : ℝ) ≤ k := by exact_mod_cast h
                                                  linarith)
      (fun k => if k = 1 then 0.5 else 0.25) (fun k _ => lin_coef k) (fun j => (j : ℝ)) (fun j _ => by show XR.fin ((j : Int) : ℝ) = _; push_cast; rfl)
      (fun j k h _ => by exact_mod_cast h) (fun h => absurd (congrArg Dialect.coefOff h) (by decide)) (fun _ j hj => ?_) 1 (by decide) 2
      (Width.mid (R := linRay) (by simp [linRay]; norm_num) (by simp [linRay]; norm_num)) (le_refl 2)
    have hj : (j : ℝ) ≤ 3 := by
      have : j < 3 := hj
      exact_mod_cast this.le
    have h35 : (3 : ℝ) ≤ 1e35 := by norm_num
    refine ⟨hj.trans h35, ?_⟩
    show firAt 1 _ _ 1 j ≤ _
    have h2 : ((j - 1 : Nat) : ℝ) ≤ 3 := by
      have : j < 3 := by assumption
      exact_mod_cast (by omega : j - 1 ≤ 3)
    unfold firAt
    simp [Finset.sum_range_succ]
    linarith
  · rcases C129_no_overshoot_partial fortran false linRay rfl out e (-32768) 1 rfl rfl (by norm_num) (fun j => 3 + 2 * (j : ℝ))
      (fun j _ => lin_phase j) (fun k => if k = 1 then 0.5 else 0.25) (fun k _ => lin_coef k)
      (by have : linRay.order = 2 := rfl
          rw [this]; norm_num [Finset.sum_range_succ]) 1 (by decide) with h | ⟨x, hx, hb⟩
    · exact .inl h
    · refine .inr ⟨x, hx, hb 3 7 fun j h1 h3 => ?_⟩
      have h3 : j ≤ 2 := h3
      have : (j : ℝ) ≤ 2 := by exact_mod_cast h3
      have : (0 : ℝ) ≤ j := by positivity
      constructor <;> linarith

end Csu.Kdp
