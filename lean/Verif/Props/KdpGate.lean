import Verif.Props.KdpTotal
/-! # C12, C85: KDP is half the least-squares slope over the adaptive window -/
namespace Csu.Kdp
open Csu PyFloat KdpSpec

/-- The documented width of the window: the half filter order for reflectivity at least 45, twice it from 35 to 45, three
times it below 35. -/
inductive Width (R : Ray XR) : XR → Nat → Prop
  | high {d : XR} (h : (d >=. .fin 45) = true) : Width R d (R.order / 2)
  | mid {d : XR} (h : (d >=. .fin 35) = true) (h' : (d <. .fin 45) = true) : Width R d (2 * (R.order / 2))
  | low {d : XR} (h : (d <. .fin 35) = true) : Width R d (3 * (R.order / 2))

/-- every real reflectivity has a width -/
theorem width_real (R : Ray XR) (x : ℝ) : ∃ w, Width R (.fin x) w := by
  by_cases h : 45 ≤ x
  · exact ⟨_, .high (by simpa using h)⟩
  · by_cases h' : 35 ≤ x
    · exact ⟨_, .mid (by simpa using h') (by simpa using h)⟩
    · exact ⟨_, .low (by simpa using h')⟩

theorem lt_of_lt_of_le {d : XR} {a b : ℝ} (h : (d <. .fin a) = true) (hab : a ≤ b) : (d <. .fin b) = true := by
  cases d with
  | nan => cases h
  | ninf => rfl
  | pinf => cases h
  | fin x => simp only [XR.flt, decide_eq_true_eq] at *; linarith

theorem ge_of_not {d : XR} {a : ℝ} (h : (d <. .fin a) = true) : (d >=. .fin a) = false := by
  cases d with
  | nan => cases h
  | ninf => rfl
  | pinf => cases h
  | fin x => simp only [XR.flt, XR.fge, decide_eq_true_eq, decide_eq_false_iff_not] at *; linarith

theorem lt_of_not {d : XR} {a : ℝ} (h : (d >=. .fin a) = true) : (d <. .fin a) = false := by
  cases d with
  | nan => rfl
  | ninf => cases h
  | pinf => rfl
  | fin x => simp only [XR.flt, XR.fge, decide_eq_true_eq, decide_eq_false_iff_not] at *; linarith

theorem nadpOf_width {R : Ray XR} {d : XR} {w : Nat} (h : Width R d w) (m : Int) : nadpOf R d m = w := by
  have h45 : (45.0 : XR) = .fin 45 := by rw [XR.fsci]; norm_num
  have h35 : (35.0 : XR) = .fin 35 := by rw [XR.fsci]; norm_num
  unfold nadpOf
  simp only [h45, h35, Ray.half]
  cases h with
  | high h =>
    have : (d <. XR.fin 35) = false := by
      cases hc : (d <. XR.fin 35)
      · rfl
      · have := lt_of_lt_of_le hc (b := 45) (by norm_num)
        rw [lt_of_not h] at this; cases this
    simp [h, this, lt_of_not h]
  | mid h h' => simp [h, h', lt_of_not h, ge_of_not h']
  | low h =>
    simp [h]

/-- the good samples (range, filtered phase) among the `len` gates from gate `lo` on -/
noncomputable def goodSamples (R : Ray XR) (out : RayOut XR) (lo len : Nat) : List (XR × XR) :=
  ((List.range len).filter (fun k => (out.dp.getD (lo + k) .nan) !=. R.bad)).map
    (fun (k : Nat) => (R.rng.mem ((lo + k : Nat) : Int), out.dp.getD (lo + k) .nan))

theorem collect_samples {chk : Bool} {R : Ray XR} {out : RayOut XR} {z : Buf XR} (hl : out.dp.length = R.n)
    (hz : ∀ (i : Nat) (h : i < out.dp.length), out.dp[i] = z.mem i) {i h : Nat} {e : Int} (he : e = 0 ∨ e = 1) (h0 : h ≤ i) (h1 : i + h < R.n)
    {pts : List (XR × XR)} (hc : kdpCollect chk R z (rangeI ((i : Int) - h) (i + h + e)) = .ok pts) :
    pts = goodSamples R out (i - h) (2 * h + e.toNat) := by
  rw [kdpCollect_val hc]
  unfold rangeI goodSamples
  rw [show (((i : Int) + h + e) - ((i : Int) - h)).toNat = 2 * h + e.toNat by omega]
  have hv : ∀ k : Nat, k < 2 * h + e.toNat → z.mem ((i : Int) - h + Int.ofNat k) = out.dp.getD (i - h + k) .nan := by
    intro k hk
    have hlt : i - h + k < out.dp.length := by rw [hl]; rcases he with rfl | rfl <;> simp at hk <;> omega
    have : ((i : Int) - h + Int.ofNat k) = ((i - h + k : Nat) : Int) := by simp only [Int.ofNat_eq_natCast]; omega
    rw [this, ← hz _ hlt, List.getD_eq_getElem?_getD, List.getElem?_eq_getElem hlt]; rfl
  rw [List.filter_map, List.map_map]
  have e1 : (List.range (2 * h + e.toNat)).filter ((fun j => z.mem j !=. R.bad) ∘ fun (k : Nat) => (i : Int) - h + Int.ofNat k) =
      (List.range (2 * h + e.toNat)).filter (fun k => (out.dp.getD (i - h + k) .nan) !=. R.bad) := by
    apply List.filter_congr
    intro k hk
    simp only [Function.comp, hv k (List.mem_range.mp hk)]
  rw [e1]
  apply List.map_congr_left
  intro k hk
  have hk := List.mem_range.mp (List.mem_of_mem_filter hk)
  have : ((i : Int) - h + Int.ofNat k) = ((i - h + k : Nat) : Int) := by simp only [Int.ofNat_eq_natCast]; omega
  simp only [Function.comp, hv k hk]
  rw [this]

/-- The gates the code uses: `2 ⌊w/2⌋` gates from `i - ⌊w/2⌋` on for Cython, one more (the right end) for Fortran. -/
def winLen (D : Dialect XR) (w : Nat) : Nat := 2 * (w / 2) + D.winEnd.toNat

theorem kdp_bad_reflectivity' (D : Dialect XR) (chk : Bool) (R : Ray XR) (out : RayOut XR)
    (e : calcKdpRayFir D chk R = .ok out) (i : Nat) (hi : i < R.n) (hb : (R.dz.mem i ==. R.bad) = true) :
    out.kd[i]? = some R.bad := by
  obtain ⟨yz, r⟩ := calc_run e
  have h1 : i < out.kd.length := by rw [r.kdLen]; exact hi
  obtain ⟨m1, m2, g⟩ := r.kd i h1
  unfold kdpGate at g
  obtain ⟨d, hd, g⟩ := bind_ok g
  rw [rd_val hd, if_neg (by simp [PyFloat.ne, hb])] at g
  rw [List.getElem?_eq_getElem h1]
  injection g with g
  injection g with g1 g2
  rw [← g1]

/-- **C12**, for both kernels and every ray.  Let the reflectivity of gate `i` be
good and classified with width `w`, `h = ⌊w/2⌋`.
1. If gate `i` has fewer than `h` gates on either side, KDP is `bad`.
2. If at most `0.8 w` samples of the window are good, KDP is `bad`.
3. Otherwise, if the good samples are real, with two different ranges and ranges that are not the bad value (nor above
`10^35`, for Fortran), KDP is half the slope of their unique least-squares line.
The window has `2 ⌊w/2⌋` gates (Cython) or `2 ⌊w/2⌋ + 1` (Fortran); that it is not `w` gates is C85. -/
theorem C12_window_slope (D : Dialect XR) (hD : D = cython ∨ D = fortran) (chk : Bool) (R : Ray XR)
    (out : RayOut XR) (e : calcKdpRayFir D chk R = .ok out) (i : Nat) (hi : i < R.n)
    (hb : (R.dz.mem i ==. R.bad) = false) (w : Nat) (hw : Width R (R.dz.mem i) w) :
    ((i < w / 2 ∨ R.n ≤ i + w / 2) → out.kd[i]? = some R.bad) ∧
    (w / 2 ≤ i → i + w / 2 < R.n →
      (((goodSamples R out (i - w / 2) (winLen D w)).length : ℝ) ≤ 0.8 * w → out.kd[i]? = some R.bad) ∧
      (∀ pts : List (ℝ × ℝ), goodSamples R out (i - w / 2) (winLen D w) = pts.map lift → 0.8 * w < (pts.length : ℝ) →
        (∀ p ∈ pts, D.skip R.bad (.fin p.1) = false ∧ D.skip R.bad (.fin p.2) = false) → TwoAbscissae pts →
        ∃ a b : ℝ, IsLeastSquares pts a b ∧ out.kd[i]? = some (.fin (0.5 * a)))) := by
  obtain ⟨yz, r⟩ := calc_run e
  have h1 : i < out.kd.length := by rw [r.kdLen]; exact hi
  obtain ⟨m1, m2, g⟩ := r.kd i h1
  rw [List.getElem?_eq_getElem h1]
  unfold kdpGate at g
  obtain ⟨d, hd, g⟩ := bind_ok g
  have hdv := rd_val hd
  subst hdv
  rw [if_pos (by simp [PyFloat.ne, hb])] at g
  simp only [nadpOf_width hw, wx, XR.ff32] at g
  have hE : D.winEnd = 0 ∨ D.winEnd = 1 := by rcases hD with rfl | rfl <;> simp [cython, fortran]
  have h08 : ∀ n : Nat, (PyFloat.ofNat n >. (0.8 : XR) * PyFloat.ofInt (w : Int)) = decide ((0.8 : ℝ) * w < n) := by
    intro n
    simp only [XR.fofNat, XR.fsci, XR.fofInt, XR.fmul, XR.fgt]
    push_cast; rfl
  have hcast : ((w : Int) / 2) = ((w / 2 : Nat) : Int) := by omega
  rw [hcast] at g
  refine ⟨fun hout => ?_, fun a b => ⟨fun hfew => ?_, fun pts hpts hmany hskip htwo => ?_⟩⟩
  · rw [if_neg (by omega)] at g
    obtain ⟨pts, hp, g⟩ := bind_ok g
    cases hp
    rw [h08] at g
    have : ¬ ((0.8 : ℝ) * w < (([] : List (XR × XR)).length : ℝ)) := by simp; positivity
    rw [if_neg (by simpa using this)] at g
    injection g with g; injection g with g1 g2
    rw [← g1]
  · rw [if_pos (by omega)] at g
    obtain ⟨pts, hp, g⟩ := bind_ok g
    have hs := collect_samples r.dpLen r.dp hE a b hp
    rw [h08, hs] at g
    rw [if_neg (by unfold winLen at hfew; simp only [decide_eq_true_eq]; linarith)] at g
    injection g with g; injection g with g1 g2
    rw [← g1]
  · rw [if_pos (by omega)] at g
    obtain ⟨pts', hp, g⟩ := bind_ok g
    have hs := collect_samples r.dpLen r.dp hE a b hp
    have hs' : pts' = pts.map lift := by rw [hs]; exact hpts
    rw [h08, hs', List.length_map, if_pos (by simpa using hmany)] at g
    have hk : kept D R.bad pts = pts := by
      unfold kept
      rw [List.filter_eq_self]
      intro p hp
      simp [(hskip p hp).1, (hskip p hp).2]
    rw [lse_val D R.bad pts (by rw [hk]; exact (detR_ne_zero_iff pts).mpr htwo), hk] at g
    refine ⟨slopeR pts, interR pts, least_squares pts htwo, ?_⟩
    injection g with g; injection g with g1 g2
    rw [← g1]
    simp

/-- Bad reflectivity gives bad KDP. -/
theorem C12_bad_reflectivity (D : Dialect XR) (chk : Bool) (R : Ray XR) (out : RayOut XR)
    (e : calcKdpRayFir D chk R = .ok out) (i : Nat) (hi : i < R.n) (hb : (R.dz.mem i ==. R.bad) = true) :
    out.kd[i]? = some R.bad := kdp_bad_reflectivity' D chk R out e i hi hb

/-- If the filtered phase is linear in range with slope `2k` on the good gates of the window, KDP is exactly `k`. -/
theorem C12_linear_phase (D : Dialect XR) (hD : D = cython ∨ D = fortran) (chk : Bool) (R : Ray XR)
    (out : RayOut XR) (e : calcKdpRayFir D chk R = .ok out) (i : Nat) (hi : i < R.n)
    (hb : (R.dz.mem i ==. R.bad) = false) (w : Nat) (hw : Width R (R.dz.mem i) w) (h0 : w / 2 ≤ i) (h1 : i + w / 2 < R.n)
    (pts : List (ℝ × ℝ)) (hpts : goodSamples R out (i - w / 2) (winLen D w) = pts.map lift) (hmany : 0.8 * w < (pts.length : ℝ))
    (hskip : ∀ p ∈ pts, D.skip R.bad (.fin p.1) = false ∧ D.skip R.bad (.fin p.2) = false) (htwo : TwoAbscissae pts)
    (k c : ℝ) (hlin : ∀ p ∈ pts, p.2 = 2 * k * p.1 + c) : out.kd[i]? = some (.fin k) := by
  obtain ⟨a, b, hls, hkd⟩ := ((C12_window_slope D hD chk R out e i hi hb w hw).2 h0 h1).2 pts hpts hmany hskip htwo
  have h2 := hls (slopeR pts) (interR pts)
  have h3 := least_squares pts htwo a b
  have : a = slopeR pts := (h3.2 (le_antisymm h2.1 h3.1)).1
  rw [hkd, this, (slope_of_line pts htwo (2 * k) c hlin).1]
  congr 2
  ring

theorem goodSamples_le (R : Ray XR) (out : RayOut XR) (lo len : Nat) : (goodSamples R out lo len).length ≤ len := by
  unfold goodSamples
  rw [List.length_map]
  exact (List.length_filter_le _ _).trans (by simp)

/-- **C85.** **An odd width of at most 5 never yields a KDP in the Cython kernel**, however good the ray: the window has only `w - 1`
gates, which is at most 80% of `w`.  This is the case for reflectivity of at least 45 when the filter order is 2, 6 or 10. -/
theorem C85_small_odd_width (chk : Bool) (R : Ray XR) (out : RayOut XR) (e : calcKdpRayFir cython chk R = .ok out) (i : Nat)
    (hi : i < R.n) (w : Nat) (hw : Width R (R.dz.mem i) w) (hodd : w % 2 = 1) (h5 : w ≤ 5) : out.kd[i]? = some R.bad := by
  by_cases hb : (R.dz.mem i ==. R.bad) = true
  · exact C12_bad_reflectivity cython chk R out e i hi hb
  · have hp := C12_window_slope cython (.inl rfl) chk R out e i hi (by simpa using hb) w hw
    by_cases hf : i < w / 2 ∨ R.n ≤ i + w / 2
    · exact hp.1 hf
    · push Not at hf
      refine (hp.2 hf.1 hf.2).1 ?_
      have hl := goodSamples_le R out (i - w / 2) (winLen cython w)
      have h2 : winLen cython w = w - 1 := by simp only [winLen, cython]; simp; omega
      rw [h2] at hl ⊢
      have h3 : ((goodSamples R out (i - w / 2) (w - 1)).length : ℝ) ≤ ((w - 1 : Nat) : ℝ) := by exact_mod_cast hl
      have h4 : ((w - 1 : Nat) : ℝ) = w - 1 := by rw [Nat.cast_sub (by omega)]; simp
      have h6 : (w : ℝ) ≤ 5 := by exact_mod_cast h5
      rw [h4] at h3
      norm_num
      linarith

/-- C85, full statement about a completely good ray: KDP at a gate whose window fits is half the slope of a fit over `w`
consecutive gates around it. -/
def C85Full : Prop := ∀ (R : Ray QF) (out : RayOut QF) (i w : Nat), calcKdpRayFir cython true R = .ok out →
  w = R.order / 2 → (R.dz.mem i >=. 45) = true → (R.dz.mem i !=. R.bad) = true → w / 2 ≤ i → i + w / 2 < R.n →
  (∀ j ∈ out.dp, (j !=. R.bad) = true) →
  ∃ lo : Nat, lo ≤ i ∧ i ≤ lo + w ∧ ∃ ab, lse cython R.bad ((List.range w).map
    (fun (k : Nat) => (R.rng.mem ((lo + k : Nat) : Int), out.dp.getD (lo + k) .nan))) = .ok ab ∧ out.kd[i]? = some (0.5 * ab.1)

/-- eleven gates, phase equal to range, no filtering, order 10 -/
def odd : Ray QF :=
  { n := 11, dp := ⟨11, fun i => ofInt i⟩, dz := ⟨11, fun _ => 50⟩, rng := ⟨11, fun i => ofInt i⟩, thsd := ⟨11, fun _ => 12⟩,
    nf := 0, bad := QF.q (-32768), order := 10, gain := 1, coef := ⟨11, fun _ => 1⟩, stdGate := 1, nadp0 := 0 }

/-- **C85 is false**: order 10 and reflectivity 50 give `bad` on a perfect ray. -/
theorem C85_full_false : ¬ C85Full := by
  intro h
  have hok : (calcKdpRayFir cython true odd).isOk = true := by decide +kernel
  cases e : calcKdpRayFir cython true odd with
  | error x => rw [e] at hok; cases hok
  | ok out =>
    have hdp : (calcKdpRayFir cython true odd).map (fun o => o.dp) = .ok ((List.range 11).map (fun (k : Nat) => QF.q (k : Rat))) := by
      decide +kernel
    have hkd : (calcKdpRayFir cython true odd).map (fun o => o.kd[5]?) = .ok (some (QF.q (-32768))) := by decide +kernel
    rw [e] at hdp hkd
    simp only [Except.map, Except.ok.injEq] at hdp hkd
    obtain ⟨lo, h1, h2, ab, h3, h4⟩ := h odd out 5 5 e rfl (by decide +kernel) (by decide +kernel) (by decide) (by decide)
      (by rw [hdp]; decide +kernel)
    rw [hkd] at h4
    rw [hdp] at h3
    have key : ∀ lo ≤ 5, (lse cython odd.bad ((List.range 5).map
      (fun (k : Nat) => (odd.rng.mem ((lo + k : Nat) : Int), ((List.range 11).map (fun (k : Nat) => QF.q (k : Rat))).getD (lo + k) .nan)))).map
        (fun ab => (0.5 * ab.1 : QF)) = .ok (QF.q (1 / 2)) := by decide +kernel
    have := key lo h1
    rw [h3] at this
    simp only [Except.map, Except.ok.injEq] at this
    rw [this] at h4
    revert h4; decide +kernel

/-- The hypotheses of `C12_window_slope` and `C12_linear_phase` are met: the three-gate ray with reflectivity 40 (width
2), without filtering; its KDP at the middle gate is 1, half the slope 2 of its phase. -/
example : ∃ out, calcKdpRayFir cython false { linRay with nf := 0 } = .ok out ∧ out.kd[1]? = some (.fin 1) := by
  have hr : Ranges { linRay with nf := 0 } (fun j => (j : ℝ)) := ⟨linRay_ranges.val, linRay_ranges.inj⟩
  obtain ⟨out, e⟩ := C71_cython_returns { linRay with nf := 0 } _ hr (by decide) (by decide) (by decide)
  refine ⟨out, e, ?_⟩
  have hdp : ∀ j : Nat, j < 3 → out.dp.getD j .nan = .fin (3 + 2 * j) := by
    intro j hj
    have := C11_no_passes cython false _ rfl out e j hj
    rw [List.getD_eq_getElem?_getD, this]
    show XR.fin (3 + 2 * ((j : Int) : ℝ)) = _
    push_cast; rfl
  have hw : Width { linRay with nf := 0 } (XR.fin 40) 2 :=
    Width.mid (R := { linRay with nf := 0 }) (by simp; norm_num) (by simp; norm_num)
  have hgs : goodSamples { linRay with nf := 0 } out (1 - 2 / 2) (winLen cython 2) = [((0 : ℝ), (3 : ℝ)), (1, 5)].map lift := by
    have h0 := hdp 0 (by omega)
    have h1 := hdp 1 (by omega)
    have n3 : ((3 : ℝ) = -32768) = False := by norm_num
    have n5 : ((3 : ℝ) + 2 = -32768) = False := by norm_num
    have e5 : (3 : ℝ) + 2 = 5 := by norm_num
    have hw2 : winLen cython 2 = 2 := by decide
    have hrg : List.range 2 = [0, 1] := by decide
    unfold goodSamples
    rw [hw2, hrg]
    simp only [List.filter, List.map, Nat.reduceDiv, Nat.reduceSub, Nat.zero_add, h0, h1]
    have n55 : ((5 : ℝ) = -32768) = False := by norm_num
    rw [List.getD_eq_getElem?_getD] at h0 h1
    simp [linRay, n3, n5, lift, e5, n55, h0, h1]
  refine C12_linear_phase cython (.inl rfl) false _ out e 1 (by decide) ?_ 2 hw (by decide) (by decide) _ hgs ?_ ?_ ?_ 1 3 ?_
  · show (XR.fin 40 ==. XR.fin (-32768)) = false
    rw [XR.feq]; norm_num
  · norm_num
  · intro p hp
    simp at hp
    rcases hp with rfl | rfl <;> constructor <;> show (XR.fin _ ==. XR.fin (-32768)) = false <;> rw [XR.feq] <;> norm_num
  · exact ⟨(0, 3), by simp, (1, 5), by simp, by norm_num⟩
  · intro p hp
    simp at hp
    rcases hp with rfl | rfl <;> norm_num

end Csu.Kdp
