import Verif.Props.Rain2
/-!
# C130, C131: the ice fraction that blended rain returns, and monotone rain rates

At `XR` (extended reals with NaN, exact arithmetic).
-/
namespace Csu.Rain
open Csu PyFloat Csu.RainSpec XR

/-! ## Closed forms for finite gates -/

/-- Difference reflectivity (dB) of a gate of reflectivity `d` and differential reflectivity `z`: with `z ≤ 0` the floor -120, else
`10 log10 (Zh - Zv)` with `Zh = 10^(d/10)`, `Zv = 10^((d-z)/10)`. -/
noncomputable def zdpR (d z : ℝ) : ℝ := if z ≤ 0 then -120 else d + 10 * Real.logb 10 (1 - 10 ^ (-(z / 10)))

theorem ten_le_one {x : ℝ} (h : x ≤ 0) : (10 : ℝ) ^ x ≤ 1 := Real.rpow_le_one_of_one_le_of_nonpos (by norm_num) h

theorem ten_lt_one {x : ℝ} (h : x < 0) : (10 : ℝ) ^ x < 1 := Real.rpow_lt_one_of_one_lt_of_neg (by norm_num) h

theorem logb_ten (x : ℝ) : Real.logb 10 (10 ^ x) = x := Real.logb_rpow (by norm_num) (by norm_num)

theorem zdp_diff (d z : ℝ) : (10 : ℝ) ^ (d / 10) - 10 ^ (d / 10) / 10 ^ (z / 10) = 10 ^ (d / 10) * (1 - 10 ^ (-(z / 10))) := by
  rw [Real.rpow_neg (by norm_num)]; field_simp

theorem zdpDb_closed (d z : ℝ) : zdpDb (fin d) (fin z) = fin (zdpR d z) := by
  simp only [zdpDb, lin_fin]
  rw [fdiv (lin_pos z).ne']
  simp only [fsub, fzero, fle, decide_eq_true_eq, fsci, foflit, zdp_diff]
  unfold zdpR
  by_cases hz : z ≤ 0
  · have h1 : (1 : ℝ) ≤ 10 ^ (-(z / 10)) := Real.one_le_rpow (by norm_num) (by linarith)
    have : (10 : ℝ) ^ (d / 10) * (1 - 10 ^ (-(z / 10))) ≤ 0 := mul_nonpos_of_nonneg_of_nonpos (lin_pos d).le (by linarith)
    rw [if_pos this, if_pos hz, flog10 (by norm_num), fmul]
    congr 1
    rw [show (0.000000000001 : ℝ) = 10 ^ (-12 : ℝ) by rw [Real.rpow_neg (by norm_num)]; norm_num, logb_ten]
    norm_num
  · have hz' : 0 < z := not_le.mp hz
    have h1 : (10 : ℝ) ^ (-(z / 10)) < 1 := ten_lt_one (by linarith)
    have : 0 < (10 : ℝ) ^ (d / 10) * (1 - 10 ^ (-(z / 10))) := mul_pos (lin_pos d) (by linarith)
    rw [if_neg (not_le.mpr this), if_neg hz, flog10 this, fmul]
    congr 1
    rw [Real.logb_mul (lin_pos d).ne' (by linarith), logb_ten]
    ring

theorem zRain_closed (a b d z : ℝ) : zRain (fin a) (fin b) (fin d) (fin z) = fin (10 ^ ((a * zdpR d z + b) / 10)) := by
  simp only [zRain, zdpDb_closed, fmul, fadd, foflit]
  rw [fdiv (by norm_num), fpow (by norm_num)]

theorem iceFraction_closed (a b d z : ℝ) : iceFraction (fin a) (fin b) (fin d) (fin z) = fin (1 - 10 ^ ((a * zdpR d z + b - d) / 10)) := by
  simp only [iceFraction, zRain_closed, lin_fin]
  rw [fdiv (lin_pos d).ne', fone, fsub]
  congr 2
  rw [← Real.rpow_sub (by norm_num)]
  congr 1; ring

theorem calcBlendedRain_arr_ice {α : Type} [PyFloat α] {P : Params α} {d z k : NdArray α} {r : List α} {m : List Int} {zd fi : List α} (hs : SameShape d z k)
    (h : blendedArr P "S" d.dtype d.data z.data k.data = .ok ⟨r, m, some (zd, fi)⟩) :
    calcBlendedRain P "S" true (some (.arr d)) (some (.arr z)) (some (.arr k)) =
      .ok (some (.arr ⟨d.dtype, d.shape, r⟩ ⟨.int, d.shape, m⟩ (some (⟨.float, d.shape, zd⟩, ⟨.float, d.shape, fi⟩)))) := by
  have hc : (!true || decide ("S" ≠ "S")) = false := by decide
  simp only [calcBlendedRain, hs.2.2.2.1.symm, hs.2.2.2.2.symm, and_self, if_true, h, bind, Except.bind, hc]
  rfl

/-- `calc_blended_rain` with `ice_flag` at S band -/
theorem calcBlendedRain_ice {α : Type} [PyFloat α] (P : Params α) (fa fb : α) (hf : IsRainLine P fa fb) (d z k : NdArray α) (hs : SameShape d z k) :
    ∃ r m zd fi, calcBlendedRain P "S" true (some (.arr d)) (some (.arr z)) (some (.arr k)) = .ok (some (.arr r m (some (zd, fi)))) ∧
      zd.shape = d.shape ∧ fi.shape = d.shape ∧ zd.WF ∧ fi.WF ∧
      ∀ (i : Nat) (dv zv kv : α), d.data[i]? = some dv → z.data[i]? = some zv → k.data[i]? = some kv →
        zd.data[i]? = some (zdpDb dv zv) ∧ fi.data[i]? = some (iceFraction fa fb dv zv) ∧ m.data[i]? = some (methodS P fa fb dv zv kv) := by
  obtain ⟨hl1, hl2⟩ := SameShape.lengths hs
  obtain ⟨gs, h1, h2, h3⟩ := exists_gates3 d.data z.data k.data hl1 hl2
  have hlen : gs.length = d.data.length := by rw [← h1]; simp
  have key := blendedArr_S P fa fb (rainLine_of P fa fb hf) d.dtype gs
  rw [h1, h2, h3] at key
  refine ⟨_, _, _, _, calcBlendedRain_arr_ice hs key, rfl, rfl, ?_, ?_, ?_⟩
  · simpa [NdArray.WF, hlen] using hs.1
  · simpa [NdArray.WF, hlen] using hs.1
  · intro i dv zv kv hd hz hk
    have hg := gate_of_cols h1 h2 h3 hd hz hk
    simp [hg]

/-! ## C130 -/

/-- C130 in full: the ice fraction that `calc_blended_rain` returns for finite gates (default parameters) lies in [0, 1]. -/
def C130Full : Prop := ∀ (d z k : NdArray XR) (r : NdArray XR) (m : NdArray Int) (zd fi : NdArray XR),
  (∀ x ∈ d.data, ∃ v : ℝ, x = fin v) → (∀ x ∈ z.data, ∃ v : ℝ, x = fin v) → (∀ x ∈ k.data, ∃ v : ℝ, x = fin v) →
  calcBlendedRain Params.default "S" true (some (.arr d)) (some (.arr z)) (some (.arr k)) = .ok (some (.arr r m (some (zd, fi)))) →
  ∀ x ∈ fi.data, ∃ v : ℝ, 0 ≤ v ∧ v ≤ 1 ∧ x = fin v

/-- **C130**, what holds, for any real parameters and any real rain line `L(zdp) = a zdp + b`: at every finite gate Zdp is the documented value (floored at
-120 dB where zdr is not positive) and the ice fraction is `1 - 10^((L - dz)/10)`; so it is always less than 1, and it is not negative exactly where the
reflectivity reaches the rain line. -/
theorem C130_ice_fraction_partial (P : Params ℝ) (a b : ℝ) (hf : IsRainLine P.toXR (fin a) (fin b)) (d z k : NdArray XR) (hs : SameShape d z k) :
    ∃ r m zd fi, calcBlendedRain P.toXR "S" true (some (.arr d)) (some (.arr z)) (some (.arr k)) = .ok (some (.arr r m (some (zd, fi)))) ∧
      zd.shape = d.shape ∧ fi.shape = d.shape ∧ zd.WF ∧ fi.WF ∧
      ∀ (i : Nat) (dv zv : ℝ), d.data[i]? = some (fin dv) → z.data[i]? = some (fin zv) → ∃ f : ℝ,
        zd.data[i]? = some (fin (zdpR dv zv)) ∧ fi.data[i]? = some (fin f) ∧
        f = 1 - 10 ^ ((a * zdpR dv zv + b - dv) / 10) ∧ f < 1 ∧ (0 ≤ f ↔ a * zdpR dv zv + b ≤ dv) := by
  obtain ⟨r, m, zd, fi, call, h1, h2, h3, h4, h5⟩ := calcBlendedRain_ice P.toXR (fin a) (fin b) hf d z k hs
  refine ⟨r, m, zd, fi, call, h1, h2, h3, h4, fun i dv zv hd hz => ?_⟩
  have hlt : i < k.data.length := by
    rw [← (SameShape.lengths hs).2]
    by_contra hc
    rw [List.getElem?_eq_none (by omega)] at hd; cases hd
  obtain ⟨g1, g2, -⟩ := h5 i _ _ _ hd hz (List.getElem?_eq_getElem hlt)
  rw [zdpDb_closed] at g1
  rw [iceFraction_closed] at g2
  refine ⟨_, g1, g2, rfl, ?_, ?_⟩
  · have := Real.rpow_pos_of_pos (by norm_num : (0 : ℝ) < 10) ((a * zdpR dv zv + b - dv) / 10)
    linarith
  · rw [sub_nonneg, Real.rpow_le_one_iff_of_pos (by norm_num)]
    constructor
    · rintro (⟨-, h⟩ | ⟨h, -⟩)
      · linarith
      · norm_num at h
    · intro h
      exact .inl ⟨by norm_num, by linarith⟩

/-- **C130**, consequence for the published rain lines: a gate above -50 dBZ whose zdr is not positive has ice fraction above 0.99, so (ice threshold at most
0.99) its method is 2 or 5, never one of the rain methods 1, 3, 4. -/
theorem C130_zdr_not_positive_partial (P : Params ℝ) (hfit : P.fitA = none) (hth : P.threshFracIce ≤ 0.99) (d z k : NdArray XR) (hs : SameShape d z k) :
    ∃ r m zd fi, calcBlendedRain P.toXR "S" true (some (.arr d)) (some (.arr z)) (some (.arr k)) = .ok (some (.arr r m (some (zd, fi)))) ∧
      ∀ (i : Nat) (dv zv : ℝ), d.data[i]? = some (fin dv) → z.data[i]? = some (fin zv) → -50 ≤ dv → zv ≤ 0 →
        (∃ f : ℝ, 0.99 < f ∧ fi.data[i]? = some (fin f)) ∧ (m.data[i]? = some 2 ∨ m.data[i]? = some 5) := by
  have line : ∃ a b : ℝ, IsRainLine P.toXR (fin a) (fin b) ∧ a * (-120) + b < -70.5 := by
    have hn : P.toXR.fitA = none := by simp [Params.toXR, hfit]
    by_cases h1 : P.method = "cifelli"
    · exact ⟨0.8178, 12.5088, .inr (.inl ⟨hn, h1, by simp, by simp⟩), by norm_num⟩
    by_cases h2 : P.method = "cr1995"
    · exact ⟨0.9091, 8.5091, .inr (.inr (.inl ⟨hn, h2, by simp, by simp⟩)), by norm_num⟩
    · exact ⟨0.77, 14, .inr (.inr (.inr ⟨hn, h1, h2, by simp, by simp⟩)), by norm_num⟩
  obtain ⟨a, b, hf, hab⟩ := line
  obtain ⟨r, m, zd, fi, call, -, -, -, -, h5⟩ := calcBlendedRain_ice P.toXR (fin a) (fin b) hf d z k hs
  refine ⟨r, m, zd, fi, call, fun i dv zv hd hz hdv hzv => ?_⟩
  have hlt : i < k.data.length := by
    rw [← (SameShape.lengths hs).2]
    by_contra hc
    rw [List.getElem?_eq_none (by omega)] at hd; cases hd
  obtain ⟨-, g2, g3⟩ := h5 i _ _ _ hd hz (List.getElem?_eq_getElem hlt)
  have hi := iceFraction_closed a b dv zv
  have hzd : zdpR dv zv = -120 := by unfold zdpR; rw [if_pos hzv]
  rw [hzd] at hi
  have hpow : (10 : ℝ) ^ ((a * (-120) + b - dv) / 10) < 0.01 := by
    have : (10 : ℝ) ^ ((a * (-120) + b - dv) / 10) < 10 ^ (-2 : ℝ) := Real.rpow_lt_rpow_of_exponent_lt (by norm_num) (by linarith)
    have h3 : (10 : ℝ) ^ (-2 : ℝ) = 0.01 := by rw [Real.rpow_neg (by norm_num)]; norm_num
    linarith
  refine ⟨⟨1 - 10 ^ ((a * (-120) + b - dv) / 10), by linarith, by rw [g2, hi]⟩, ?_⟩
  have hm : (iceFraction (fin a) (fin b) (fin dv) (fin zv) <. P.toXR.threshFracIce) = false := by
    rw [hi]
    show (fin _ <. fin P.threshFracIce) = false
    rw [flt]
    simp only [decide_eq_false_iff_not]
    linarith
  rw [g3]
  unfold methodS
  simp only [hm, Bool.false_eq_true, if_false]
  split_ifs
  · exact .inl rfl
  · exact .inr rfl

/-- **C130** is false of the code: 0 dBZ with zdr 10 dB gives a negative ice fraction. -/
theorem C130_full_false : ¬ C130Full := by
  intro h
  have hs : SameShape (⟨.float, [1], [fin 0]⟩ : NdArray XR) (⟨.float, [1], [fin 10]⟩ : NdArray XR) (⟨.float, [1], [fin 0]⟩ : NdArray XR) :=
    ⟨rfl, rfl, rfl, rfl, rfl⟩
  obtain ⟨r, m, zd, fi, call, -, h2, -, h4, h5⟩ := C130_ice_fraction_partial realDefault 0.9091 8.5091
    (.inr (.inr (.inl ⟨rfl, rfl, by simp, by simp⟩))) _ _ _ hs
  obtain ⟨f, -, g2, -, -, g5⟩ := h5 0 0 10 rfl rfl
  rw [← C40_defaults_sane.1] at call
  obtain ⟨v, v0, -, hv⟩ := h _ _ _ _ _ _ _ (by simp) (by simp) (by simp) call (fin f) (List.mem_of_getElem? g2)
  cases hv
  have := g5.mp v0
  have hz : zdpR 0 10 = 10 * Real.logb 10 0.9 := by
    unfold zdpR
    rw [if_neg (by norm_num), zero_add]
    congr 2
    norm_num [Real.rpow_neg]
  have hl : -(1 / 10) ≤ Real.logb 10 0.9 := by
    rw [Real.le_logb_iff_rpow_le (by norm_num) (by norm_num)]
    have h1 : ((10 : ℝ) ^ (-(1 / 10) : ℝ)) ^ (10 : ℕ) = 1 / 10 := by
      rw [← Real.rpow_natCast, ← Real.rpow_mul (by norm_num)]
      norm_num [Real.rpow_neg]
    refine le_of_pow_le_pow_left₀ (n := 10) (by norm_num) (by norm_num) ?_
    rw [h1]; norm_num
  rw [hz] at this
  linarith

/-! ## C131 -/

/-- the rain rate of each method at a finite gate -/
noncomputable def rateR (P : Params ℝ) (a b d z k : ℝ) (m : Int) : ℝ :=
  if m = 1 then P.rKdpZdrA * k ^ P.rKdpZdrB * 10 ^ (P.rKdpZdrC * z)
  else if m = 2 then P.rKdpA * k ^ P.rKdpB
  else if m = 3 then P.rZZdrA * (10 ^ (d / 10)) ^ P.rZZdrB * 10 ^ (P.rZZdrC * z)
  else if m = 4 then (10 ^ (min d P.threshNexrad / 10) / P.rZA) ^ (1 / P.rZB)
  else if m = 5 then (10 ^ (min (a * zdpR d z + b) P.threshNexrad / 10) / P.rZA) ^ (1 / P.rZB)
  else 0

theorem rate_closed (P : Params ℝ) (hP : Sane P) (a b d z k : ℝ) (m : Int) (hk : m = 1 ∨ m = 2 → 0 < k) :
    rate P.toXR P.toXR.threshNexrad (fin a) (fin b) (fin d) (fin z) (fin k) m = fin (rateR P a b d z k m) := by
  have h10 : ∀ c y : ℝ, ((10 : XR) ^ (fin c * fin y)) = fin ((10 : ℝ) ^ (c * y)) := by
    intro c y; simp only [foflit, fmul]; rw [fpow (by norm_num)]
  simp only [rate, rateR, Params.toXR]
  split_ifs with h1 h2 h3 h4 h5
  · rw [h10, fpow (hk (.inl h1)), fmul, fmul]
  · rw [fpow (hk (.inr h2)), fmul]
  · rw [h10, lin_fin, fpow (lin_pos d), fmul, fmul]
  · rw [rZRcap_fin hP.za hP.zb]
  · rw [zRain_closed, flog10 (Real.rpow_pos_of_pos (by norm_num) _), foflit, fmul, rZRcap_fin hP.za hP.zb, logb_ten]
    congr 6; ring
  · simp

theorem zdpR_mono {d d' z : ℝ} (h : d ≤ d') : zdpR d z ≤ zdpR d' z := by
  unfold zdpR
  split_ifs
  · exact le_rfl
  · linarith

theorem zr_mono {c e : ℝ} (hc : 0 < c) (he : 0 < e) (cap : ℝ) {x y : ℝ} (h : x ≤ y) :
    ((10 : ℝ) ^ (min x cap / 10) / c) ^ (1 / e) ≤ ((10 : ℝ) ^ (min y cap / 10) / c) ^ (1 / e) := by
  apply Real.rpow_le_rpow (div_nonneg (lin_pos _).le hc.le) _ (by positivity)
  apply div_le_div_of_nonneg_right _ hc.le
  exact Real.rpow_le_rpow_of_exponent_le (by norm_num) (by have := min_le_min_right cap h; linarith)

/-- coefficients for which every relation increases with reflectivity and Kdp and none of those using zdr increases with it -/
structure Increasing (P : Params ℝ) : Prop extends Sane P where
  kb : 0 ≤ P.rKdpB
  kzb : 0 ≤ P.rKdpZdrB
  zzb : 0 ≤ P.rZZdrB
  kzc : P.rKdpZdrC ≤ 0
  zzc : P.rZZdrC ≤ 0

theorem rateR_nonneg (P : Params ℝ) (hP : Sane P) (a b d z k : ℝ) (m : Int) (hk : m = 1 ∨ m = 2 → 0 < k) : 0 ≤ rateR P a b d z k m := by
  have hpos : ∀ c : ℝ, (0 : ℝ) ≤ 10 ^ c := fun c => (Real.rpow_pos_of_pos (by norm_num) _).le
  unfold rateR
  split_ifs with h1 h2 h3 h4 h5
  · exact mul_nonneg (mul_nonneg hP.kza (Real.rpow_nonneg (hk (.inl h1)).le _)) (hpos _)
  · exact mul_nonneg hP.ka (Real.rpow_nonneg (hk (.inr h2)).le _)
  · exact mul_nonneg (mul_nonneg hP.zza (Real.rpow_nonneg (lin_pos d).le _)) (hpos _)
  · exact Real.rpow_nonneg (div_nonneg (hpos _) hP.za.le) _
  · exact Real.rpow_nonneg (div_nonneg (hpos _) hP.za.le) _
  · exact le_rfl

theorem rateR_mono (P : Params ℝ) (hP : Increasing P) (a b : ℝ) (ha : 0 ≤ a) {d d' z z' k k' : ℝ} (m : Int) (hk : m = 1 ∨ m = 2 → 0 < k)
    (hd : d ≤ d') (hkk : k ≤ k') (hz : m = 1 ∨ m = 3 → z' ≤ z) (hz5 : m = 5 → z' = z) : rateR P a b d z k m ≤ rateR P a b d' z' k' m := by
  have hpos : ∀ c : ℝ, (0 : ℝ) ≤ 10 ^ c := fun c => (Real.rpow_pos_of_pos (by norm_num) _).le
  unfold rateR
  split_ifs with h1 h2 h3 h4 h5
  · have hk0 := hk (.inl h1)
    refine mul_le_mul (mul_le_mul_of_nonneg_left (Real.rpow_le_rpow hk0.le hkk hP.kzb) hP.kza) ?_ (hpos _)
      (mul_nonneg hP.kza (Real.rpow_nonneg (hk0.le.trans hkk) _))
    exact Real.rpow_le_rpow_of_exponent_le (by norm_num) (mul_le_mul_of_nonpos_left (hz (.inl h1)) hP.kzc)
  · exact mul_le_mul_of_nonneg_left (Real.rpow_le_rpow (hk (.inr h2)).le hkk hP.kb) hP.ka
  · refine mul_le_mul (mul_le_mul_of_nonneg_left (Real.rpow_le_rpow (hpos _) ?_ hP.zzb) hP.zza) ?_ (hpos _)
      (mul_nonneg hP.zza (Real.rpow_nonneg (hpos _) _))
    · exact Real.rpow_le_rpow_of_exponent_le (by norm_num) (by linarith)
    · exact Real.rpow_le_rpow_of_exponent_le (by norm_num) (mul_le_mul_of_nonpos_left (hz (.inr h3)) hP.zzc)
  · exact zr_mono hP.za hP.zb _ hd
  · rw [hz5 h5]
    exact zr_mono hP.za hP.zb _ (by have := mul_le_mul_of_nonneg_left (zdpR_mono (z := z) hd) ha; linarith)
  · exact le_rfl

theorem store_mono (t : DType) {x y : ℝ} (hx : 0 ≤ x) (h : x ≤ y) : ∃ u v : ℝ, Common.store t (fin x) = fin u ∧ Common.store t (fin y) = fin v ∧ u ≤ v := by
  cases t
  · refine ⟨(truncR x : ℤ), (truncR y : ℤ), by simp [Common.store], by simp [Common.store], ?_⟩
    simp only [truncR, hx, hx.trans h, if_true]
    exact_mod_cast Int.floor_le_floor h
  · exact ⟨x, y, rfl, rfl, h⟩

/-- C131 in full: with default parameters, of two finite gates with the same zdr the one with the larger (or equal) reflectivity and Kdp gets the larger (or
equal) rain rate. -/
def C131Full : Prop := ∀ (band : String) (d z k r : NdArray XR) (m : NdArray Int),
  calcBlendedRain Params.default band false (some (.arr d)) (some (.arr z)) (some (.arr k)) = .ok (some (.arr r m none)) →
  ∀ (i j : Nat) (d1 d2 zz k1 k2 x y : ℝ), d.data[i]? = some (fin d1) → d.data[j]? = some (fin d2) → z.data[i]? = some (fin zz) → z.data[j]? = some (fin zz) →
    k.data[i]? = some (fin k1) → k.data[j]? = some (fin k2) → d1 ≤ d2 → k1 ≤ k2 → r.data[i]? = some (fin x) → r.data[j]? = some (fin y) → x ≤ y

/-- **C131**, what holds: among gates given the same method, the rain rate never decreases with reflectivity or Kdp and (methods 1 and 3) never increases with
zdr; for every band, any coefficients of the usual signs and any rain line that does not fall; also for integer rain arrays. -/
theorem C131_same_method_partial (P : Params ℝ) (hP : Increasing P) (band : String) (a b : ℝ) (ha : 0 ≤ a) (hf : IsRainLine P.toXR (fin a) (fin b))
    (d z k : NdArray XR) (hs : SameShape d z k) :
    ∃ r m, calcBlendedRain P.toXR band false (some (.arr d)) (some (.arr z)) (some (.arr k)) = .ok (some (.arr r m none)) ∧
      ∀ (i j : Nat) (d1 d2 z1 z2 k1 k2 : ℝ), d.data[i]? = some (fin d1) → d.data[j]? = some (fin d2) → z.data[i]? = some (fin z1) →
        z.data[j]? = some (fin z2) → k.data[i]? = some (fin k1) → k.data[j]? = some (fin k2) → d1 ≤ d2 → k1 ≤ k2 →
        ∀ mm : Int, m.data[i]? = some mm → m.data[j]? = some mm → (mm = 1 ∨ mm = 3 → z2 ≤ z1) → (mm = 5 → z2 = z1) →
        ∃ x y : ℝ, r.data[i]? = some (fin x) ∧ r.data[j]? = some (fin y) ∧ x ≤ y := by
  by_cases hb : band = "S"
  · subst hb
    obtain ⟨r, m, e1, e2, e3, e4, e5, e6⟩ := C38_blended_S_exact P.toXR (fin a) (fin b) hf d z k hs
    refine ⟨r, m, e1, fun i j d1 d2 z1 z2 k1 k2 p1 p2 p3 p4 p5 p6 hd hk mm m1 m2 q1 q5 => ?_⟩
    obtain ⟨a1, a2⟩ := e6 i _ _ _ p1 p3 p5
    obtain ⟨b1, b2⟩ := e6 j _ _ _ p2 p4 p6
    rw [a1] at m1
    rw [b1] at m2
    rw [Option.some.inj m1] at a2
    rw [Option.some.inj m2] at b2
    have hkp : mm = 1 ∨ mm = 2 → 0 < k1 := by
      intro hm
      have m1 := Option.some.inj m1
      simp only [methodS] at m1
      by_contra hcon
      have hc2 : (P.toXR.threshKdp <=. fin k1) = false := by
        show (fin P.threshKdp <=. fin k1) = false
        have := hP.kdp
        rw [fle]; simp only [decide_eq_false_iff_not]; linarith
      simp only [hc2, Bool.and_false] at m1
      revert m1
      split_ifs <;> intro m1 <;> subst m1 <;> simp_all
    rw [rate_closed P hP.toSane _ _ _ _ _ _ hkp] at a2
    rw [rate_closed P hP.toSane _ _ _ _ _ _ (fun h => (hkp h).trans_le hk)] at b2
    obtain ⟨u, v, hu, hv, huv⟩ := store_mono d.dtype (rateR_nonneg P hP.toSane a b d1 z1 k1 mm hkp)
      (rateR_mono P hP a b ha mm hkp hd hk q1 q5)
    exact ⟨u, v, by rw [a2, hu], by rw [b2, hv], huv⟩
  · obtain ⟨r, m, e1, e2, e3, e4, e5, e6⟩ := C39_blended_other_exact P.toXR band hb false d z k hs
    refine ⟨r, m, e1, fun i j d1 d2 z1 z2 k1 k2 p1 p2 p3 p4 p5 p6 hd hk mm m1 m2 q1 q5 => ?_⟩
    obtain ⟨a1, a2⟩ := e6 i _ _ p1 p5
    obtain ⟨b1, b2⟩ := e6 j _ _ p2 p6
    rw [a1] at m1
    rw [b1] at m2
    have m1 := Option.some.inj m1
    have m2 := Option.some.inj m2
    by_cases h1 : ((P.toXR.threshDz <=. fin d1) && (P.toXR.threshKdp <=. fin k1)) = true
    · have h2 : ((P.toXR.threshDz <=. fin d2) && (P.toXR.threshKdp <=. fin k2)) = true := by
        by_contra hc
        rw [if_pos h1] at m1; rw [if_neg hc] at m2
        rw [← m1] at m2; cases m2
      rw [if_pos h1] at a2
      rw [if_pos h2] at b2
      have hk1 : 0 < k1 := by
        have := (Bool.and_eq_true _ _ ▸ h1).2
        have h3 : (fin P.threshKdp <=. fin k1) = true := this
        rw [fle, decide_eq_true_eq] at h3
        exact hP.kdp.trans_le h3
      have e : ∀ q : ℝ, 0 < q → P.toXR.rKdpA * fin q ^ P.toXR.rKdpB = fin (P.rKdpA * q ^ P.rKdpB) := by
        intro q hq
        show fin P.rKdpA * fin q ^ fin P.rKdpB = _
        rw [fpow hq, fmul]
      rw [e _ hk1] at a2
      rw [e _ (hk1.trans_le hk)] at b2
      obtain ⟨u, v, hu, hv, huv⟩ := store_mono d.dtype (mul_nonneg hP.ka (Real.rpow_nonneg hk1.le P.rKdpB))
        (mul_le_mul_of_nonneg_left (Real.rpow_le_rpow hk1.le hk hP.kb) hP.ka)
      exact ⟨u, v, by rw [a2, hu], by rw [b2, hv], huv⟩
    · have h2 : ¬ ((P.toXR.threshDz <=. fin d2) && (P.toXR.threshKdp <=. fin k2)) = true := by
        intro hc
        rw [if_neg h1] at m1; rw [if_pos hc] at m2
        rw [← m1] at m2; cases m2
      rw [if_neg h1] at a2
      rw [if_neg h2] at b2
      have e : ∀ q : ℝ, rZRcap P.toXR.threshNexrad P.toXR.rZA P.toXR.rZB (fin q) =
          fin (((10 : ℝ) ^ (min q P.threshNexrad / 10) / P.rZA) ^ (1 / P.rZB)) := fun q => rZRcap_fin hP.za hP.zb _ _
      rw [e] at a2 b2
      obtain ⟨u, v, hu, hv, huv⟩ := store_mono d.dtype (Real.rpow_nonneg (div_nonneg (lin_pos _).le hP.za.le) _) (zr_mono hP.za hP.zb P.threshNexrad hd)
      exact ⟨u, v, by rw [a2, hu], by rw [b2, hv], huv⟩

theorem default_increasing : Increasing realDefault := { C40_defaults_sane.2 with kb := by norm_num [realDefault], kzb := by norm_num [realDefault], zzb := by norm_num [realDefault], kzc := by norm_num [realDefault], zzc := by norm_num [realDefault] }

/-- R(Z) at the cap of 53 dBZ exceeds 41 mm/h -/
theorem cap_rate : (41 : ℝ) < (10 ^ ((53 : ℝ) / 10) / 300) ^ (1 / 1.4 : ℝ) := by
  have h1 : (300 : ℝ) ≤ 10 ^ ((53 : ℝ) / 10) / 300 := by
    rw [le_div_iff₀ (by norm_num)]
    have : (10 : ℝ) ^ (5 : ℝ) ≤ 10 ^ ((53 : ℝ) / 10) := Real.rpow_le_rpow_of_exponent_le (by norm_num) (by norm_num)
    have h5 : (10 : ℝ) ^ (5 : ℝ) = 100000 := by
      rw [show (5 : ℝ) = ((5 : ℕ) : ℝ) by norm_num, Real.rpow_natCast]; norm_num
    rw [h5] at this
    linarith
  have h2 : (41 : ℝ) ^ (1.5 : ℝ) < 300 := by
    have h0 : (0 : ℝ) ≤ 41 ^ (1.5 : ℝ) := Real.rpow_nonneg (by norm_num) _
    have : ((41 : ℝ) ^ (1.5 : ℝ)) ^ (2 : ℕ) = 68921 := by
      rw [← Real.rpow_natCast, ← Real.rpow_mul (by norm_num), show (1.5 : ℝ) * ((2 : ℕ) : ℝ) = ((3 : ℕ) : ℝ) by norm_num, Real.rpow_natCast]; norm_num
    nlinarith
  have h3 : (41 : ℝ) ^ (1.4 : ℝ) < 300 := lt_of_le_of_lt (Real.rpow_le_rpow_of_exponent_le (by norm_num) (by norm_num)) h2
  calc (41 : ℝ) = ((41 : ℝ) ^ (1.4 : ℝ)) ^ (1 / 1.4 : ℝ) := by rw [← Real.rpow_mul (by norm_num)]; norm_num
    _ < 300 ^ (1 / 1.4 : ℝ) := Real.rpow_lt_rpow (Real.rpow_nonneg (by norm_num) _) h3 (by norm_num)
    _ ≤ _ := Real.rpow_le_rpow (by norm_num) h1 (by norm_num)

/-- **C131** is false of the code: at 53 dBZ, raising Kdp from 0.2 to 0.3 (band C) lowers the rain rate from over 41 to at most 40.5 mm/h, because the method
changes from R(Z) to R(Kdp). -/
theorem C131_full_false : ¬ C131Full := by
  intro h
  have hs : SameShape (⟨.float, [2], [fin 53, fin 53]⟩ : NdArray XR) (⟨.float, [2], [fin 1, fin 1]⟩ : NdArray XR)
      (⟨.float, [2], [fin 0.2, fin 0.3]⟩ : NdArray XR) := ⟨rfl, rfl, rfl, rfl, rfl⟩
  obtain ⟨r, m, e1, e2, e3, e4, e5, e6⟩ := C39_blended_other_exact realDefault.toXR "C" (by decide) false _ _ _ hs
  rw [← C40_defaults_sane.1] at e1
  obtain ⟨-, a2⟩ := e6 0 _ _ rfl rfl
  obtain ⟨-, b2⟩ := e6 1 _ _ rfl rfl
  have h1 : ¬ ((realDefault.toXR.threshDz <=. fin 53) && (realDefault.toXR.threshKdp <=. fin 0.2)) = true := by
    simp [Params.toXR, realDefault]; norm_num
  have h2 : ((realDefault.toXR.threshDz <=. fin 53) && (realDefault.toXR.threshKdp <=. fin 0.3)) = true := by
    simp [Params.toXR, realDefault]; norm_num
  rw [if_neg h1, show rZRcap realDefault.toXR.threshNexrad realDefault.toXR.rZA realDefault.toXR.rZB (fin 53) =
    fin (((10 : ℝ) ^ (min 53 53 / 10 : ℝ) / 300) ^ (1 / 1.4 : ℝ)) from rZRcap_fin (a := 300) (b := 1.4) (by norm_num) (by norm_num) 53 53, min_self] at a2
  rw [if_pos h2, show realDefault.toXR.rKdpA * fin 0.3 ^ realDefault.toXR.rKdpB = fin (40.5 * 0.3 ^ (0.85 : ℝ)) by
    show fin 40.5 * fin 0.3 ^ fin 0.85 = _
    rw [fpow (by norm_num), fmul]] at b2
  have := h "C" _ _ _ r m e1 0 1 53 53 1 0.2 0.3 _ _ rfl rfl rfl rfl rfl rfl le_rfl (by norm_num) a2 b2
  have h3 := cap_rate
  have h4 : (0.3 : ℝ) ^ (0.85 : ℝ) ≤ 1 := Real.rpow_le_one (by norm_num) (by norm_num) (by norm_num)
  linarith

/-- The hypotheses of `C131_same_method_partial` and `C130_ice_fraction_partial` are met: default parameters (their rain line rises), two gates that both
get method 4 at band C. -/
example : ∃ r m, calcBlendedRain realDefault.toXR "C" false (some (.arr ⟨.float, [2], [fin 20, fin 30]⟩)) (some (.arr ⟨.float, [2], [fin 1, fin 2]⟩))
      (some (.arr ⟨.float, [2], [fin 0, fin 0]⟩)) = .ok (some (.arr r m none)) ∧ ∃ x y : ℝ, r.data[0]? = some (fin x) ∧ r.data[1]? = some (fin y) ∧ x ≤ y := by
  have hs : SameShape (⟨.float, [2], [fin 20, fin 30]⟩ : NdArray XR) (⟨.float, [2], [fin 1, fin 2]⟩ : NdArray XR)
      (⟨.float, [2], [fin 0, fin 0]⟩ : NdArray XR) := ⟨rfl, rfl, rfl, rfl, rfl⟩
  have hf : IsRainLine realDefault.toXR (fin 0.9091) (fin 8.5091) := .inr (.inr (.inl ⟨rfl, rfl, by simp, by simp⟩))
  obtain ⟨r, m, e1, h⟩ := C131_same_method_partial realDefault default_increasing "C" 0.9091 8.5091 (by norm_num) hf _ _ _ hs
  obtain ⟨r', m', e1', -, -, -, -, h'⟩ := C39_blended_other_exact realDefault.toXR "C" (by decide) false _ _ _ hs
  rw [e1] at e1'
  cases e1'
  have hm : ∀ q : ℝ, (if (realDefault.toXR.threshDz <=. fin q) && (realDefault.toXR.threshKdp <=. fin 0) then 2 else 4 : Int) = 4 := by
    intro q
    have : (realDefault.toXR.threshKdp <=. fin 0) = false := by
      show (fin 0.3 <=. fin 0) = false
      rw [fle]; norm_num
    rw [this]; simp
  refine ⟨r, m, e1, h 0 1 20 30 1 2 0 0 rfl rfl rfl rfl rfl rfl (by norm_num) le_rfl 4 ?_ ?_ (by norm_num) (by norm_num)⟩
  · rw [(h' 0 _ _ rfl rfl).1, hm]
  · rw [(h' 1 _ _ rfl rfl).1, hm]

end Csu.Rain
