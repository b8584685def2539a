import Verif.Lemmas.Rain
import Verif.QFloat
import Verif.XReal
/-!
# Properties C38 - C48: blended, hydrometeor-guided and tropical rain

The per-gate specification is `Verif/Spec/Rain.lean`.
-/
namespace Csu.Rain
open Csu PyFloat Csu.RainSpec
variable {α : Type} [PyFloat α]

/-! ## C38, C39 -/

/-- **C38.** S band, arrays of one shape, any rain line: rain and method arrays keep the shape, the method of every
gate is the documented one and the rain rate is that method's formula (stored in the dtype of `dz`). -/
theorem C38_blended_S_exact (P : Params α) (fa fb : α) (hf : IsRainLine P fa fb) (d z k : NdArray α)
    (hs : SameShape d z k) :
    ∃ r m, calcBlendedRain P "S" false (some (.arr d)) (some (.arr z)) (some (.arr k)) = .ok (some (.arr r m none)) ∧
      r.shape = d.shape ∧ m.shape = d.shape ∧ r.WF ∧ m.WF ∧
      ∀ (i : Nat) (dv zv kv : α), d.data[i]? = some dv → z.data[i]? = some zv → k.data[i]? = some kv →
        m.data[i]? = some (methodS P fa fb dv zv kv) ∧
        r.data[i]? = some (Common.store d.dtype
          (rate P P.threshNexrad fa fb dv zv kv (methodS P fa fb dv zv kv))) := by
  obtain ⟨hl1, hl2⟩ := SameShape.lengths hs
  obtain ⟨gs, h1, h2, h3⟩ := exists_gates3 d.data z.data k.data hl1 hl2
  have hlen : gs.length = d.data.length := by rw [← h1]; simp
  have key := blendedArr_S P fa fb (rainLine_of P fa fb hf) d.dtype gs
  rw [h1, h2, h3] at key
  refine ⟨_, _, calcBlendedRain_arr hs (.inl rfl) key,
    rfl, rfl, ?_, ?_, ?_⟩
  · simpa [NdArray.WF, hlen] using hs.1
  · simpa [NdArray.WF, hlen] using hs.1
  · intro i dv zv kv hd hz hk
    have hg := gate_of_cols h1 h2 h3 hd hz hk
    simp [hg]

/-- **C38.** The code is one of 1..5 for every gate whatever its values (NaN included). -/
theorem C38_method_range (P : Params α) (fa fb d z k : α) :
    methodS P fa fb d z k ∈ ([1, 2, 3, 4, 5] : List Int) := by
  simp only [methodS]; split_ifs <;> simp

/-- **C38**, error branch: `fit_a` without `fit_b` raises TypeError at S band. -/
theorem C38_fit_a_without_fit_b (P : Params α) (a : α) (h1 : P.fitA = some a) (h2 : P.fitB = none) (ice : Bool)
    (d z k : NdArray α) (hs : SameShape d z k) :
    calcBlendedRain P "S" ice (some (.arr d)) (some (.arr z)) (some (.arr k)) = .error .typeError := by
  simp only [calcBlendedRain, hs.2.2.2.1.symm, hs.2.2.2.2.symm, and_self, if_true, blendedArr, rainLine, h1, h2]
  rfl

/-- **C39.** Any other band: method 2 or 4 from `dz` and `kdp` alone, with its formula. -/
theorem C39_blended_other_exact (P : Params α) (band : String) (hb : band ≠ "S") (ice : Bool) (d z k : NdArray α)
    (hs : SameShape d z k) :
    ∃ r m, calcBlendedRain P band ice (some (.arr d)) (some (.arr z)) (some (.arr k)) = .ok (some (.arr r m none)) ∧
      r.shape = d.shape ∧ m.shape = d.shape ∧ r.WF ∧ m.WF ∧
      ∀ (i : Nat) (dv kv : α), d.data[i]? = some dv → k.data[i]? = some kv →
        m.data[i]? = some (if (P.threshDz <=. dv) && (P.threshKdp <=. kv) then 2 else 4) ∧
        r.data[i]? = some (Common.store d.dtype (if (P.threshDz <=. dv) && (P.threshKdp <=. kv)
          then P.rKdpA * kv ^ P.rKdpB else rZRcap P.threshNexrad P.rZA P.rZB dv)) := by
  obtain ⟨hl1, hl2⟩ := SameShape.lengths hs
  obtain ⟨gs, h1, h2, h3⟩ := exists_gates3 d.data z.data k.data hl1 hl2
  have hlen : gs.length = d.data.length := by rw [← h1]; simp
  have key := blendedArr_other P band hb d.dtype 0 0 gs
  rw [h1, h2, h3] at key
  refine ⟨_, _, calcBlendedRain_arr hs (.inr hb) key, rfl, rfl, ?_, ?_, ?_⟩
  · simpa [NdArray.WF, hlen] using hs.1
  · simpa [NdArray.WF, hlen] using hs.1
  · intro i dv kv hd hk
    obtain ⟨zv, hz⟩ : ∃ zv, z.data[i]? = some zv := by
      have : i < d.data.length := by
        by_contra hc; rw [List.getElem?_eq_none_iff.mpr (by omega)] at hd; simp at hd
      exact ⟨_, List.getElem?_eq_getElem (by omega)⟩
    have hg := gate_of_cols h1 h2 h3 hd hz hk
    simp only [List.getElem?_map, hg, Option.map_some, methodOther, rate]
    split_ifs <;> simp_all

/-- **C39.** Zdr has no influence outside S band. -/
theorem C39_zdr_irrelevant (P : Params α) (band : String) (hb : band ≠ "S") (ice : Bool) (d z z' k : NdArray α)
    (hs : SameShape d z k) (hs' : SameShape d z' k) :
    calcBlendedRain P band ice (some (.arr d)) (some (.arr z)) (some (.arr k)) =
    calcBlendedRain P band ice (some (.arr d)) (some (.arr z')) (some (.arr k)) := by
  obtain ⟨r, m, e1, e2, e3, e4, e5, e6⟩ := C39_blended_other_exact P band hb ice d z k hs
  obtain ⟨r', m', f1, f2, f3, f4, f5, f6⟩ := C39_blended_other_exact P band hb ice d z' k hs'
  simp only [calcBlendedRain, hs.2.2.2.1.symm, hs.2.2.2.2.symm, hs'.2.2.2.1.symm, and_self, if_true, blendedArr,
    if_neg hb]

/-- S band and C band on a concrete 1 x 3 array meet the hypotheses; at C band the methods are 2, 4, 4 (the last gate
has NaN Kdp). -/
example : SameShape (⟨.float, [1, 3], [45, 20, 45]⟩ : NdArray QF) (⟨.float, [1, 3], [1, 1, 1]⟩ : NdArray QF)
    (⟨.float, [1, 3], [2, 2, .nan]⟩ : NdArray QF) := by unfold SameShape; decide
example : (match calcBlendedRain (α := QF) Params.default "C" false (some (.arr ⟨.float, [1, 3], [45, 20, 45]⟩))
    (some (.arr ⟨.float, [1, 3], [1, 1, 1]⟩)) (some (.arr ⟨.float, [1, 3], [2, 2, .nan]⟩)) with
    | .ok (some (.arr _ m _)) => m.data | _ => []) = [2, 4, 4] := by decide +kernel
example : IsRainLine (Params.default : Params QF) 0.9091 8.5091 := .inr (.inr (.inl ⟨rfl, rfl, rfl, rfl⟩))

/-! ## C40: finite and nonnegative -/

/-- real-valued parameters as floats -/
noncomputable def Params.toXR (P : Params ℝ) : Params XR where
  threshDz := .fin P.threshDz
  threshZdr := .fin P.threshZdr
  threshKdp := .fin P.threshKdp
  threshFracIce := .fin P.threshFracIce
  threshNexrad := .fin P.threshNexrad
  rZA := .fin P.rZA
  rZB := .fin P.rZB
  rKdpA := .fin P.rKdpA
  rKdpB := .fin P.rKdpB
  rZZdrA := .fin P.rZZdrA
  rZZdrB := .fin P.rZZdrB
  rZZdrC := .fin P.rZZdrC
  rKdpZdrA := .fin P.rKdpZdrA
  rKdpZdrB := .fin P.rKdpZdrB
  rKdpZdrC := .fin P.rKdpZdrC
  fitA := P.fitA.map .fin
  fitB := P.fitB.map .fin
  method := P.method

/-- sane coefficients: positive Kdp threshold and Z-R coefficients, nonnegative multipliers -/
structure Sane (P : Params ℝ) : Prop where
  kdp : 0 < P.threshKdp
  za : 0 < P.rZA
  zb : 0 < P.rZB
  ka : 0 ≤ P.rKdpA
  kza : 0 ≤ P.rKdpZdrA
  zza : 0 ≤ P.rZZdrA

section numeric
open XR

theorem lin_fin (d : ℝ) : lin (fin d) = fin ((10 : ℝ) ^ (d / 10)) := by
  simp only [lin, foflit]
  rw [fdiv (by norm_num), fpow (by norm_num)]

theorem lin_pos (d : ℝ) : (0 : ℝ) < 10 ^ (d / 10) := Real.rpow_pos_of_pos (by norm_num) _

theorem rZR_fin {a b : ℝ} (ha : 0 < a) (hb : 0 < b) (d : ℝ) :
    rZR (fin a) (fin b) (fin d) = fin (((10 : ℝ) ^ (d / 10) / a) ^ (1 / b)) := by
  simp only [rZR, lin_fin, fone]
  rw [fdiv ha.ne', fdiv hb.ne', fpow (div_pos (lin_pos d) ha)]

theorem rZRcap_fin {a b : ℝ} (ha : 0 < a) (hb : 0 < b) (cap d : ℝ) :
    rZRcap (fin cap) (fin a) (fin b) (fin d) = fin (((10 : ℝ) ^ (min d cap / 10) / a) ^ (1 / b)) := by
  simp only [rZRcap, flt, decide_eq_true_eq]
  split
  next h => rw [rZR_fin ha hb, min_eq_right h.le]
  next h => rw [rZR_fin ha hb, min_eq_left (not_lt.mp h)]

theorem zdpDb_fin (d z : ℝ) : ∃ x : ℝ, zdpDb (fin d) (fin z) = fin x := by
  simp only [zdpDb, lin_fin]
  rw [fdiv (lin_pos z).ne']
  simp only [fsub, fzero, fle, decide_eq_true_eq, fsci, foflit]
  split
  next h => rw [flog10 (by norm_num)]; exact ⟨_, rfl⟩
  next h => rw [flog10 (not_le.mp h)]; exact ⟨_, rfl⟩

theorem zRain_fin (fa fb d z : ℝ) : ∃ x : ℝ, 0 < x ∧ zRain (fin fa) (fin fb) (fin d) (fin z) = fin x := by
  obtain ⟨x, hx⟩ := zdpDb_fin d z
  refine ⟨10 ^ ((fa * x + fb) / 10), Real.rpow_pos_of_pos (by norm_num) _, ?_⟩
  simp only [zRain, hx, fmul, fadd, foflit]
  rw [fdiv (by norm_num), fpow (by norm_num)]

theorem trunc_nonneg {x : ℝ} (h : 0 ≤ x) : 0 ≤ truncR x := by
  simp only [truncR, h, if_true]; exact Int.floor_nonneg.mpr h

theorem store_fin (t : DType) {x : ℝ} (h : 0 ≤ x) : ∃ y : ℝ, 0 ≤ y ∧ Common.store t (fin x) = fin y := by
  cases t
  · exact ⟨(truncR x : ℤ), by exact_mod_cast trunc_nonneg h, by simp [Common.store]⟩
  · exact ⟨x, h, rfl⟩

/-- rates at the methods that can be selected -/
theorem rate_fin (P : Params ℝ) (hP : Sane P) (cap fa fb d z : ℝ) (k : XR)
    (m : ℤ) (hk : m = 1 ∨ m = 2 → ∃ r : ℝ, 0 < r ∧ k = fin r) :
    ∃ x : ℝ, 0 ≤ x ∧ rate P.toXR (fin cap) (fin fa) (fin fb) (fin d) (fin z) k m = fin x := by
  have h10 : ∀ c y : ℝ, ((10 : XR) ^ (fin c * fin y)) = fin ((10 : ℝ) ^ (c * y)) := by
    intro c y; simp only [foflit, fmul]; rw [fpow (by norm_num)]
  have hpos : ∀ c : ℝ, (0 : ℝ) ≤ 10 ^ c := fun c => (Real.rpow_pos_of_pos (by norm_num) _).le
  simp only [rate, Params.toXR]
  split_ifs with h1 h2 h3 h4 h5
  · obtain ⟨r, hr, rfl⟩ := hk (.inl h1)
    rw [h10, fpow hr]
    exact ⟨_, mul_nonneg (mul_nonneg hP.kza (Real.rpow_nonneg hr.le _)) (hpos _), rfl⟩
  · obtain ⟨r, hr, rfl⟩ := hk (.inr h2)
    rw [fpow hr]
    exact ⟨_, mul_nonneg hP.ka (Real.rpow_nonneg hr.le _), rfl⟩
  · rw [h10, lin_fin, fpow (lin_pos d)]
    exact ⟨_, mul_nonneg (mul_nonneg hP.zza (Real.rpow_nonneg (lin_pos d).le _)) (hpos _), rfl⟩
  · rw [rZRcap_fin hP.za hP.zb]
    exact ⟨_, Real.rpow_nonneg (div_nonneg (lin_pos _).le hP.za.le) _, rfl⟩
  · obtain ⟨x, hx, e⟩ := zRain_fin fa fb d z
    rw [e, flog10 hx, foflit, fmul, rZRcap_fin hP.za hP.zb]
    exact ⟨_, Real.rpow_nonneg (div_nonneg (lin_pos _).le hP.za.le) _, rfl⟩
  · exact ⟨0, le_refl _, by simp⟩

theorem kdp_big {t : ℝ} (ht : 0 < t) {k : XR} (hk : k = XR.nan ∨ ∃ r : ℝ, k = fin r) (h : (fin t <=. k) = true) :
    ∃ r : ℝ, 0 < r ∧ k = fin r := by
  rcases hk with rfl | ⟨r, rfl⟩
  · simp at h
  · exact ⟨r, ht.trans_le (by simpa using h), rfl⟩

/-- the rain line of real parameters is real -/
theorem rainLine_real (P : Params ℝ) (fa fb : XR) (h : IsRainLine P.toXR fa fb) :
    ∃ a b : ℝ, fa = fin a ∧ fb = fin b := by
  rcases h with ⟨h1, h2⟩ | ⟨_, _, rfl, rfl⟩ | ⟨_, _, rfl, rfl⟩ | ⟨_, _, _, rfl, rfl⟩
  · simp only [Params.toXR, Option.map_eq_some_iff] at h1 h2
    obtain ⟨a, _, rfl⟩ := h1
    obtain ⟨b, _, rfl⟩ := h2
    exact ⟨a, b, rfl, rfl⟩
  · exact ⟨_, _, fsci .., fsci ..⟩
  · exact ⟨_, _, fsci .., fsci ..⟩
  · exact ⟨_, _, fsci .., foflit ..⟩

/-- **C40.** For all sane real coefficients, every band, finite `dz` and `zdr`, and `kdp` finite (any sign) or NaN, the
rain rate is a finite nonnegative number, for float and for integer rain arrays. -/
theorem C40_rain_finite_nonneg (P : Params ℝ) (hP : Sane P) (band : String) (fa fb : XR)
    (hf : IsRainLine P.toXR fa fb) (d z k : NdArray XR) (hs : SameShape d z k)
    (hd : ∀ x ∈ d.data, ∃ r : ℝ, x = fin r) (hz : ∀ x ∈ z.data, ∃ r : ℝ, x = fin r)
    (hk : ∀ x ∈ k.data, x = XR.nan ∨ ∃ r : ℝ, x = fin r) :
    ∃ r m, calcBlendedRain P.toXR band false (some (.arr d)) (some (.arr z)) (some (.arr k)) =
        .ok (some (.arr r m none)) ∧ r.shape = d.shape ∧
      ∀ x ∈ r.data, ∃ v : ℝ, 0 ≤ v ∧ x = fin v := by
  obtain ⟨a, b, rfl, rfl⟩ := rainLine_real P fa fb hf
  obtain ⟨hl1, hl2⟩ := SameShape.lengths hs
  have hall : ∀ (r : NdArray XR), r.WF → r.shape = d.shape →
      (∀ (i : Nat) (dv zv kv : XR), d.data[i]? = some dv → z.data[i]? = some zv → k.data[i]? = some kv →
        ∃ x, r.data[i]? = some x ∧ ∃ v : ℝ, 0 ≤ v ∧ x = fin v) → ∀ x ∈ r.data, ∃ v : ℝ, 0 ≤ v ∧ x = fin v := by
    intro r hr hrs h x hx
    obtain ⟨i, hi⟩ := List.mem_iff_getElem?.mp hx
    have hlen : r.data.length = d.data.length := by
      have := hs.1; rw [NdArray.WF] at hr this; rw [hr, this, hrs]
    have hil : i < r.data.length := by
      by_contra hc; rw [List.getElem?_eq_none_iff.mpr (by omega)] at hi; simp at hi
    obtain ⟨y, hy, hv⟩ := h i _ _ _ (List.getElem?_eq_getElem (by omega)) (List.getElem?_eq_getElem (by omega))
      (List.getElem?_eq_getElem (by omega))
    rw [hi] at hy; cases hy; exact hv
  by_cases hb : band = "S"
  · subst hb
    obtain ⟨r, m, e1, e2, e3, e4, e5, e6⟩ := C38_blended_S_exact P.toXR (fin a) (fin b) hf d z k hs
    refine ⟨r, m, e1, e2, hall r e4 e2 ?_⟩
    intro i dv zv kv h1 h2 h3
    obtain ⟨dr, rfl⟩ := hd _ (List.mem_of_getElem? h1)
    obtain ⟨zr, rfl⟩ := hz _ (List.mem_of_getElem? h2)
    have hkk := hk _ (List.mem_of_getElem? h3)
    obtain ⟨x, hx, ex⟩ := rate_fin P hP P.threshNexrad a b dr zr kv
      (methodS P.toXR (fin a) (fin b) (fin dr) (fin zr) kv) (by
        intro hm
        apply kdp_big hP.kdp hkk
        simp only [methodS] at hm
        by_contra hcon
        have hc2 : (P.toXR.threshKdp <=. kv) = false := by simpa [Params.toXR] using hcon
        simp only [hc2, Bool.and_false] at hm
        revert hm
        split_ifs <;> simp_all)
    obtain ⟨y, hy, ey⟩ := store_fin d.dtype hx
    exact ⟨_, (e6 i _ _ _ h1 h2 h3).2, y, hy, by
      have : (P.toXR.threshNexrad) = fin P.threshNexrad := rfl
      rw [this, ex, ey]⟩
  · obtain ⟨r, m, e1, e2, e3, e4, e5, e6⟩ := C39_blended_other_exact P.toXR band hb false d z k hs
    refine ⟨r, m, e1, e2, hall r e4 e2 ?_⟩
    intro i dv zv kv h1 h2 h3
    obtain ⟨dr, rfl⟩ := hd _ (List.mem_of_getElem? h1)
    have hkk := hk _ (List.mem_of_getElem? h3)
    refine ⟨_, (e6 i _ _ h1 h3).2, ?_⟩
    split
    next h =>
      obtain ⟨q, hq, rfl⟩ := kdp_big hP.kdp hkk (by
        rw [Bool.and_eq_true] at h; exact h.2)
      have : P.toXR.rKdpA * fin q ^ P.toXR.rKdpB = fin (P.rKdpA * q ^ P.rKdpB) := by
        show fin P.rKdpA * fin q ^ fin P.rKdpB = _
        rw [fpow hq, fmul]
      rw [this]
      exact (store_fin d.dtype (mul_nonneg hP.ka (Real.rpow_nonneg hq.le _))).imp fun _ h => ⟨h.1, h.2⟩
    next h =>
      have : rZRcap P.toXR.threshNexrad P.toXR.rZA P.toXR.rZB (fin dr) =
          fin (((10 : ℝ) ^ (min dr P.threshNexrad / 10) / P.rZA) ^ (1 / P.rZB)) := rZRcap_fin hP.za hP.zb _ _
      rw [this]
      exact (store_fin d.dtype (Real.rpow_nonneg (div_nonneg (lin_pos _).le hP.za.le) _)).imp fun _ h => ⟨h.1, h.2⟩

/-- the defaults as real parameters -/
noncomputable def realDefault : Params ℝ where
  threshDz := 38
  threshZdr := 0.5
  threshKdp := 0.3
  threshFracIce := 0.1
  threshNexrad := 53
  rZA := 300
  rZB := 1.4
  rKdpA := 40.5
  rKdpB := 0.85
  rZZdrA := 0.0067
  rZZdrB := 0.927
  rZZdrC := -0.343
  rKdpZdrA := 90.8
  rKdpZdrB := 0.93
  rKdpZdrC := -0.169
  fitA := none
  fitB := none
  method := "cr1995"

/-- **C40** covers the default coefficients: they are sane real parameters. -/
theorem C40_defaults_sane : (Params.default : Params XR) = realDefault.toXR ∧ Sane realDefault := by
  constructor
  · simp [Params.default, realDefault, Params.toXR]
  · constructor <;> norm_num [realDefault]

/-- a gate with negative Kdp (whose power is NaN) next to one with NaN Kdp meets the hypotheses of C40 -/
example : SameShape (⟨.float, [2], [fin 45, fin 20]⟩ : NdArray XR) (⟨.float, [2], [fin 1, fin (-1)]⟩ : NdArray XR)
    (⟨.float, [2], [fin (-1), XR.nan]⟩ : NdArray XR) ∧
    (∀ x ∈ [fin (-1), XR.nan], x = XR.nan ∨ ∃ r : ℝ, x = fin r) ∧ ((fin (-1) : XR) ^ (fin 0.85) = XR.nan) := by
  refine ⟨⟨rfl, rfl, rfl, rfl, rfl⟩, by simp, ?_⟩
  rw [fpow_def, powFin, if_neg (by norm_num), if_neg (by norm_num), if_neg]
  have : ⌊(0.85 : ℝ)⌋ = 0 := by rw [Int.floor_eq_iff]; norm_num
  rw [this]; norm_num

/-! ## C41: the cap -/

/-- **C41.** `calc_rain_nexrad` on an array: each element is the rate of `min(dz, cap)`; so it never exceeds the rate at
the cap, equals the uncapped relation up to the cap and never decreases with `dz`. -/
theorem C41_nexrad_cap (a b cap : ℝ) (ha : 0 < a) (hb : 0 < b) (dz : List ℝ) (i : Nat) (d : ℝ)
    (hd : dz[i]? = some d) :
    ∃ R : ℝ → ℝ,
      (∀ x, Common.calcRainZr (fin a) (fin b) (fin x) = fin (R x)) ∧
      (Common.calcRainNexrad (dz.map fin) (fin cap) (fin a) (fin b))[i]? = some (fin (R (min d cap))) ∧
      R (min d cap) ≤ R cap ∧ (d ≤ cap → R (min d cap) = R d) ∧
      (∀ e, d ≤ e → R (min d cap) ≤ R (min e cap)) := by
  have mono : ∀ x y : ℝ, x ≤ y → ((10 : ℝ) ^ (x / 10) / a) ^ (1 / b) ≤ ((10 : ℝ) ^ (y / 10) / a) ^ (1 / b) := by
    intro x y h
    apply Real.rpow_le_rpow (div_nonneg (lin_pos x).le ha.le) _ (by positivity)
    apply div_le_div_of_nonneg_right _ ha.le
    exact Real.rpow_le_rpow_of_exponent_le (by norm_num) (by linarith)
  refine ⟨fun x => ((10 : ℝ) ^ (x / 10) / a) ^ (1 / b), fun x => rZR_fin ha hb x, ?_, mono _ _ (min_le_right _ _),
    fun h => by rw [min_eq_left h], fun e h => mono _ _ (min_le_min_right _ h)⟩
  rw [calcRainNexrad_map, List.getElem?_map, hd, Option.map_some, rZRcap_fin ha hb]

/-- **C41** for the blended retrieval: methods 4 and 5 never exceed R(thresh_nexrad), for every finite gate. -/
theorem C41_methods_capped (P : Params ℝ) (hP : Sane P) (fa fb d z k : ℝ) (m : Int) (hm : m = 4 ∨ m = 5) :
    ∃ x : ℝ, rate P.toXR (fin P.threshNexrad) (fin fa) (fin fb) (fin d) (fin z) (fin k) m = fin x ∧
      x ≤ ((10 : ℝ) ^ (P.threshNexrad / 10) / P.rZA) ^ (1 / P.rZB) := by
  have mono : ∀ x : ℝ, ((10 : ℝ) ^ (min x P.threshNexrad / 10) / P.rZA) ^ (1 / P.rZB) ≤
      ((10 : ℝ) ^ (P.threshNexrad / 10) / P.rZA) ^ (1 / P.rZB) := by
    intro x
    apply Real.rpow_le_rpow (div_nonneg (lin_pos _).le hP.za.le) _ (by have := hP.zb; positivity)
    apply div_le_div_of_nonneg_right _ hP.za.le
    exact Real.rpow_le_rpow_of_exponent_le (by norm_num) (by have := min_le_right x P.threshNexrad; linarith)
  rcases hm with rfl | rfl
  · refine ⟨_, ?_, mono d⟩
    have e4 : rate P.toXR (fin P.threshNexrad) (fin fa) (fin fb) (fin d) (fin z) (fin k) 4 =
        rZRcap (fin P.threshNexrad) (fin P.rZA) (fin P.rZB) (fin d) := by
      rw [rate, if_neg (by decide), if_neg (by decide), if_neg (by decide), if_pos rfl]; rfl
    rw [e4]
    exact rZRcap_fin hP.za hP.zb _ _
  · obtain ⟨x, hx, e⟩ := zRain_fin fa fb d z
    refine ⟨_, ?_, mono (10 * Real.logb 10 x)⟩
    have e5 : rate P.toXR (fin P.threshNexrad) (fin fa) (fin fb) (fin d) (fin z) (fin k) 5 =
        rZRcap (fin P.threshNexrad) (fin P.rZA) (fin P.rZB) (10 * PyFloat.log10 (zRain (fin fa) (fin fb) (fin d) (fin z))) := by
      rw [rate, if_neg (by decide), if_neg (by decide), if_neg (by decide), if_neg (by decide), if_pos rfl]; rfl
    rw [e5, e, flog10 hx, foflit, fmul, rZRcap_fin hP.za hP.zb]

/-- **C41**, error branch: `calc_rain_nexrad` on a bare scalar raises TypeError, for every scalar. -/
theorem C41_nexrad_scalar_raises (t : DType) (x thresh a b : XR) :
    Common.calcRainNexradVal (.scalar t x) thresh a b = .error .typeError := rfl

example : (0 : ℝ) < 300 ∧ (0 : ℝ) < 1.4 := by norm_num
end numeric

/-! ## C42: gatewise, shapes, scalars, None -/

/-- the raveled results of a blended call; used to state C42 -/
def BlendedIs (P : Params α) (band : String) (dt : DType) (d z k : List α) (r : List α) (m : List Int)
    (ice : Option (List α × List α)) : Prop := blendedArr P band dt d z k = .ok ⟨r, m, ice⟩

/-- **C42.** Splitting the gates anywhere and joining the results gives the result of the whole call (rain, method, and at S band Zdp
and ice fraction). -/
theorem C42_blended_gatewise (P : Params α) (fa fb : α) (hf : IsRainLine P fa fb) (band : String) (dt : DType)
    (d z k d' z' k' : List α) (h1 : d.length = z.length) (h2 : d.length = k.length) (h1' : d'.length = z'.length)
    (h2' : d'.length = k'.length) :
    ∃ r m ice r' m' ice', BlendedIs P band dt d z k r m ice ∧ BlendedIs P band dt d' z' k' r' m' ice' ∧
      BlendedIs P band dt (d ++ d') (z ++ z') (k ++ k') (r ++ r') (m ++ m')
        (ice.bind fun a => ice'.map fun b => (a.1 ++ b.1, a.2 ++ b.2)) := by
  obtain ⟨gs, e1, e2, e3⟩ := exists_gates3 d z k h1 h2
  obtain ⟨gs', e1', e2', e3'⟩ := exists_gates3 d' z' k' h1' h2'
  subst e1 e2 e3 e1' e2' e3'
  simp only [BlendedIs, ← List.map_append]
  by_cases hb : band = "S"
  · subst hb
    refine ⟨_, _, _, _, _, _, blendedArr_S P fa fb (rainLine_of P fa fb hf) dt gs,
      blendedArr_S P fa fb (rainLine_of P fa fb hf) dt gs', ?_⟩
    rw [blendedArr_S P fa fb (rainLine_of P fa fb hf) dt (gs ++ gs')]
    simp
  · refine ⟨_, _, _, _, _, _, blendedArr_other P band hb dt fa fb gs, blendedArr_other P band hb dt fa fb gs', ?_⟩
    rw [blendedArr_other P band hb dt fa fb (gs ++ gs')]
    simp

/-- **C42.** csu_hidro_rain on joined gates is the join of its results. -/
theorem C42_hidro_gatewise (P : Params α) (band : String) (dt : DType)
    (d z k d' z' k' : List α) (c c' : List Int) (h1 : d.length = z.length) (h2 : d.length = k.length)
    (h3 : d.length = c.length) (h1' : d'.length = z'.length) (h2' : d'.length = k'.length)
    (h3' : d'.length = c'.length) :
    hidroArr P band dt (d ++ d') (z ++ z') (k ++ k') (c ++ c') =
      ((hidroArr P band dt d z k c).1 ++ (hidroArr P band dt d' z' k' c').1,
       (hidroArr P band dt d z k c).2 ++ (hidroArr P band dt d' z' k' c').2) := by
  obtain ⟨gs, e1, e2, e3, e4⟩ := exists_gates4 d z k c h1 h2 h3
  obtain ⟨gs', e1', e2', e3', e4'⟩ := exists_gates4 d' z' k' c' h1' h2' h3'
  subst e1 e2 e3 e4 e1' e2' e3' e4'
  simp only [← List.map_append]
  by_cases hb : band = "S"
  · subst hb
    rw [hidroArr_S P dt (gs ++ gs') 0 0, hidroArr_S P dt gs 0 0, hidroArr_S P dt gs' 0 0]
    simp
  · rw [hidroArr_other P band hb dt (gs ++ gs') 0 0, hidroArr_other P band hb dt gs 0 0,
      hidroArr_other P band hb dt gs' 0 0]
    simp

/-- **C42.** Scalar input gives the scalar result of the one-gate array; `ice_flag` at S band adds Zdp and ice
fraction, and only then. -/
theorem C42_scalar (P : Params α) (fa fb : α) (hf : IsRainLine P fa fb) (dt t2 t3 : DType) (d z k : α)
    (band : String) (ice : Bool) :
    ∃ r m i, calcBlendedRain P band ice (some (.scalar dt d)) (some (.scalar t2 z)) (some (.scalar t3 k)) =
        .ok (some (.scalar r m i)) ∧
      calcBlendedRain P band ice (some (.arr ⟨dt, [1], [d]⟩)) (some (.arr ⟨t2, [1], [z]⟩))
        (some (.arr ⟨t3, [1], [k]⟩)) =
        .ok (some (.arr ⟨dt, [1], [r]⟩ ⟨.int, [1], [m]⟩
          (i.map fun p => (⟨.float, [1], [p.1]⟩, ⟨.float, [1], [p.2]⟩)))) ∧
      (i = if ice = true ∧ band = "S" then some (zdpDb d z, iceFraction fa fb d z) else none) := by
  by_cases hb : band = "S"
  · subst hb
    have key := blendedArr_S P fa fb (rainLine_of P fa fb hf) dt [(d, z, k)]
    simp only [List.map_cons, List.map_nil] at key
    cases ice
    · refine ⟨_, _, none, by simp only [calcBlendedRain, key]; rfl, ?_, by simp⟩
      simp only [calcBlendedRain, key, and_self, if_true]; rfl
    · refine ⟨_, _, some (zdpDb d z, iceFraction fa fb d z), by simp only [calcBlendedRain, key]; rfl, ?_, by simp⟩
      simp only [calcBlendedRain, key, and_self, if_true]; rfl
  · have key := blendedArr_other P band hb dt fa fb [(d, z, k)]
    simp only [List.map_cons, List.map_nil] at key
    refine ⟨_, _, none, by simp only [calcBlendedRain, key, bind, Except.bind, ne_eq, hb, not_false_eq_true,
      decide_true, Bool.or_true]; rfl, ?_, by simp [hb]⟩
    simp only [calcBlendedRain, key, and_self, if_true, bind, Except.bind, ne_eq, hb, not_false_eq_true,
      decide_true, Bool.or_true]; rfl

/-- **C42.** A missing field returns `None`. -/
theorem C42_none (P : Params α) (band : String) (ice : Bool) (dz zdr kdp : Option (PyVal α)) (fhc : Option Cls)
    (h : dz = none ∨ zdr = none ∨ kdp = none) :
    calcBlendedRain P band ice dz zdr kdp = .ok none ∧ csuHidroRain P band dz zdr kdp fhc = .ok none := by
  rcases dz with _ | (_ | _) <;> rcases zdr with _ | (_ | _) <;> rcases kdp with _ | (_ | _) <;>
    first
    | exact ⟨rfl, rfl⟩
    | simp at h

example : IsRainLine ({Params.default with fitA := some 1, fitB := some 2} : Params QF) 1 2 := .inl ⟨rfl, rfl⟩

end Csu.Rain
