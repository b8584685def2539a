import Verif.Lemmas.RainFloat
import Verif.Binary
/-!
# C40, C99 and C107 with rounding: rain rates are finite and nonnegative in floating point

Any arithmetic satisfying the laws of `IeeeFloat`; `Binary32` and `Binary64` are instances.
-/
namespace Csu.Rain
open Csu PyFloat RainSpec IeeeFloat
variable {α : Type} [IeeeFloat α]

/-- coefficients of `calc_blended_rain` for which the rates are defined: factors from 0 to `2^20`, exponents from 0 to 1, nonpositive Zdr
exponents, `Z = a R**b` with `a, b ≥ 1`, a cap of at most 200 dBZ, nonnegative thresholds of Zdr and Kdp -/
structure SaneF (P : Params α) : Prop where
  za : ∃ r : ℝ, val P.rZA = .fin r ∧ 1 ≤ r
  zb : ∃ r : ℝ, val P.rZB = .fin r ∧ 1 ≤ r
  cap : Db200 P.threshNexrad
  kdp : ∃ r : ℝ, val P.threshKdp = .fin r ∧ 0 ≤ r
  zdr : ∃ r : ℝ, val P.threshZdr = .fin r ∧ 0 ≤ r
  ka : Upto 20 (val P.rKdpA)
  kb : Upto 0 (val P.rKdpB)
  kza : Upto 20 (val P.rKdpZdrA)
  kzb : Upto 0 (val P.rKdpZdrB)
  kzc : ∃ r : ℝ, val P.rKdpZdrC = .fin r ∧ r ≤ 0
  zza : Upto 20 (val P.rZZdrA)
  zzb : Upto 0 (val P.rZZdrB)
  zzc : ∃ r : ℝ, val P.rZZdrC = .fin r ∧ r ≤ 0

/-- a finite nonnegative float -/
def FinNonneg (x : α) : Prop := ∃ r : ℝ, val x = .fin r ∧ 0 ≤ r

theorem Upto.finNonneg {i : ℤ} {x : α} (h : Upto i (val x)) : FinNonneg x := by
  obtain ⟨r, h1, h2, -⟩ := h.real
  exact ⟨r, h1, h2⟩

/-- Kdp is NaN or not above `2^60` (negative values and `-inf` allowed) -/
def KdpOk (k : α) : Prop := XR.lt (.fin (2 ^ 60)) (val k) = false

theorem zero_finNonneg : FinNonneg (0 : α) := ⟨0, Ieee.vzero, le_refl _⟩

/-- the rates of the methods that can be selected -/
theorem rate_float (P : Params α) (hP : SaneF P) {cap fa fb d z k : α} (hcap : Db200 cap) (hd : Within200 d) (hz : Within200 z) (hk : KdpOk k)
    (m : ℤ) (hm1 : m = 1 ∨ m = 2 → (P.threshKdp <=. k) = true) (hm2 : m = 1 ∨ m = 3 → (P.threshZdr <=. z) = true)
    (hm5 : m = 5 → (∃ r : ℝ, val fa = .fin r ∧ r ≠ 0) ∧ ∃ r : ℝ, val fb = .fin r) : FinNonneg (rate P cap fa fb d z k m) := by
  simp only [rate]
  have hd0 : val d ≠ .nan := by obtain ⟨r, hr, -⟩ := hd; rw [hr]; simp
  split_ifs with h1 h2 h3 h4 h5
  · exact (power_law_zdr hP.kza hP.kzb (kdp_upto hP.kdp hk (hm1 (.inl h1))) (by norm_num) (by norm_num) hP.kzc
      (zdr_nonneg hP.zdr hz (hm2 (.inl h1)))).finNonneg
  · exact (power_law hP.ka hP.kb (kdp_upto hP.kdp hk (hm1 (.inr h2))) (by norm_num) (by norm_num)).finNonneg
  · exact (power_law_zdr hP.zza hP.zzb (lin_upto hd.db) (by norm_num) (by norm_num) hP.zzc (zdr_nonneg hP.zdr hz (hm2 (.inr h3)))).finNonneg
  · exact (rZRcap_upto hP.za hP.zb hcap hd0).finNonneg
  · exact (rZRcap_upto hP.za hP.zb hcap (dzrain_ne_nan (hm5 h5).1 (hm5 h5).2 hd hz)).finNonneg
  · exact zero_finNonneg

/-- a property of every gate is a property of every element -/
theorem all_of_gates {d z k r : NdArray α} (hs : SameShape d z k) (hr : r.WF) (hrs : r.shape = d.shape) {Q : α → Prop}
    (h : ∀ (i : Nat) (dv zv kv : α), d.data[i]? = some dv → z.data[i]? = some zv → k.data[i]? = some kv → ∃ x, r.data[i]? = some x ∧ Q x) :
    ∀ x ∈ r.data, Q x := by
  obtain ⟨hl1, hl2⟩ := SameShape.lengths hs
  intro x hx
  obtain ⟨i, hi⟩ := List.mem_iff_getElem?.mp hx
  have hlen : r.data.length = d.data.length := by
    have := hs.1; rw [NdArray.WF] at hr this; rw [hr, this, hrs]
  have hil : i < r.data.length := by
    by_contra hc; rw [List.getElem?_eq_none_iff.mpr (by omega)] at hi; simp at hi
  obtain ⟨y, hy, hv⟩ := h i _ _ _ (List.getElem?_eq_getElem (by omega)) (List.getElem?_eq_getElem (by omega))
    (List.getElem?_eq_getElem (by omega))
  rw [hi] at hy; cases hy; exact hv

/-- **C40 with rounding.** For sane coefficients, every band, `dz` and `zdr` of at most 200 dB in size and `kdp` NaN, `-inf` or any number up to
`2^60`, every rain rate of `calc_blended_rain` is a finite nonnegative number, however the operations round. -/
theorem C40_float (P : Params α) (hP : SaneF P) (band : String) (fa fb : α) (hf : IsRainLine P fa fb)
    (hfa : ∃ r : ℝ, val fa = .fin r ∧ r ≠ 0) (hfb : ∃ r : ℝ, val fb = .fin r) (d z k : NdArray α) (hs : SameShape d z k)
    (hdt : d.dtype = .float) (hd : ∀ x ∈ d.data, Within200 x) (hz : ∀ x ∈ z.data, Within200 x) (hk : ∀ x ∈ k.data, KdpOk x) :
    ∃ r m, calcBlendedRain P band false (some (.arr d)) (some (.arr z)) (some (.arr k)) = .ok (some (.arr r m none)) ∧
      r.shape = d.shape ∧ ∀ x ∈ r.data, FinNonneg x := by
  by_cases hb : band = "S"
  · subst hb
    obtain ⟨r, m, e1, e2, e3, e4, e5, e6⟩ := C38_blended_S_exact P fa fb hf d z k hs
    refine ⟨r, m, e1, e2, all_of_gates hs e4 e2 ?_⟩
    intro i dv zv kv h1 h2 h3
    refine ⟨_, (e6 i _ _ _ h1 h2 h3).2, ?_⟩
    rw [hdt]
    show FinNonneg (rate P _ _ _ _ _ _ _)
    refine rate_float P hP hP.cap (hd _ (List.mem_of_getElem? h1)) (hz _ (List.mem_of_getElem? h2)) (hk _ (List.mem_of_getElem? h3)) _ ?_ ?_
      (fun _ => ⟨hfa, hfb⟩)
    · simp only [methodS]
      split_ifs with g1 g2 g3 g4 g5 <;> intro h <;> first | omega | (rw [Bool.and_eq_true] at *; simp_all)
    · simp only [methodS]
      split_ifs with g1 g2 g3 g4 g5 <;> intro h <;> first | omega | simp_all
  · obtain ⟨r, m, e1, e2, e3, e4, e5, e6⟩ := C39_blended_other_exact P band hb false d z k hs
    refine ⟨r, m, e1, e2, all_of_gates hs e4 e2 ?_⟩
    intro i dv zv kv h1 h2 h3
    refine ⟨_, (e6 i _ _ h1 h3).2, ?_⟩
    rw [hdt]
    have hd' := hd _ (List.mem_of_getElem? h1)
    have hz' := hz _ (List.mem_of_getElem? h2)
    have hk' := hk _ (List.mem_of_getElem? h3)
    show FinNonneg (if _ then _ else _)
    split_ifs with h
    · rw [Bool.and_eq_true] at h
      exact (power_law hP.ka hP.kb (kdp_upto hP.kdp hk' h.2) (by norm_num) (by norm_num)).finNonneg
    · refine (rZRcap_upto hP.za hP.zb hP.cap ?_).finNonneg
      obtain ⟨y, hy, -⟩ := hd'
      rw [hy]; simp

/-- a decimal constant -/
theorem lit_range (x : ℝ) {a b : ℝ} (ha : Ieee.Simple a) (hb : Ieee.Simple b) (h1 : a ≤ x) (h2 : x ≤ b) :
    ∃ r : ℝ, rnd α (.fin x) = .fin r ∧ a ≤ r ∧ r ≤ b :=
  Ieee.between (Ieee.rnd_ge ha (by rw [Ieee.le_fin]; exact h1)) (Ieee.rnd_le hb (by rw [Ieee.le_fin]; exact h2))

theorem upto_sci (m : ℕ) (s : Bool) (e : ℕ) {i : ℤ} (hi : |i| ≤ 100) (h0 : (0 : ℝ) ≤ OfScientific.ofScientific m s e)
    (h1 : (OfScientific.ofScientific m s e : ℝ) ≤ 2 ^ i) : Upto i (val (OfScientific.ofScientific m s e : α)) := by
  rw [Ieee.vsci]; exact Upto.rnd hi (Upto.fin h0 h1)

theorem fin_sci (m : ℕ) (s : Bool) (e : ℕ) {a b : ℝ} (ha : Ieee.Simple a) (hb : Ieee.Simple b) (h1 : a ≤ OfScientific.ofScientific m s e)
    (h2 : (OfScientific.ofScientific m s e : ℝ) ≤ b) : ∃ r : ℝ, val (OfScientific.ofScientific m s e : α) = .fin r ∧ a ≤ r ∧ r ≤ b := by
  rw [Ieee.vsci]; exact lit_range _ ha hb h1 h2

theorem simple_two : Ieee.Simple 2 := Ieee.simple_nat 2 (by norm_num)

theorem neg_sci (m : ℕ) (s : Bool) (e : ℕ) (h0 : (0 : ℝ) ≤ OfScientific.ofScientific m s e) (h1 : (OfScientific.ofScientific m s e : ℝ) ≤ 2 ^ (10 : ℤ)) :
    ∃ r : ℝ, val (-(OfScientific.ofScientific m s e : α)) = .fin r ∧ r ≤ 0 := by
  obtain ⟨r, hr, r0, -⟩ := fin_sci (α := α) m s e Ieee.simple_zero (Ieee.simple_two_zpow 10 (by norm_num)) h0 h1
  exact ⟨-r, by rw [Ieee.vneg, hr, XR.fneg], by linarith⟩

/-- the default coefficients are sane in every format -/
theorem C40_float_defaults : SaneF (Params.default : Params α) where
  za := ⟨300, Ieee.voflit 300 (by norm_num), by norm_num⟩
  zb := by
    obtain ⟨r, h1, h2, -⟩ := fin_sci (α := α) 14 true 1 Ieee.simple_one simple_two (by norm_num) (by norm_num)
    exact ⟨r, h1, h2⟩
  cap := by
    show XR.le (val (53 : α)) _ = true
    rw [Ieee.voflit 53 (by norm_num), Ieee.le_fin]; norm_num
  kdp := by
    obtain ⟨r, h1, h2, -⟩ := fin_sci (α := α) 3 true 1 Ieee.simple_zero Ieee.simple_one (by norm_num) (by norm_num)
    exact ⟨r, h1, h2⟩
  zdr := by
    obtain ⟨r, h1, h2, -⟩ := fin_sci (α := α) 5 true 1 Ieee.simple_zero Ieee.simple_one (by norm_num) (by norm_num)
    exact ⟨r, h1, h2⟩
  ka := upto_sci _ _ _ (by norm_num) (by norm_num) (by norm_num)
  kb := upto_sci _ _ _ (by norm_num) (by norm_num) (by norm_num)
  kza := upto_sci _ _ _ (by norm_num) (by norm_num) (by norm_num)
  kzb := upto_sci _ _ _ (by norm_num) (by norm_num) (by norm_num)
  kzc := neg_sci _ _ _ (by norm_num) (by norm_num)
  zza := upto_sci _ _ _ (by norm_num) (by norm_num) (by norm_num)
  zzb := upto_sci _ _ _ (by norm_num) (by norm_num) (by norm_num)
  zzc := neg_sci _ _ _ (by norm_num) (by norm_num)

/-- **C40 with rounding, default coefficients.** -/
theorem C40_float_default_call (band : String) (d z k : NdArray α) (hs : SameShape d z k) (hdt : d.dtype = .float)
    (hd : ∀ x ∈ d.data, Within200 x) (hz : ∀ x ∈ z.data, Within200 x) (hk : ∀ x ∈ k.data, KdpOk x) :
    ∃ r m, calcBlendedRain Params.default band false (some (.arr d)) (some (.arr z)) (some (.arr k)) = .ok (some (.arr r m none)) ∧
      r.shape = d.shape ∧ ∀ x ∈ r.data, FinNonneg x := by
  refine C40_float _ C40_float_defaults band 0.9091 8.5091 (.inr (.inr (.inl ⟨rfl, rfl, rfl, rfl⟩))) ?_ ?_ d z k hs hdt hd hz hk
  · obtain ⟨r, h1, h2, -⟩ := fin_sci (α := α) 9091 true 4 (Ieee.simple_two_zpow (-1) (by norm_num)) Ieee.simple_one (by norm_num) (by norm_num)
    refine ⟨r, h1, ?_⟩
    rintro rfl; norm_num at h2
  · obtain ⟨r, h1, -⟩ := fin_sci (α := α) 85091 true 4 Ieee.simple_zero (Ieee.simple_two_zpow 10 (by norm_num)) (by norm_num) (by norm_num)
    exact ⟨r, h1⟩

/-! ## Class-guided rain -/

/-- **C107.** `csu_hidro_rain`: for sane coefficients, every band, every array of hydrometeor classes, `dz` and `zdr` of at most 200 dB in
size and `kdp` NaN, `-inf` or any number up to `2^60`, every rain rate is a finite nonnegative number, however the operations round. -/
theorem C107_hidro_finite_nonneg (P : Params α) (hP : SaneF P) (band : String) (d z k : NdArray α) (c : NdArray Int) (hs : SameShape d z k)
    (hc : c.WF) (hcs : d.shape = c.shape) (hdt : d.dtype = .float) (hd : ∀ x ∈ d.data, Within200 x) (hz : ∀ x ∈ z.data, Within200 x)
    (hk : ∀ x ∈ k.data, KdpOk x) :
    ∃ r m, csuHidroRain P band (some (.arr d)) (some (.arr z)) (some (.arr k)) (some (.arr c)) = .ok (some (.arr r m none)) ∧
      r.shape = d.shape ∧ ∀ x ∈ r.data, FinNonneg x := by
  have hl3 : d.data.length = c.data.length := by
    have h := hs.1; rw [NdArray.WF] at h hc; rw [h, hc, hcs]
  have hcap : Db200 (53 : α) := by
    show XR.le (val (53 : α)) _ = true
    rw [Ieee.voflit 53 (by norm_num), Ieee.le_fin]; norm_num
  have getc : ∀ (i : Nat) (dv : α), d.data[i]? = some dv → ∃ cv, c.data[i]? = some cv := by
    intro i dv h
    have : i < d.data.length := by
      by_contra hn; rw [List.getElem?_eq_none_iff.mpr (by omega)] at h; cases h
    exact ⟨_, List.getElem?_eq_getElem (by omega)⟩
  by_cases hb : band = "S"
  · subst hb
    obtain ⟨r, m, e1, e2, e3, e4, e5, e6⟩ := C44_hidro_S_exact P d z k c hs hc hcs 0 0
    refine ⟨r, m, e1, e2, all_of_gates hs e4 e2 ?_⟩
    intro i dv zv kv h1 h2 h3
    obtain ⟨cv, h4⟩ := getc i dv h1
    obtain ⟨-, f1, f2⟩ := e6 i _ _ _ _ h1 h2 h3 h4
    by_cases h0 : hidroMethodS P dv zv kv cv = 0
    · exact ⟨0, f1 h0, zero_finNonneg⟩
    · refine ⟨_, f2 h0, ?_⟩
      rw [hdt]
      show FinNonneg (rate P _ _ _ _ _ _ _)
      refine rate_float P hP hcap (hd _ (List.mem_of_getElem? h1)) (hz _ (List.mem_of_getElem? h2)) (hk _ (List.mem_of_getElem? h3)) _ ?_ ?_ ?_
      · simp only [hidroMethodS]
        split_ifs with g1 g2 g3 g4 g5 <;> intro h <;> first | omega | (rw [Bool.and_eq_true] at *; simp_all) | simp_all
      · simp only [hidroMethodS]
        split_ifs with g1 g2 g3 g4 g5 <;> intro h <;> first | omega | simp_all
      · have := (C44_code_range P dv zv kv cv).1
        intro h; rw [h] at this; simp at this
  · obtain ⟨r, m, e1, e2, e3, e4, e5, e6⟩ := C44_hidro_other_exact P band hb d z k c hs hc hcs 0 0
    refine ⟨r, m, e1, e2, all_of_gates hs e4 e2 ?_⟩
    intro i dv zv kv h1 h2 h3
    obtain ⟨cv, h4⟩ := getc i dv h1
    obtain ⟨-, f1, f2, f3⟩ := e6 i _ _ _ h1 h3 h4
    rw [hdt] at f1 f2
    have hd' := hd _ (List.mem_of_getElem? h1)
    have hk' := hk _ (List.mem_of_getElem? h3)
    by_cases g : ((P.threshDz <=. dv) && (P.threshKdp <=. kv)) = true
    · refine ⟨_, f1 (by simp [hidroRuleOther, g]), ?_⟩
      rw [Bool.and_eq_true] at g
      exact (power_law hP.ka hP.kb (kdp_upto hP.kdp hk' g.2) (by norm_num) (by norm_num)).finNonneg
    · by_cases g2 : cv = 1 ∨ cv = 2 ∨ cv = 10
      · refine ⟨_, f2 (by simp only [hidroRuleOther, if_neg g, if_pos g2]), ?_⟩
        refine (rZRcap_upto hP.za hP.zb hcap ?_).finNonneg
        obtain ⟨y, hy, -⟩ := hd'
        rw [hy]; simp
      · exact ⟨_, f3 (by simp only [hidroRuleOther, if_neg g, if_neg g2]), zero_finNonneg⟩

/-! ## Tropical rain -/

/-- coefficients of `calc_blended_rain_tropical` for which the rates are defined (after `predef`) -/
structure TropSaneF (P : TropParams α) : Prop where
  za : ∃ r : ℝ, val P.rZA = .fin r ∧ 1 ≤ r
  zb : ∃ r : ℝ, val P.rZB = .fin r ∧ 1 ≤ r
  zac : ∃ r : ℝ, val P.rZAc = .fin r ∧ 1 ≤ r
  zbc : ∃ r : ℝ, val P.rZBc = .fin r ∧ 1 ≤ r
  zas : ∃ r : ℝ, val P.rZAs = .fin r ∧ 1 ≤ r
  zbs : ∃ r : ℝ, val P.rZBs = .fin r ∧ 1 ≤ r
  kdp : ∃ r : ℝ, val P.threshKdp = .fin r ∧ 0 ≤ r
  zdr : ∃ r : ℝ, val P.threshZdr = .fin r ∧ 0 ≤ r
  ka : Upto 20 (val P.rKdpA)
  kb : Upto 0 (val P.rKdpB)
  kza : Upto 20 (val P.rKdpZdrA)
  kzb : Upto 0 (val P.rKdpZdrB)
  kzc : ∃ r : ℝ, val P.rKdpZdrC = .fin r ∧ r ≤ 0
  zza : Upto 20 (val P.rZZdrA)
  zzb : Upto 0 (val P.rZZdrB)
  zzc : ∃ r : ℝ, val P.rZZdrC = .fin r ∧ r ≤ 0

theorem tropRate_float (P : TropParams α) (hP : TropSaneF P) {d z k : α} (hd : Within200 d) (hz : Within200 z) (hk : KdpOk k)
    (m : ℤ) (hm1 : m = 1 ∨ m = 2 → (P.threshKdp <=. k) = true) (hm2 : m = 1 ∨ m = 3 → (P.threshZdr <=. z) = true) :
    FinNonneg (tropRate P d z k m) := by
  simp only [tropRate]
  split_ifs with h1 h2 h3 h4 h5 h6
  · exact (power_law_zdr hP.kza hP.kzb (kdp_upto hP.kdp hk (hm1 (.inl h1))) (by norm_num) (by norm_num) hP.kzc
      (zdr_nonneg hP.zdr hz (hm2 (.inl h1)))).finNonneg
  · exact (power_law hP.ka hP.kb (kdp_upto hP.kdp hk (hm1 (.inr h2))) (by norm_num) (by norm_num)).finNonneg
  · exact (power_law_zdr hP.zza hP.zzb (lin_upto hd.db) (by norm_num) (by norm_num) hP.zzc (zdr_nonneg hP.zdr hz (hm2 (.inr h3)))).finNonneg
  · exact (rZR_upto hP.za hP.zb hd.db).finNonneg
  · exact (rZR_upto hP.zac hP.zbc hd.db).finNonneg
  · exact (rZR_upto hP.zas hP.zbs hd.db).finNonneg
  · exact zero_finNonneg

/-- **C99 with rounding.** For sane coefficients (published ones or the caller's), `dz` and `zdr` of at most 200 dB in size and `kdp` NaN,
`-inf` or any number up to `2^60`, with or without rain types and hydrometeor classes, every tropical rain rate is a finite nonnegative
number, however the operations round. -/
theorem C99_float (P0 : TropParams α) (predef band : String) (hP : TropSaneF (tropPredef predef band P0)) (d z k : NdArray α)
    (hs : SameShape d z k) (c f : Option (NdArray Int)) (hc : ClsFits d c) (hf : ClsFits d f) (hdt : d.dtype = .float)
    (hd : ∀ x ∈ d.data, Within200 x) (hz : ∀ x ∈ z.data, Within200 x) (hk : ∀ x ∈ k.data, KdpOk x) :
    ∃ r m, calcBlendedRainTropical P0 predef band (some (.arr d)) (some (.arr z)) (some (.arr k)) (c.map .arr) (f.map .arr) =
        .ok (some (.arr r m none)) ∧ r.shape = d.shape ∧ ∀ x ∈ r.data, FinNonneg x := by
  obtain ⟨r, m, e, h1, -, h3, -, -, h5⟩ := tropical_gates P0 predef band d z k hs c f hc hf
  refine ⟨r, m, e, h1, all_of_gates hs h3 h1 ?_⟩
  intro i dv zv kv g1 g2 g3
  obtain ⟨cv, fv, -, -, h6⟩ := h5 i _ _ _ g1 g2 g3
  rw [Prod.mk.injEq] at h6
  refine ⟨_, h6.1, ?_⟩
  have hd' := hd _ (List.mem_of_getElem? g1)
  have hz' := hz _ (List.mem_of_getElem? g2)
  have hk' := hk _ (List.mem_of_getElem? g3)
  rw [hdt]
  generalize tropPredef predef band P0 = P at *
  simp only [tropGate]
  split
  · exact zero_finNonneg
  split
  · split
    · rename_i hcond
      rw [Bool.and_eq_true, Bool.and_eq_true] at hcond
      exact (power_law hP.ka hP.kb (kdp_upto hP.kdp hk' hcond.2.1) (by norm_num) (by norm_num)).finNonneg
    · exact zero_finNonneg
  · generalize (if c.isSome = true then some cv else none) = cc
    dsimp only
    split
    · exact zero_finNonneg
    · show FinNonneg (tropRate P dv zv kv (tropMethod P dv zv kv cc))
      refine tropRate_float P hP hd' hz' hk' _ ?_ ?_
      · intro hm
        by_contra hcon
        have hc2 : (P.threshKdp <=. kv) = false := by simpa using hcon
        simp only [tropMethod, hc2, Bool.and_false] at hm
        revert hm
        cases cc <;> dsimp only <;> split_ifs <;> simp_all
      · intro hm
        by_contra hcon
        have hc2 : (P.threshZdr <=. zv) = false := by simpa using hcon
        simp only [tropMethod, hc2] at hm
        revert hm
        cases cc <;> dsimp only <;> split_ifs <;> simp_all

theorem one_sci (m : ℕ) (s : Bool) (e : ℕ) (h0 : (1 : ℝ) ≤ OfScientific.ofScientific m s e) (h1 : (OfScientific.ofScientific m s e : ℝ) ≤ 2) :
    ∃ r : ℝ, val (OfScientific.ofScientific m s e : α) = .fin r ∧ 1 ≤ r := by
  obtain ⟨r, h1, h2, -⟩ := fin_sci (α := α) m s e Ieee.simple_one simple_two h0 h1
  exact ⟨r, h1, h2⟩

theorem negdiv_sci (m : ℕ) (s : Bool) (e : ℕ) (h0 : (0 : ℝ) ≤ OfScientific.ofScientific m s e) (h1 : (OfScientific.ofScientific m s e : ℝ) ≤ 10) :
    ∃ r : ℝ, val (-(OfScientific.ofScientific m s e : α) / 10) = .fin r ∧ r ≤ 0 := by
  obtain ⟨r, hr, r0, r1⟩ := fin_sci (α := α) m s e Ieee.simple_zero (Ieee.simple_nat 10 (by norm_num)) h0 h1
  rw [Ieee.vdiv _ _ (by rw [val10]; simp), val10, Ieee.vneg, hr, XR.fneg, XR.fdiv (by norm_num)]
  obtain ⟨y, hy, -, y1⟩ := lit_range (α := α) (-r / 10) Ieee.simple_one.neg Ieee.simple_zero (by linarith) (by linarith)
  exact ⟨y, hy, y1⟩

/-- the published coefficients are sane at bands S, C and X in every format, whatever the caller's -/
theorem C99_float_published (band : String) (P0 : TropParams α) (hb : band = "S" ∨ band = "C" ∨ band = "X")
    (ht : ∃ r : ℝ, val P0.threshKdp = .fin r ∧ 0 ≤ r) (hz : ∃ r : ℝ, val P0.threshZdr = .fin r ∧ 0 ≤ r) :
    TropSaneF (tropPredef "True" band P0) := by
  rcases hb with rfl | rfl | rfl <;>
  · constructor
    all_goals simp only [tropPredef, if_true, String.reduceEq, if_false]
    · exact ⟨216, Ieee.voflit 216 (by norm_num), by norm_num⟩
    · exact one_sci _ _ _ (by norm_num) (by norm_num)
    · exact ⟨126, Ieee.voflit 126 (by norm_num), by norm_num⟩
    · exact one_sci _ _ _ (by norm_num) (by norm_num)
    · exact ⟨291, Ieee.voflit 291 (by norm_num), by norm_num⟩
    · exact one_sci _ _ _ (by norm_num) (by norm_num)
    · exact ht
    · exact hz
    all_goals first | exact upto_sci _ _ _ (by norm_num) (by norm_num) (by norm_num) | exact negdiv_sci _ _ _ (by norm_num) (by norm_num)

/-- the default thresholds are nonnegative in every format -/
theorem C99_float_defaults : (∃ r : ℝ, val (TropParams.default : TropParams α).threshKdp = .fin r ∧ 0 ≤ r) ∧
    ∃ r : ℝ, val (TropParams.default : TropParams α).threshZdr = .fin r ∧ 0 ≤ r := by
  constructor
  · obtain ⟨r, h1, h2, -⟩ := fin_sci (α := α) 3 true 1 Ieee.simple_zero Ieee.simple_one (by norm_num) (by norm_num)
    exact ⟨r, h1, h2⟩
  · obtain ⟨r, h1, h2, -⟩ := fin_sci (α := α) 25 true 2 Ieee.simple_zero Ieee.simple_one (by norm_num) (by norm_num)
    exact ⟨r, h1, h2⟩

/-- single precision, 2-D arrays with a negative and a NaN Kdp and a Zdr of `0.1f`: the hypotheses are met -/
example : SameShape (⟨.float, [1, 2], [45, 20]⟩ : NdArray Binary32) (⟨.float, [1, 2], [0.1, -1]⟩ : NdArray Binary32)
    (⟨.float, [1, 2], [-1, nan]⟩ : NdArray Binary32) ∧ (∀ x ∈ [(45 : Binary32), 20], Within200 x) ∧
    (∀ x ∈ [(0.1 : Binary32), -1], Within200 x) ∧ ∀ x ∈ [(-1 : Binary32), nan], KdpOk x := by
  refine ⟨⟨rfl, rfl, rfl, rfl, rfl⟩, ?_, ?_, ?_⟩
  · intro x hx
    simp only [List.mem_cons, List.not_mem_nil, or_false] at hx
    rcases hx with rfl | rfl
    · exact ⟨45, Ieee.voflit 45 (by norm_num), by norm_num, by norm_num⟩
    · exact ⟨20, Ieee.voflit 20 (by norm_num), by norm_num, by norm_num⟩
  · intro x hx
    simp only [List.mem_cons, List.not_mem_nil, or_false] at hx
    rcases hx with rfl | rfl
    · obtain ⟨r, h1, h2, h3⟩ := fin_sci (α := Binary32) 1 true 1 Ieee.simple_zero Ieee.simple_one (by norm_num) (by norm_num)
      exact ⟨r, h1, by linarith, by linarith⟩
    · exact ⟨-1, by rw [Ieee.vneg, Ieee.vone, XR.fneg], by norm_num, by norm_num⟩
  · intro x hx
    simp only [List.mem_cons, List.not_mem_nil, or_false] at hx
    rcases hx with rfl | rfl
    · show XR.lt _ (val (-1 : Binary32)) = false
      rw [Ieee.vneg, Ieee.vone, XR.fneg]; norm_num [XR.lt]
    · show XR.lt _ (val (PyFloat.nan : Binary32)) = false
      rw [val_nan]; rfl

end Csu.Rain
