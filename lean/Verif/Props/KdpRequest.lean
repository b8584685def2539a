import Verif.Model.FirOrder
import Verif.Props.KdpApi
import Verif.Props.KdpRound
/-!
# C152: which gate spacings and filter windows `calc_kdp_bringi` accepts
-/
namespace Csu.Kdp
open Csu PyFloat

/-! ## Specification -/

/-- `n` is `q` without its fraction: of the same sign, at most as large, and less than 1 away -/
def Truncates (q : ℝ) (n : ℤ) : Prop := 0 ≤ (n : ℝ) * q ∧ |(n : ℝ)| ≤ |q| ∧ |q| < |(n : ℝ)| + 1

theorem truncates_iff (q : ℝ) (n : ℤ) : Truncates q n ↔ n = XR.truncR q := by
  unfold Truncates XR.truncR
  constructor
  · rintro ⟨h1, h2, h3⟩
    split_ifs with h
    · rw [abs_of_nonneg h] at h2 h3
      symm; rw [Int.floor_eq_iff]
      by_cases hn : 0 ≤ (n : ℝ)
      · rw [abs_of_nonneg hn] at h2 h3; exact ⟨h2, h3⟩
      · rw [not_le] at hn
        have hq : q = 0 := by
          by_contra hq
          have : 0 < q := lt_of_le_of_ne h (Ne.symm hq)
          nlinarith
        rw [hq, abs_of_neg hn] at h2
        linarith
    · rw [not_le] at h
      rw [abs_of_neg h] at h2 h3
      symm; rw [Int.ceil_eq_iff]
      by_cases hn : (n : ℝ) ≤ 0
      · rw [abs_of_nonpos hn] at h2 h3; constructor <;> linarith
      · rw [not_le] at hn; nlinarith
  · rintro rfl
    split_ifs with h
    · have h0 : (0 : ℝ) ≤ (⌊q⌋ : ℤ) := by exact_mod_cast Int.floor_nonneg.mpr h
      rw [abs_of_nonneg h, abs_of_nonneg h0]
      exact ⟨mul_nonneg h0 h, Int.floor_le q, Int.lt_floor_add_one q⟩
    · rw [not_le] at h
      have h0 : ((⌈q⌉ : ℤ) : ℝ) ≤ 0 := by exact_mod_cast Int.ceil_le.mpr (by simpa using h.le)
      rw [abs_of_neg h, abs_of_nonpos h0]
      have := Int.le_ceil q
      have := Int.ceil_lt_add_one q
      exact ⟨mul_nonneg_of_nonpos_of_nonpos h0 h.le, by linarith, by linarith⟩

theorem getFir_N (gs window : ℝ) (h : gs ≠ 0) : getFir gs window = getFirN (firOrder gs window) := by
  unfold getFir
  rw [if_neg h]; rfl

/-- what `get_fir` does for each order -/
theorem getFirN_cases (n : ℤ) : (n % 2 = 1 → getFirN n = .ok none) ∧ (n % 2 = 0 → n ≤ 0 → getFirN n = .error .valueError) ∧
    (n % 2 = 0 → 0 < n → ∃ f : Fir XR, getFirN n = .ok (some f) ∧ (f.order : ℤ) = n ∧ f.gain = .fin 1 ∧ f.coef.length = f.order + 1) := by
  refine ⟨fun h => ?_, fun h hn => ?_, fun h hn => ?_⟩
  · unfold getFirN; rw [if_pos (by omega)]
  · unfold getFirN
    rw [if_neg (by omega)]
    split_ifs with h0
    · rfl
    · have hneg : (n : ℝ) < 0 := by exact_mod_cast (by omega : n < 0)
      have : firwin (n + 1) (0.08 / ((n : ℝ) / 20)) ((n : ℝ) / 20 * 28) = .error .valueError := by
        unfold firwin
        rw [if_neg]
        rintro ⟨h1, -, -⟩
        have : (0.08 : ℝ) / ((n : ℝ) / 20) < 0 := div_neg_of_pos_of_neg (by norm_num) (by linarith)
        linarith
      dsimp only
      rw [this]; rfl
  · unfold getFirN
    rw [if_neg (by omega), if_neg (by omega)]
    have h2 : (2 : ℝ) ≤ n := by exact_mod_cast (by omega : 2 ≤ n)
    have : ∃ taps, firwin (n + 1) (0.08 / ((n : ℝ) / 20)) ((n : ℝ) / 20 * 28) = .ok taps ∧ taps.length = (n + 1).toNat := by
      unfold firwin
      rw [if_pos]
      · exact ⟨_, rfl, by simp⟩
      · refine ⟨by positivity, ?_, by omega⟩
        rw [div_lt_one (by positivity)]
        linarith
    obtain ⟨taps, ht, hl⟩ := this
    dsimp only
    rw [ht]
    exact ⟨_, rfl, by simp; omega, rfl, by simp [hl]; omega⟩

/-- **C152** (exact arithmetic).  Let `n` be `1000 window / gs` without its fraction.  `get_fir` raises `ZeroDivisionError` for `gs = 0`; it returns no filter if
`n` is odd, raises `ValueError` if `n` is even and not positive, and otherwise returns a filter of order `n` with `n + 1` taps and gain 1. -/
theorem C152_outcomes (gs window : ℝ) : (gs = 0 → getFir gs window = .error .zeroDivisionError) ∧
    (gs ≠ 0 → ∀ n : ℤ, Truncates (1000 * window / gs) n →
      (n % 2 = 1 → getFir gs window = .ok none) ∧ (n % 2 = 0 → n ≤ 0 → getFir gs window = .error .valueError) ∧
      (n % 2 = 0 → 0 < n → ∃ f : Fir XR, getFir gs window = .ok (some f) ∧ (f.order : ℤ) = n ∧ f.gain = .fin 1 ∧ f.coef.length = f.order + 1)) := by
  refine ⟨fun h => by unfold getFir; rw [if_pos h], fun h n hn => ?_⟩
  rw [getFir_N gs window h, firOrder_eq, ← (truncates_iff _ n).mp hn]
  exact getFirN_cases n

/-- **C152**, the documented use: a window of an even number `n > 0` of gates is accepted, with a filter of that order, and the outcome of `calc_kdp_bringi`
does not depend on the sizes but on `n`, the same for every spacing. -/
theorem C152_even_accepted (gs window gs' window' : ℝ) (n : ℕ) (h0 : 0 < n) (he : n % 2 = 0) (hg : gs ≠ 0) (hg' : gs' ≠ 0)
    (h : 1000 * window = n * gs) (h' : 1000 * window' = n * gs') (D : Dialect XR) (J : Junk XR) (dp dz rng : Option (Data XR)) (o : KdpOpts XR) :
    (∃ f : Fir XR, getFir gs window = .ok (some f) ∧ f.order = n ∧ f.coef.length = n + 1) ∧
    calcKdpBringi D J dp dz rng o gs window = calcKdpBringi D J dp dz rng o gs' window' := by
  have ho : ∀ g w : ℝ, g ≠ 0 → 1000 * w = n * g → firOrder g w = n := by
    intro g w hg h
    rw [firOrder_eq, h, mul_div_assoc, div_self hg, mul_one, truncR_nonneg (by positivity)]
    simp
  refine ⟨?_, ?_⟩
  · rw [getFir_N gs window hg, ho gs window hg h]
    obtain ⟨f, hf, h1, -, h3⟩ := (getFirN_cases n).2.2 (by omega) (by omega)
    have h1 : f.order = n := by exact_mod_cast h1
    exact ⟨f, hf, h1, by rw [h3, h1]⟩
  · unfold calcKdpBringi
    rw [getFir_N gs window hg, getFir_N gs' window' hg', ho gs window hg h, ho gs' window' hg' h']

/-! ## In floating point -/
section float
open Ieee IeeeFloat

/-- C152 in full, in double precision: if the user's gate spacing `g` and window `w` (as written, before they are rounded to floats) make an even number `n > 0` of
gates, a filter of order `n` is made. -/
def C152Full : Prop := ∀ (g w : ℚ) (n : ℕ), 0 < g → 0 < n → n % 2 = 0 → 1000 * w = n * g →
  ∃ f : Fir XR, getFirF (PyFloat.lit g : Binary64) (PyFloat.lit w) = .ok (some f) ∧ f.order = n

set_option maxRecDepth 100000 in
theorem order_check : ((PyFloat.lit 2.0986 : Binary64) * 1000 / PyFloat.lit 149.9).1 =
      .fin (ratOf ((PyFloat.lit 2.0986 : Binary64) * 1000 / PyFloat.lit 149.9)) ∧
    13 ≤ ratOf ((PyFloat.lit 2.0986 : Binary64) * 1000 / PyFloat.lit 149.9) ∧
    ratOf ((PyFloat.lit 2.0986 : Binary64) * 1000 / PyFloat.lit 149.9) < 14 ∧
    ((PyFloat.lit 149.9 : Binary64) ==. 0) = false := by decide +kernel

/-- gates of 149.9 m and a window of 14 gates, 2.0986 km -/
theorem order13 : firOrderF (PyFloat.lit 149.9 : Binary64) (PyFloat.lit 2.0986) = 13 := by
  obtain ⟨c1, c2, c3, -⟩ := order_check
  unfold firOrderF
  rw [val_ratOf c1]
  have h1 : (13 : ℝ) ≤ ratOf ((PyFloat.lit 2.0986 : Binary64) * 1000 / PyFloat.lit 149.9) := by exact_mod_cast c2
  have h2 : (ratOf ((PyFloat.lit 2.0986 : Binary64) * 1000 / PyFloat.lit 149.9) : ℝ) < 14 := by exact_mod_cast c3
  show XR.truncR _ = 13
  rw [truncR_nonneg (by linarith), Int.floor_eq_iff]
  push_cast
  exact ⟨h1, by linarith⟩

/-- **C152 is false in floating point.**  Gates of 149.9 m and a window of 14 gates, 2.0986 km: `2.0986 * 1000 / 149.9` is just below 14 in double precision, the
order is 13, and no filter is made. -/
theorem C152_full_false : ¬ C152Full := by
  intro h
  obtain ⟨f, hf, -⟩ := h 149.9 2.0986 14 (by norm_num) (by norm_num) (by norm_num) (by norm_num)
  unfold getFirF at hf
  rw [if_neg (by rw [order_check.2.2.2]; decide), order13, (getFirN_cases 13).1 (by norm_num)] at hf
  cases hf

/-- **C152**, the effect on the user: with gates of 149.9 m and a window of 14 gates `calc_kdp_bringi` returns `(None, None, None)`, whatever the data. -/
theorem C152_valid_window_rejected (D : Dialect XR) (J : Junk XR) (dp dz rng : Data XR) (o : KdpOpts XR) (h : dp.ndim = dz.ndim) (h' : dp.ndim = rng.ndim) :
    calcKdpBringiF D J (some dp) (some dz) (some rng) o (PyFloat.lit 149.9 : Binary64) (PyFloat.lit 2.0986) = .ok .noneTriple := by
  unfold calcKdpBringiF getFirF
  rw [if_neg (by rw [order_check.2.2.2]; decide), order13, (getFirN_cases 13).1 (by norm_num)]
  exact C15_odd_order D J dp dz rng o h h'

/-- **C152**, what holds in floating point (any IEEE format): for a window of a whole number `w` of kilometres (up to 16777) and any gate spacing that divides it
into `n` gates exactly (`n` even, up to `2^24`), the filter has order `n`. -/
theorem C152_whole_km_partial {α : Type} [IeeeFloat α] (gs window : α) (g : ℝ) (w n : ℕ) (hg : val gs = .fin g) (hw : val window = .fin w)
    (hw' : w ≤ 16777) (hn : n ≤ 2 ^ 24) (h0 : 0 < n) (he : n % 2 = 0) (hq : 1000 * (w : ℝ) = n * g) (hw0 : 0 < w) :
    ∃ f : Fir XR, getFirF gs window = .ok (some f) ∧ f.order = n ∧ f.coef.length = n + 1 := by
  have hg0 : g ≠ 0 := by
    rintro rfl
    have : (0 : ℝ) < w := by exact_mod_cast hw0
    linarith
  have hk : val (1000 : α) = .fin 1000 := voflit 1000 (by norm_num)
  have h1 : val (window * 1000) = .fin (1000 * w) := by
    rw [vmul, hw, hk, XR.fmul, mul_comm]
    have : (1000 * (w : ℝ)) = ((1000 * w : ℕ) : ℤ) := by push_cast; ring
    rw [this]
    refine rnd_simple (simple_int _ ?_)
    rw [abs_of_nonneg (by positivity)]
    have : 1000 * w ≤ 2 ^ 24 := by norm_num; omega
    exact_mod_cast this
  have h2 : val (window * 1000 / gs) = .fin n := by
    rw [vdiv _ _ (by rw [hg]; simpa using hg0), h1, hg, XR.fdiv hg0, hq, mul_div_assoc, div_self hg0, mul_one]
    have : (n : ℝ) = ((n : ℕ) : ℤ) := by push_cast; ring
    rw [this]
    refine rnd_simple (simple_int _ ?_)
    rw [abs_of_nonneg (by positivity)]
    exact_mod_cast hn
  have ho : firOrderF gs window = n := by
    unfold firOrderF
    rw [h2]
    show XR.truncR _ = _
    rw [truncR_nonneg (by positivity)]; simp
  have hz : ¬ (gs ==. 0) = true := by
    show ¬ PyFloat.eq gs 0 = true
    rw [val_eq, hg, vzero]
    simpa [XR.eq] using hg0
  unfold getFirF
  rw [if_neg hz, ho]
  obtain ⟨f, hf, h1, -, h3⟩ := (getFirN_cases n).2.2 (by omega) (by omega)
  have h1 : f.order = n := by exact_mod_cast h1
  exact ⟨f, hf, h1, by rw [h3, h1]⟩

/-- **C152**, what holds in double precision for every gate spacing `g` from a millimetre to 1000 km and every even number `n > 0` of gates up to a million: the filter
made is the right one, or none is made (the order comes out as `n - 1`).  Never a filter of another order. -/
theorem C152_right_or_none_partial (g w : ℚ) (n : ℕ) (hg : 1 / 1000 ≤ g) (hg' : g ≤ 1000000) (h0 : 0 < n) (hn : n ≤ 1000000) (he : n % 2 = 0)
    (hq : 1000 * w = n * g) :
    (∃ f : Fir XR, getFirF (PyFloat.lit g : Binary64) (PyFloat.lit w) = .ok (some f) ∧ f.order = n ∧ f.coef.length = n + 1) ∨
    (firOrderF (PyFloat.lit g : Binary64) (PyFloat.lit w) = n - 1 ∧ getFirF (PyFloat.lit g : Binary64) (PyFloat.lit w) = .ok none) := by
  have hgR : (1 / 1000 : ℝ) ≤ g := by
    have : ((1 / 1000 : ℚ) : ℝ) ≤ g := by exact_mod_cast hg
    simpa using this
  have hgR' : (g : ℝ) ≤ 1000000 := by exact_mod_cast hg'
  have hn1 : (1 : ℝ) ≤ n := by exact_mod_cast h0
  have hn' : (n : ℝ) ≤ 1000000 := by exact_mod_cast hn
  have hqR : 1000 * (w : ℝ) = n * g := by exact_mod_cast hq
  have hng : (1 / 1000 : ℝ) ≤ n * g := by nlinarith
  have hng' : (n : ℝ) * g ≤ 10 ^ 12 := by
    calc (n : ℝ) * g ≤ 1000000 * 1000000 := mul_le_mul hn' hgR' (by linarith) (by norm_num)
      _ = _ := by norm_num
  have lo : (2 : ℝ) ^ (-100 : ℤ) ≤ 1 / 10 ^ 9 := by norm_num
  have hi : (10 : ℝ) ^ 15 ≤ (2 : ℝ) ^ (100 : ℤ) := by norm_num
  have hδ : Fp.δ = 1 / 16000000 := rfl
  -- the four roundings
  obtain ⟨b, hb, b1, b2⟩ := Fp.round64 (e := g) (lo.trans (by linarith)) (le_trans (by linarith) hi)
  obtain ⟨a, ha, a1, a2⟩ := Fp.round64 (e := w) (lo.trans (by linarith)) (le_trans (by linarith) hi)
  rw [hδ] at a1 a2 b1 b2
  have hb0 : 0 < b := by linarith
  obtain ⟨p, hp, p1, p2⟩ := Fp.round64 (e := a * 1000) (lo.trans (by linarith)) (le_trans (by linarith) hi)
  rw [hδ] at p1 p2
  have q1 : (1 - 1 / 4000000 : ℝ) * n ≤ p / b := by
    rw [le_div_iff₀ hb0]
    have : (1 - 1 / 4000000 : ℝ) * n * b ≤ (1 - 1 / 4000000) * n * ((1 + 1 / 16000000) * g) := by gcongr
    nlinarith
  have q2 : p / b ≤ (1 + 1 / 4000000 : ℝ) * n := by
    rw [div_le_iff₀ hb0]
    have : (1 + 1 / 4000000 : ℝ) * n * ((1 - 1 / 16000000) * g) ≤ (1 + 1 / 4000000) * n * b := by gcongr
    nlinarith
  obtain ⟨q, hqq, r1, r2⟩ := Fp.round64 (e := p / b) (lo.trans (by linarith)) (le_trans (by linarith) hi)
  rw [hδ] at r1 r2
  have hv : val ((PyFloat.lit w : Binary64) * 1000 / PyFloat.lit g) = .fin q := by
    have e1 : val (PyFloat.lit g : Binary64) = .fin b := by rw [vlit]; exact hb
    have e2 : val (PyFloat.lit w : Binary64) = .fin a := by rw [vlit]; exact ha
    rw [vdiv _ _ (by rw [e1]; simpa using hb0.ne'), vmul, e1, e2, voflit 1000 (by norm_num), XR.fmul, hp, XR.fdiv hb0.ne', hqq]
  have hz : ¬ ((PyFloat.lit g : Binary64) ==. 0) = true := by
    have e1 : val (PyFloat.lit g : Binary64) = .fin b := by rw [vlit]; exact hb
    show ¬ PyFloat.eq (PyFloat.lit g : Binary64) 0 = true
    rw [val_eq, e1, vzero]
    simpa [XR.eq] using hb0.ne'
  have hlow : (n : ℝ) - 1 ≤ q := by linarith
  have hup : q < (n : ℝ) + 1 := by linarith
  have hq0 : 0 ≤ q := by linarith
  have ho : firOrderF (PyFloat.lit g : Binary64) (PyFloat.lit w) = ⌊q⌋ := by
    unfold firOrderF
    rw [hv]
    show XR.truncR _ = _
    rw [truncR_nonneg hq0]
  unfold getFirF
  rw [if_neg hz, ho]
  by_cases hc : (n : ℝ) ≤ q
  · left
    have : ⌊q⌋ = (n : ℤ) := by rw [Int.floor_eq_iff]; push_cast; exact ⟨hc, hup⟩
    rw [this]
    obtain ⟨f, hf, h1, -, h3⟩ := (getFirN_cases n).2.2 (by omega) (by omega)
    have h1 : f.order = n := by exact_mod_cast h1
    exact ⟨f, hf, h1, by rw [h3, h1]⟩
  · right
    have : ⌊q⌋ = (n : ℤ) - 1 := by rw [Int.floor_eq_iff]; push_cast; exact ⟨hlow, by linarith⟩
    rw [this]
    exact ⟨rfl, (getFirN_cases _).1 (by omega)⟩

/-! ## Non-vacuity -/

/-- 150 m gates and a window of 3 km (the defaults): 20 gates -/
example : ∃ f : Fir XR, getFirF (150 : Binary64) 3 = .ok (some f) ∧ f.order = 20 ∧ f.coef.length = 20 + 1 :=
  C152_whole_km_partial (150 : Binary64) 3 150 3 20 (voflit 150 (by norm_num)) (by rw [voflit 3 (by norm_num)]; norm_num) (by norm_num) (by norm_num) (by norm_num)
    (by norm_num) (by norm_num) (by norm_num)

/-- 149.9 m gates and a window of 2.0986 km -/
example := C152_right_or_none_partial 149.9 2.0986 14 (by norm_num) (by norm_num) (by norm_num) (by norm_num) (by norm_num) (by norm_num)

/-- the four outcomes of `C152_outcomes`: no spacing; a window of 3 gates; of half a gate; of 6 gates -/
example : getFir 0 3 = .error .zeroDivisionError ∧ getFir 100 0.3 = .ok none ∧ getFir 1000 0.5 = .error .valueError ∧
    (∃ f, getFir 100 0.6 = .ok (some f) ∧ (f.order : ℤ) = 6) := by
  refine ⟨(C152_outcomes 0 3).1 rfl, ((C152_outcomes 100 0.3).2 (by norm_num) 3 ?_).1 (by norm_num),
    ((C152_outcomes 1000 0.5).2 (by norm_num) 0 ?_).2.1 (by norm_num) (by norm_num), ?_⟩
  · norm_num [Truncates]
  · norm_num [Truncates]
  · obtain ⟨f, h1, h2, -⟩ := ((C152_outcomes 100 0.6).2 (by norm_num) 6 (by norm_num [Truncates])).2.2 (by norm_num) (by norm_num)
    exact ⟨f, h1, h2⟩

end float
end Csu.Kdp
