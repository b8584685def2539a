import Verif.Props.DsdFloat
import Verif.Props.FhcFloat
/-!
# Property C163: accuracy of the membership values in floating point

In any precision, with every operation rounded, a membership value is within 0.001 of the formula `1 / (1 + (((x - m)/a)^2)^b)` in exact arithmetic.
-/
namespace Csu

/-- a float arithmetic whose `**` does not return a moderate number for a huge result (any mathematical library satisfies this) -/
class IeeeFloatPow (α : Type) extends IeeeFloat α where
  val_pow_big : ∀ a b : α, XR.le (.fin ((2 : ℝ) ^ (100 : ℤ))) (XR.pow (val a) (val b)) = true →
    XR.le (.fin ((2 : ℝ) ^ (99 : ℤ))) (val (PyFloat.pow a b)) = true

noncomputable instance (F : Fmt) : IeeeFloatPow (Bin F) where
  val_pow_big a b h := by
    have h1 : XR.le (IeeeFloat.rnd (α := Bin F) (.fin ((2 : ℝ) ^ (100 : ℤ)))) (IeeeFloat.rnd (α := Bin F) _) = true :=
      IeeeFloat.rnd_mono (α := Bin F) _ _ h
    have h2 := Ieee.rnd_simple (α := Bin F) (Ieee.simple_two_zpow 100 (by norm_num))
    rw [h2] at h1
    have h3 : XR.le (.fin ((2 : ℝ) ^ (99 : ℤ))) (.fin ((2 : ℝ) ^ (100 : ℤ))) = true := by
      rw [Ieee.le_fin]; gcongr <;> norm_num
    have := Ieee.le_trans h3 h1
    have e : IeeeFloat.val (PyFloat.pow a b) = IeeeFloat.rnd (α := Bin F) (XR.pow (IeeeFloat.val a) (IeeeFloat.val b)) := Bin.value_pow F a b
    rw [e]
    exact this

noncomputable instance : IeeeFloatPow XR where
  val_pow_big a b h := by
    have h3 : XR.le (.fin ((2 : ℝ) ^ (99 : ℤ))) (.fin ((2 : ℝ) ^ (100 : ℤ))) = true := by
      rw [Ieee.le_fin]; gcongr <;> norm_num
    exact Ieee.le_trans h3 h

namespace Fhc
open Tables PyFloat IeeeFloat Csu.Rain Csu.Dsd
variable {α : Type} [IeeeFloat α]

/-- rounding a number that is neither tiny nor huge -/
theorem rnd_log {x : ℝ} (h1 : 2 ^ (-70 : ℤ) ≤ |x|) (h2 : |x| ≤ 2 ^ (90 : ℤ)) :
    ∃ r : ℝ, rnd α (.fin x) = .fin r ∧ 0 < |r| ∧ |Real.log r - Real.log x| ≤ 4 * ε := by
  obtain ⟨r, hr, h⟩ := Ieee.rnd_near (α := α) (x := x) (h2.trans (by norm_num))
  have hx : 0 < |x| := _root_.lt_of_lt_of_le (by positivity) h1
  have e : |(|r|) - (|x|)| ≤ 2 * ε * |x| := by
    refine (abs_abs_sub_abs_le r x).trans (h.trans ?_)
    have : (2 : ℝ) ^ (-100 : ℤ) ≤ 2 ^ (-20 : ℤ) * |x| := by
      calc (2 : ℝ) ^ (-100 : ℤ) ≤ 2 ^ (-20 : ℤ) * 2 ^ (-70 : ℤ) := by norm_num
        _ ≤ _ := by gcongr
    unfold ε
    linarith
  obtain ⟨a, b⟩ := log_near hx e (by unfold ε; norm_num)
  rw [Real.log_abs, Real.log_abs] at b
  exact ⟨r, hr, a, b.trans (by linarith)⟩

/-- a close logarithm is at most a factor of two -/
theorem two_of_log {r x : ℝ} (hr : 0 < |r|) (hx : 0 < |x|) (h : |Real.log r - Real.log x| ≤ 1 / 2) : |x| / 2 ≤ |r| ∧ |r| ≤ 2 * |x| :=
  Lc.range (m := 1 / 2) hx hr (by rwa [Real.log_abs, Real.log_abs]) (by norm_num)

/-- the argument of the power: `((x - m)/a)**2`, away from the centre -/
theorem square_log {x m a n : α} {ξ μ w : ℝ} (hx : val x = .fin ξ) (hm : val m = .fin μ) (ha : val a = .fin w) (hn : val n = .fin 2)
    (hξ : |ξ| ≤ 2 ^ (20 : ℤ)) (hμ : |μ| ≤ 2 ^ (20 : ℤ)) (hw : 2 ^ (-20 : ℤ) ≤ |w|) (hw' : |w| ≤ 2 ^ (20 : ℤ))
    (hQ : 2 ^ (-30 : ℤ) ≤ |(ξ - μ) / w|) :
    ∃ p : ℝ, val (((x - m) / a) ^ n) = .fin p ∧ 0 < p ∧ |Real.log p - Real.log (((ξ - μ) / w) ^ 2)| ≤ 20 * ε := by
  have w0 : 0 < |w| := _root_.lt_of_lt_of_le (by positivity) hw
  have wne : w ≠ 0 := abs_pos.mp w0
  have hX : |ξ - μ| ≤ 2 ^ (21 : ℤ) := by
    have := abs_sub ξ μ
    have e : (2 : ℝ) ^ (21 : ℤ) = 2 ^ (20 : ℤ) + 2 ^ (20 : ℤ) := by norm_num
    linarith
  rw [abs_div, le_div_iff₀ w0] at hQ
  have hX' : 2 ^ (-50 : ℤ) ≤ |ξ - μ| := by
    calc (2 : ℝ) ^ (-50 : ℤ) = 2 ^ (-30 : ℤ) * 2 ^ (-20 : ℤ) := by norm_num
      _ ≤ 2 ^ (-30 : ℤ) * |w| := by gcongr
      _ ≤ _ := hQ
  have X0 : 0 < |ξ - μ| := _root_.lt_of_lt_of_le (by positivity) hX'
  obtain ⟨s, hs, s0, hs1⟩ := rnd_log (α := α) (x := ξ - μ) (_root_.le_trans (by norm_num) hX') (hX.trans (by norm_num))
  have vs : val (x - m) = .fin s := by rw [Ieee.vsub, hx, hm]; exact hs
  have hs1' : |Real.log s - Real.log (ξ - μ)| ≤ 1 / 2 := hs1.trans (by unfold ε; norm_num)
  obtain ⟨b1, b2⟩ := two_of_log s0 X0 hs1'
  have q1 : 2 ^ (-31 : ℤ) ≤ |s / w| := by
    rw [abs_div, le_div_iff₀ w0]
    calc (2 : ℝ) ^ (-31 : ℤ) * |w| = (2 ^ (-30 : ℤ) * |w|) / 2 := by rw [show (2 : ℝ) ^ (-31 : ℤ) = 2 ^ (-30 : ℤ) / 2 by norm_num]; ring
      _ ≤ |ξ - μ| / 2 := by gcongr
      _ ≤ _ := b1
  have q2 : |s / w| ≤ 2 ^ (42 : ℤ) := by
    rw [abs_div, div_le_iff₀ w0]
    calc |s| ≤ 2 * 2 ^ (21 : ℤ) := b2.trans (by linarith)
      _ = 2 ^ (42 : ℤ) * 2 ^ (-20 : ℤ) := by norm_num
      _ ≤ _ := by gcongr
  obtain ⟨q, hq, q0, hq1⟩ := rnd_log (α := α) (x := s / w) (_root_.le_trans (by norm_num) q1) (q2.trans (by norm_num))
  have vq : val ((x - m) / a) = .fin q := by
    rw [Ieee.vdiv _ _ (by rw [ha]; simpa using wne), vs, ha, XR.fdiv wne]
    exact hq
  have Q0 : 0 < |s / w| := _root_.lt_of_lt_of_le (by positivity) q1
  obtain ⟨c1, c2⟩ := two_of_log q0 Q0 (hq1.trans (by unfold ε; norm_num))
  have he : XR.pow (val ((x - m) / a)) (val n) = .fin (q ^ 2) := by
    rw [vq, hn]; exact_mod_cast Fund.powFin_nat q 2 (by norm_num)
  have qq : q ^ 2 = |q| ^ 2 := (sq_abs q).symm
  have e1 : (2 : ℝ) ^ (-64 : ℤ) ≤ q ^ 2 := by
    rw [qq]
    calc (2 : ℝ) ^ (-64 : ℤ) = (2 ^ (-31 : ℤ) / 2) ^ 2 := by norm_num
      _ ≤ |q| ^ 2 := by gcongr; linarith
  have e2 : q ^ 2 ≤ 2 ^ (86 : ℤ) := by
    rw [qq]
    calc |q| ^ 2 ≤ (2 * 2 ^ (42 : ℤ)) ^ 2 := by gcongr; linarith
      _ = 2 ^ (86 : ℤ) := by norm_num
  have q20 : 0 < q ^ 2 := _root_.lt_of_lt_of_le (by positivity) e1
  obtain ⟨p, hp, h⟩ := val_pow_near ((x - m) / a) n (q ^ 2) he (by rw [abs_of_pos q20]; exact e2.trans (by norm_num))
  rw [abs_of_pos q20] at h
  have h' : |p - q ^ 2| ≤ 2 * ε * q ^ 2 := by
    refine h.trans ?_
    have : (2 : ℝ) ^ (-100 : ℤ) ≤ 2 ^ (-20 : ℤ) * q ^ 2 := by
      calc (2 : ℝ) ^ (-100 : ℤ) ≤ 2 ^ (-20 : ℤ) * 2 ^ (-64 : ℤ) := by norm_num
        _ ≤ _ := by gcongr
    unfold ε
    linarith
  obtain ⟨p0, hp1⟩ := log_near q20 h' (by unfold ε; norm_num)
  refine ⟨p, hp, p0, ?_⟩
  have l1 : Real.log (q ^ 2) = 2 * Real.log q := by rw [Real.log_pow]; norm_num
  have l2 : Real.log (((ξ - μ) / w) ^ 2) = 2 * (Real.log (ξ - μ) - Real.log w) := by
    rw [Real.log_pow, Real.log_div (abs_pos.mp X0) wne]; norm_num
  have l3 : Real.log (s / w) = Real.log s - Real.log w := Real.log_div (abs_pos.mp s0) wne
  rw [l1] at hp1
  rw [l3] at hq1
  rw [l2]
  rw [abs_le] at *
  constructor <;> linarith [hp1.1, hp1.2, hq1.1, hq1.2, hs1.1, hs1.2]

/-- the argument of the power, near the centre -/
theorem square_small {x m a n : α} {ξ μ w : ℝ} (hx : val x = .fin ξ) (hm : val m = .fin μ) (ha : val a = .fin w) (hn : val n = .fin 2)
    (hw : 2 ^ (-20 : ℤ) ≤ |w|) (hw' : |w| ≤ 2 ^ (20 : ℤ)) (hQ : |(ξ - μ) / w| ≤ 2 ^ (-30 : ℤ)) :
    ∃ p : ℝ, val (((x - m) / a) ^ n) = .fin p ∧ 0 ≤ p ∧ p ≤ 2 ^ (-50 : ℤ) := by
  have w0 : 0 < |w| := _root_.lt_of_lt_of_le (by positivity) hw
  have wne : w ≠ 0 := abs_pos.mp w0
  rw [abs_div, div_le_iff₀ w0] at hQ
  have hX : |ξ - μ| ≤ 2 ^ (-10 : ℤ) := by
    calc _ ≤ _ := hQ
      _ ≤ 2 ^ (-30 : ℤ) * 2 ^ (20 : ℤ) := by gcongr
      _ = _ := by norm_num
  obtain ⟨s, hs, hs1⟩ := Ieee.rnd_near (α := α) (x := ξ - μ) (hX.trans (by norm_num))
  have vs : val (x - m) = .fin s := by rw [Ieee.vsub, hx, hm]; exact hs
  have bs : |s| ≤ 2 * |ξ - μ| + 2 ^ (-100 : ℤ) := by
    have h1 := abs_sub_abs_le_abs_sub s (ξ - μ)
    have h2 : (2 : ℝ) ^ (-20 : ℤ) * |ξ - μ| ≤ 1 * |ξ - μ| := by gcongr; norm_num
    linarith
  have q1 : |s / w| ≤ 2 ^ (-28 : ℤ) := by
    rw [abs_div, div_le_iff₀ w0]
    calc |s| ≤ 2 * (2 ^ (-30 : ℤ) * |w|) + 2 ^ (-80 : ℤ) * 2 ^ (-20 : ℤ) := by
          refine bs.trans (add_le_add (by gcongr) (by norm_num))
      _ ≤ 2 * (2 ^ (-30 : ℤ) * |w|) + 2 ^ (-80 : ℤ) * |w| := by gcongr
      _ = (2 * 2 ^ (-30 : ℤ) + 2 ^ (-80 : ℤ)) * |w| := by ring
      _ ≤ _ := by gcongr; norm_num
  obtain ⟨q, hq, hq1⟩ := Ieee.rnd_near (α := α) (x := s / w) (q1.trans (by norm_num))
  have vq : val ((x - m) / a) = .fin q := by
    rw [Ieee.vdiv _ _ (by rw [ha]; simpa using wne), vs, ha, XR.fdiv wne]
    exact hq
  have bq : |q| ≤ 2 ^ (-26 : ℤ) := by
    have h1 := abs_sub_abs_le_abs_sub q (s / w)
    have h2 : (2 : ℝ) ^ (-20 : ℤ) * |s / w| ≤ 1 * 2 ^ (-28 : ℤ) := by gcongr; norm_num
    calc |q| ≤ |s / w| + |q - s / w| := by linarith
      _ ≤ 2 ^ (-28 : ℤ) + (1 * 2 ^ (-28 : ℤ) + 2 ^ (-100 : ℤ)) := add_le_add q1 (hq1.trans (add_le_add h2 (_root_.le_refl _)))
      _ ≤ _ := by norm_num
  have he : XR.pow (val ((x - m) / a)) (val n) = .fin (q ^ 2) := by
    rw [vq, hn]; exact_mod_cast Fund.powFin_nat q 2 (by norm_num)
  have e2 : |q ^ 2| ≤ 2 ^ (-52 : ℤ) := by
    rw [abs_pow]
    calc |q| ^ 2 ≤ (2 ^ (-26 : ℤ)) ^ 2 := by gcongr
      _ = _ := by norm_num
  obtain ⟨p, hp, h⟩ := val_pow_near ((x - m) / a) n (q ^ 2) he (e2.trans (by norm_num))
  have hside := val_pow ((x - m) / a) n (.inr (by rw [hn]; simp))
  have p0 : 0 ≤ p := by
    have := hside.ge0 (by rw [he]; simp; positivity)
    rw [show val (PyFloat.pow ((x - m) / a) n) = .fin p from hp] at this
    simpa using this
  refine ⟨p, hp, p0, ?_⟩
  have h1 := abs_sub_abs_le_abs_sub p (q ^ 2)
  rw [abs_of_nonneg p0] at h1
  have h2 : (2 : ℝ) ^ (-20 : ℤ) * |q ^ 2| ≤ 1 * 2 ^ (-52 : ℤ) := by gcongr; norm_num
  have h3 : p ≤ 2 ^ (-52 : ℤ) + 1 * 2 ^ (-52 : ℤ) + 2 ^ (-100 : ℤ) := by linarith
  exact h3.trans (by norm_num)

/-- the last two operations, on a power of moderate size: within `4ε` of the exact quotient -/
theorem tail_near {u : α} {P : ℝ} (hu : val u = .fin P) (h0 : 0 ≤ P) (h1 : P ≤ 2 ^ (92 : ℤ)) :
    ∃ v : ℝ, val (1.0 / (1.0 + u)) = .fin v ∧ |v - 1 / (1 + P)| ≤ 8 * ε := by
  have v1 : val (1.0 : α) = .fin 1 := by
    rw [val_dec _ _ _ (by norm_num; exact Ieee.simple_one)]; norm_num
  have hP : |1 + P| = 1 + P := abs_of_pos (by linarith)
  have hP' : |1 + P| ≤ 2 ^ (100 : ℤ) := by
    rw [hP]
    calc 1 + P ≤ 1 + 2 ^ (92 : ℤ) := by gcongr
      _ ≤ _ := by norm_num
  obtain ⟨d, hd, hd1⟩ := Ieee.rnd_near (α := α) hP'
  have vd : val (1.0 + u) = .fin d := by rw [Ieee.vadd, v1, hu]; exact hd
  rw [hP] at hd1
  have hd2 : |d - (1 + P)| ≤ 2 * ε * (1 + P) := by
    refine hd1.trans ?_
    have : (2 : ℝ) ^ (-100 : ℤ) ≤ 2 ^ (-20 : ℤ) * (1 + P) := by
      calc (2 : ℝ) ^ (-100 : ℤ) ≤ 2 ^ (-20 : ℤ) * 1 := by norm_num
        _ ≤ _ := by gcongr; linarith
    unfold ε
    linarith
  have e0 : ε ≤ 1 / 100 := by unfold ε; norm_num
  have εp := ε_pos
  have d0 : (1 + P) / 2 ≤ d := by
    have := (abs_le.mp hd2).1
    nlinarith
  have dpos : 0 < d := by linarith
  have hdd : |1 / d - 1 / (1 + P)| ≤ 4 * ε := by
    have : 1 / d - 1 / (1 + P) = (1 + P - d) / (d * (1 + P)) := by field_simp
    rw [this, abs_div, abs_of_pos (show 0 < d * (1 + P) by positivity), div_le_iff₀ (by positivity), abs_sub_comm]
    calc _ ≤ 2 * ε * (1 + P) := hd2
      _ = 4 * ε * (1 / 2 * (1 + P)) := by ring
      _ ≤ 4 * ε * (d * (1 + P)) := by gcongr; linarith
  have hq1 : |1 / d| ≤ 2 := by
    rw [abs_of_pos (by positivity), div_le_iff₀ dpos]; linarith
  obtain ⟨v, hv, hv1⟩ := Ieee.rnd_near (α := α) (x := 1 / d) (hq1.trans (by norm_num))
  refine ⟨v, ?_, ?_⟩
  · rw [Ieee.vdiv _ _ (by rw [vd]; simpa using dpos.ne'), v1, vd, XR.fdiv dpos.ne']
    exact hv
  · have h2 : |v - 1 / d| ≤ 4 * ε := by
      refine hv1.trans ?_
      calc (2 : ℝ) ^ (-20 : ℤ) * |1 / d| + 2 ^ (-100 : ℤ) ≤ 2 ^ (-20 : ℤ) * 2 + 2 ^ (-100 : ℤ) := by gcongr
        _ ≤ 4 * ε := by unfold ε; norm_num
    calc |v - 1 / (1 + P)| = |(v - 1 / d) + (1 / d - 1 / (1 + P))| := by ring_nf
      _ ≤ _ := abs_add_le _ _
      _ ≤ _ := by linarith

/-- the last two operations, on a huge power -/
theorem tail_big {u : α} (hu : XR.le (.fin (2 ^ (88 : ℤ))) (val u) = true) :
    ∃ v : ℝ, val (1.0 / (1.0 + u)) = .fin v ∧ 0 ≤ v ∧ v ≤ 2 ^ (-88 : ℤ) := by
  have v1 : val (1.0 : α) = .fin 1 := by
    rw [val_dec _ _ _ (by norm_num; exact Ieee.simple_one)]; norm_num
  have hs : Ieee.Simple ((2 : ℝ) ^ (88 : ℤ)) := Ieee.simple_two_zpow 88 (by norm_num)
  have hd : XR.le (.fin (2 ^ (88 : ℤ))) (val (1.0 + u)) = true := by
    rw [Ieee.vadd, v1]
    apply Ieee.rnd_ge hs
    rcases Ieee.nonneg_cases hu with h | ⟨r, h, hr⟩
    · rw [h]; rfl
    · rw [h]
      show XR.le _ (.fin (1 + r)) = true
      rw [Ieee.le_fin]; linarith
  have hlo : (0 : ℝ) < 2 ^ (88 : ℤ) := by positivity
  have hne : val (1.0 + u) ≠ .fin 0 := by
    rcases Ieee.nonneg_cases hd with h | ⟨r, h, hr⟩
    · rw [h]; simp
    · rw [h]; simp; linarith
  have hq : XR.le (.fin 0) (val (1.0 : α) / val (1.0 + u)) = true ∧ XR.le (val (1.0 : α) / val (1.0 + u)) (.fin (2 ^ (-88 : ℤ))) = true := by
    rw [v1]
    rcases Ieee.nonneg_cases hd with h | ⟨r, h, hr⟩
    · rw [h]
      have : (XR.fin 1 / XR.pinf : XR) = .fin 0 := rfl
      rw [this, Ieee.le_fin, Ieee.le_fin]
      exact ⟨le_rfl, by positivity⟩
    · have r0 : 0 < r := by linarith
      rw [h, XR.fdiv r0.ne', Ieee.le_fin, Ieee.le_fin]
      refine ⟨by positivity, ?_⟩
      rw [div_le_iff₀ r0]
      calc (1 : ℝ) = 2 ^ (-88 : ℤ) * 2 ^ (88 : ℤ) := by norm_num
        _ ≤ _ := by gcongr
  rw [Ieee.vdiv _ _ hne]
  have g1 := Ieee.rnd_ge (α := α) Ieee.simple_zero hq.1
  have g2 := Ieee.rnd_le (α := α) (Ieee.simple_two_zpow (-88) (by norm_num)) hq.2
  obtain ⟨v, hv, a, b⟩ := Ieee.between g1 g2
  exact ⟨v, hv, a, b⟩

/-- the exact membership -/
noncomputable def exactBeta (m a b x : ℝ) : ℝ := 1 / (1 + (((x - m) / a) ^ 2) ^ b)

/-- two quotients -/
theorem quot_close {E P η : ℝ} (hE : 0 ≤ E) (hη : 0 ≤ η) (hη' : η ≤ 1 / 10) (h : |P - E| ≤ η * E) : |1 / (1 + P) - 1 / (1 + E)| ≤ η / 3 := by
  obtain ⟨h1, h2⟩ := abs_le.mp h
  have hP : 9 / 10 * E ≤ P := by nlinarith
  have p1 : 0 < 1 + P := by linarith
  have p2 : 0 < 1 + E := by linarith
  have e : 1 / (1 + P) - 1 / (1 + E) = (E - P) / ((1 + P) * (1 + E)) := by field_simp; ring
  rw [e, abs_div, abs_of_pos (mul_pos p1 p2), div_le_iff₀ (mul_pos p1 p2), abs_sub_comm]
  refine h.trans ?_
  have k : E ≤ 1 / 3 * ((1 + P) * (1 + E)) := by
    have hx : (1 + 9 / 10 * E) * (1 + E) ≤ (1 + P) * (1 + E) := by gcongr
    nlinarith [sq_nonneg (E - 1)]
  calc η * E ≤ η * (1 / 3 * ((1 + P) * (1 + E))) := by gcongr
    _ = _ := by ring

/-- what the membership functions are given: finite numbers of moderate size, a width that is not tiny, an exponent from 1/2 to 100 -/
structure Usual (x m a b : α) (ξ μ w β : ℝ) : Prop where
  hx : val x = .fin ξ
  hm : val m = .fin μ
  ha : val a = .fin w
  hb : val b = .fin β
  bx : |ξ| ≤ 2 ^ (20 : ℤ)
  bm : |μ| ≤ 2 ^ (20 : ℤ)
  wlo : 2 ^ (-20 : ℤ) ≤ |w|
  whi : |w| ≤ 2 ^ (20 : ℤ)
  blo : 1 / 2 ≤ β
  bhi : β ≤ 100

/-- a power of a number close to zero -/
theorem small_rpow {t β : ℝ} (h0 : 0 ≤ t) (h1 : t ≤ 2 ^ (-50 : ℤ)) (hb : 1 / 2 ≤ β) : 0 ≤ t ^ β ∧ t ^ β ≤ 2 ^ (-25 : ℤ) := by
  refine ⟨Real.rpow_nonneg h0 _, ?_⟩
  have ht : t ≤ 1 := h1.trans (by norm_num)
  calc t ^ β ≤ t ^ (1 / 2 : ℝ) := by
        rcases h0.eq_or_lt with h | h
        · rw [← h, Real.zero_rpow (by linarith), Real.zero_rpow (by norm_num)]
        · exact Real.rpow_le_rpow_of_exponent_ge h ht hb
    _ ≤ ((2 : ℝ) ^ (-50 : ℤ)) ^ (1 / 2 : ℝ) := by gcongr
    _ = 2 ^ (-25 : ℤ) := by
        rw [← Real.sqrt_eq_rpow, show (2 : ℝ) ^ (-50 : ℤ) = (2 ^ (-25 : ℤ)) ^ 2 by norm_num, Real.sqrt_sq (by positivity)]

theorem powFin_pos {t β : ℝ} (h0 : 0 ≤ t) (hb : 0 < β) : XR.powFin t β = .fin (t ^ β) := by
  unfold XR.powFin
  rcases h0.eq_or_lt with h | h
  · rw [← h]; simp [hb, Real.zero_rpow hb.ne']
  · rw [if_pos h]

/-- **membership accuracy**, one gate -/
theorem beta_close [IeeeFloatPow α'] {x m a b : α'} {ξ μ w β : ℝ} (h : Usual x m a b ξ μ w β) :
    ∃ v : ℝ, val (beta ⟨m, a, b⟩ x) = .fin v ∧ |v - exactBeta μ w β ξ| ≤ 1 / 1000 := by
  obtain ⟨hx, hm, ha, hb, bx, bm, wlo, whi, blo, bhi⟩ := h
  have hn : val (2.0 : α') = .fin 2 := by
    rw [val_dec _ _ _ (by norm_num; exact Ieee.simple_int 2 (by norm_num))]; norm_num
  have b0 : 0 < β := by linarith
  have εs : ε ≤ 1 / 1000000 := by unfold ε; norm_num
  have εp := ε_pos
  unfold beta exactBeta
  simp only
  set t : α' := ((x - m) / a) ^ (2.0 : α') with ht
  set Q : ℝ := ((ξ - μ) / w) ^ 2 with hQdef
  have Q0 : 0 ≤ Q := sq_nonneg _
  have E0 : 0 ≤ Q ^ β := Real.rpow_nonneg Q0 _
  rcases le_total |(ξ - μ) / w| (2 ^ (-30 : ℤ)) with hQ | hQ
  · -- near the centre
    obtain ⟨p, hp, p0, p1⟩ := square_small hx hm ha hn wlo whi hQ
    have Qs : Q ≤ 2 ^ (-50 : ℤ) := by
      rw [hQdef, ← sq_abs]
      calc |(ξ - μ) / w| ^ 2 ≤ (2 ^ (-30 : ℤ)) ^ 2 := by gcongr
        _ ≤ _ := by norm_num
    obtain ⟨_, Es⟩ := small_rpow Q0 Qs blo
    obtain ⟨e0, es⟩ := small_rpow p0 p1 blo
    have he : XR.pow (val t) (val b) = .fin (p ^ β) := by rw [ht, hp, hb]; exact powFin_pos p0 b0
    obtain ⟨P, hP, hP1⟩ := val_pow_near t b (p ^ β) he (by rw [abs_of_nonneg e0]; exact es.trans (by norm_num))
    rw [abs_of_nonneg e0] at hP1
    have P0 : 0 ≤ P := by
      have := (val_pow t b (.inr (by rw [hb]; simpa using b0.le))).ge0 (by rw [he]; simpa using e0)
      rw [hP] at this
      simpa using this
    have Ps : P ≤ 2 ^ (-23 : ℤ) := by
      have h2 : (2 : ℝ) ^ (-20 : ℤ) * p ^ β ≤ 1 * 2 ^ (-25 : ℤ) := by gcongr; norm_num
      calc P ≤ p ^ β + |P - p ^ β| := by linarith [le_abs_self (P - p ^ β)]
        _ ≤ 2 ^ (-25 : ℤ) + (1 * 2 ^ (-25 : ℤ) + 2 ^ (-100 : ℤ)) := add_le_add es (hP1.trans (add_le_add h2 (_root_.le_refl _)))
        _ ≤ _ := by norm_num
    obtain ⟨v, hv, hv1⟩ := tail_near (u := t ^ b) hP P0 (Ps.trans (by norm_num))
    refine ⟨v, hv, ?_⟩
    have one : ∀ y : ℝ, 0 ≤ y → y ≤ 1 / 1000000 → |1 / (1 + y) - 1| ≤ 1 / 1000000 := by
      intro y h0 h1
      have : 1 / (1 + y) - 1 = -(y / (1 + y)) := by field_simp; ring
      rw [this, abs_neg, abs_of_nonneg (by positivity), div_le_iff₀ (by linarith)]
      nlinarith
    have a1 := one P P0 (Ps.trans (by norm_num))
    have a2 := one (Q ^ β) E0 (Es.trans (by norm_num))
    rw [abs_le] at *
    constructor <;> linarith [hv1.1, hv1.2, a1.1, a1.2, a2.1, a2.2]
  · -- away from the centre
    obtain ⟨p, hp, p0, p1⟩ := square_log hx hm ha hn bx bm wlo whi hQ
    have Qp : 0 < Q := by
      rw [hQdef, ← sq_abs]
      have : (0 : ℝ) < |(ξ - μ) / w| := _root_.lt_of_lt_of_le (by positivity) hQ
      positivity
    have Ep : 0 < Q ^ β := Real.rpow_pos_of_pos Qp _
    have ep : 0 < p ^ β := Real.rpow_pos_of_pos p0 _
    have he : XR.pow (val t) (val b) = .fin (p ^ β) := by rw [ht, hp, hb]; exact powFin_pos p0.le b0
    have hlog : |Real.log (p ^ β) - Real.log (Q ^ β)| ≤ 2000 * ε := by
      rw [Real.log_rpow p0, Real.log_rpow Qp, ← mul_sub, abs_mul, abs_of_pos b0]
      calc β * |Real.log p - Real.log Q| ≤ 100 * (20 * ε) := by gcongr
        _ = _ := by ring
    have hs : |Real.log (p ^ β / Q ^ β)| ≤ 2000 * ε := by rwa [Real.log_div ep.ne' Ep.ne']
    have hr : |p ^ β / Q ^ β - 1| ≤ 2200 * ε := by
      have h1 := Real.abs_exp_sub_one_sub_id_le (x := Real.log (p ^ β / Q ^ β)) (hs.trans (by linarith))
      rw [Real.exp_log (by positivity)] at h1
      have h2 : Real.log (p ^ β / Q ^ β) ^ 2 ≤ 200 * ε := by
        rw [← sq_abs]
        calc |Real.log (p ^ β / Q ^ β)| ^ 2 ≤ (2000 * ε) ^ 2 := by gcongr
          _ = 4000000 * ε * ε := by ring
          _ ≤ 200 * ε := by gcongr; unfold ε; norm_num
      rw [abs_le] at *
      constructor <;> linarith [h1.1, h1.2, hs.1, hs.2]
    have hpE : |p ^ β - Q ^ β| ≤ 2200 * ε * Q ^ β := by
      have : p ^ β - Q ^ β = (p ^ β / Q ^ β - 1) * Q ^ β := by field_simp
      rw [this, abs_mul, abs_of_pos Ep]
      gcongr
    have hpE2 : p ^ β ≤ 2 * Q ^ β := by
      have h1 := (abs_le.mp hpE).2
      have h2 : 2200 * ε * Q ^ β ≤ 1 * Q ^ β := by gcongr; linarith
      linarith
    rcases le_total (p ^ β) (2 ^ (90 : ℤ)) with hbig | hbig
    · obtain ⟨P, hP, hP1⟩ := val_pow_near t b (p ^ β) he (by rw [abs_of_pos ep]; exact hbig.trans (by norm_num))
      rw [abs_of_pos ep] at hP1
      have P0 : 0 ≤ P := by
        have := (val_pow t b (.inr (by rw [hb]; simpa using b0.le))).ge0 (by rw [he]; simpa using ep.le)
        rw [hP] at this
        simpa using this
      have Ps : P ≤ 2 ^ (92 : ℤ) := by
        calc P ≤ p ^ β + |P - p ^ β| := by linarith [le_abs_self (P - p ^ β)]
          _ ≤ 2 ^ (90 : ℤ) + (2 ^ (-20 : ℤ) * 2 ^ (90 : ℤ) + 2 ^ (-100 : ℤ)) := add_le_add hbig (hP1.trans (by gcongr))
          _ ≤ _ := by norm_num
      obtain ⟨v, hv, hv1⟩ := tail_near (u := t ^ b) hP P0 Ps
      refine ⟨v, hv, ?_⟩
      have c1 : |1 / (1 + P) - 1 / (1 + p ^ β)| ≤ 2 * ε := by
        have k1 : 0 < 1 + P := by linarith
        have k2 : 0 < 1 + p ^ β := by linarith
        have e : 1 / (1 + P) - 1 / (1 + p ^ β) = (p ^ β - P) / ((1 + P) * (1 + p ^ β)) := by field_simp; ring
        rw [e, abs_div, abs_of_pos (mul_pos k1 k2), div_le_iff₀ (mul_pos k1 k2), abs_sub_comm]
        have k3 : |P - p ^ β| ≤ ε * p ^ β + 2 * ε := by
          refine hP1.trans (add_le_add (_root_.le_refl _) ?_)
          unfold ε; norm_num
        have k4 : 1 + p ^ β ≤ (1 + P) * (1 + p ^ β) := by nlinarith
        have k5 : 2 * ε * (1 + p ^ β) ≤ 2 * ε * ((1 + P) * (1 + p ^ β)) := by gcongr
        have k6 : 0 ≤ ε * p ^ β := by positivity
        linarith
      have c2 := quot_close (E := Q ^ β) (P := p ^ β) (η := 2200 * ε) E0 (by linarith) (by linarith) hpE
      rw [abs_le] at *
      constructor <;> linarith [hv1.1, hv1.2, c1.1, c1.2, c2.1, c2.2]
    · have hu : XR.le (.fin (2 ^ (88 : ℤ))) (val (t ^ b)) = true := by
        rcases le_total (p ^ β) (2 ^ (100 : ℤ)) with h100 | h100
        · have h1 := (val_pow_acc t b p β (by rw [ht, hp]) hb p0 (_root_.le_trans (by norm_num) hbig) h100).1
          refine Ieee.le_trans ?_ h1
          rw [Ieee.le_fin]
          calc (2 : ℝ) ^ (88 : ℤ) ≤ 2 ^ (90 : ℤ) / 2 := by norm_num
            _ ≤ _ := by gcongr
        · have h1 := IeeeFloatPow.val_pow_big t b (by rw [he, Ieee.le_fin]; exact h100)
          refine Ieee.le_trans ?_ h1
          rw [Ieee.le_fin]; norm_num
      obtain ⟨v, hv, v0, v1⟩ := tail_big (u := t ^ b) hu
      refine ⟨v, hv, ?_⟩
      have c1 : 1 / (1 + Q ^ β) ≤ 1 / 1000 := by
        apply one_div_le_one_div_of_le (by norm_num)
        have : (2 : ℝ) ^ (90 : ℤ) = 1237940039285380274899124224 := by norm_num
        linarith
      have c0 : 0 ≤ 1 / (1 + Q ^ β) := by positivity
      have c2 : v ≤ 1 / 1000 := v1.trans (by norm_num)
      rw [abs_le]
      constructor <;> linarith

/-- **C163.** `hid_beta_f` on finite numbers of moderate size, with a width that is not tiny and an exponent from 1/2 to 100: every value it returns is
within 0.001 of the formula in exact arithmetic, whatever the precision. -/
theorem C163_membership [IeeeFloatPow α'] (xs : List α') (r : Row α') (μ w β : ℝ) (ξ : List ℝ) (hlen : ξ.length = xs.length)
    (h : ∀ i (hi : i < xs.length), Usual xs[i] r.m r.a r.b (ξ[i]'(by omega)) μ w β) :
    ∃ vs, hidBetaF xs.length xs r = .ok vs ∧ vs.length = xs.length ∧
      ∀ i (hi : i < xs.length), ∃ v : ℝ, (vs[i]?).map val = some (.fin v) ∧ |v - 1 / (1 + ((((ξ[i]'(by omega)) - μ) / w) ^ 2) ^ β)| ≤ 1 / 1000 := by
  have hok : hidBetaF xs.length xs r = .ok (xs.map (beta r)) := by
    unfold hidBetaF
    split_ifs with h1 h2 h3
    · rw [List.length_eq_zero_iff.mp h1]; rfl
    · obtain ⟨-, -, ha, -, -, -, wlo, -, -, -⟩ := h 0 (by omega)
      have z : (r.a ==. 0) = XR.eq (val r.a) (.fin 0) := by
        have := val_eq r.a (0 : α')
        rw [Ieee.vzero] at this
        exact this
      rw [z, ha] at h2
      have : w = 0 := by simpa [XR.eq] using h2
      rw [this] at wlo
      norm_num at wlo
    · omega
    · rw [List.take_length]
  refine ⟨_, hok, by simp, fun i hi => ?_⟩
  obtain ⟨v, hv, hv1⟩ := beta_close (h i hi)
  refine ⟨v, ?_, hv1⟩
  rw [List.getElem?_map, List.getElem?_eq_getElem hi]
  exact congrArg some hv

theorem table_b (band : String) (s : Season) (k : Key) (rows : List RawRow) (h : csv band s k = some rows) (r : RawRow) (hr : r ∈ rows)
    (n : ℤ) (hn : r.b = some n) : 1000 ≤ n ∧ n ≤ 100000 := by
  have hb : band ∈ bands := (C19_bands band s k).mp (by rw [h]; rfl)
  have all : bands.all (fun b => [Season.summer, .winter, .ml].all (fun s => keys.all (fun k => ((csv b s k).getD []).all
      (fun r => decide (1000 ≤ r.b.getD 1000 ∧ r.b.getD 1000 ≤ 100000))))) = true := by decide
  have h1 := List.all_eq_true.mp all band hb
  have h2 := List.all_eq_true.mp h1 s (by cases s <;> simp)
  have h3 := List.all_eq_true.mp h2 k (mem_keys k)
  rw [h] at h3
  have h4 := List.all_eq_true.mp h3 r hr
  simpa [hn] using h4

theorem div_one {a : α} {y : ℝ} (h : val a = .fin y) : val (a / 1.0) = .fin y := by
  rw [Ieee.vdiv _ _ (by rw [v1]; simp), h, v1, XR.fdiv one_ne_zero, _root_.div_one, ← h, rnd_val]

/-- **C163.** The rows of the shipped parameter files, as the classifiers use them (no temperature factor), are such parameters. -/
theorem C163_shipped (band : String) (s : Season) (k : Key) (rows : List RawRow) (h : csv band s k = some rows) (r : RawRow) (hr : r ∈ rows)
    (hg : GoodRow r) : ∃ μ w β : ℝ, ∀ (x : α) (ξ : ℝ), val x = .fin ξ → |ξ| ≤ 2 ^ (20 : ℤ) →
      Usual x (rawVal r.m / 1.0) (rawVal r.a / 1.0) (rawVal r.b / 1.0) ξ μ w β := by
  have small := table_small band s k rows h r hr
  have hbb := table_b band s k rows h r hr
  obtain ⟨m, a, b, rfl, ha, hb⟩ := hg
  obtain ⟨x, hx, x1, -⟩ := rawVal_float (α := α) m (small m (by simp))
  obtain ⟨y, hy, y1, y2⟩ := rawVal_float (α := α) a (small a (by simp))
  obtain ⟨b1, b2⟩ := hbb b rfl
  have hz : ∃ z : ℝ, val (rawVal (some b) : α) = .fin z ∧ 1 ≤ z ∧ z ≤ 100 := by
    have hq : (((b : ℚ) / 1000 : ℚ) : ℝ) = (b : ℝ) / 1000 := by push_cast; rfl
    have hv : val (rawVal (some b) : α) = rnd α (.fin ((b : ℝ) / 1000)) := by
      show val (PyFloat.lit ((b : ℚ) / 1000) : α) = _
      rw [Ieee.vlit, hq]
    have r1 : (1000 : ℝ) ≤ b := by exact_mod_cast b1
    have r2 : (b : ℝ) ≤ 100000 := by exact_mod_cast b2
    obtain ⟨z, hz, c1, c2⟩ := Ieee.between (Ieee.rnd_ge (α := α) Ieee.simple_one (x := .fin ((b : ℝ) / 1000)) (by rw [Ieee.le_fin]; linarith))
      (Ieee.rnd_le (α := α) (a := 100) (by exact_mod_cast Ieee.simple_int 100 (by norm_num)) (by rw [Ieee.le_fin]; linarith))
    exact ⟨z, hv.trans hz, c1, c2⟩
  obtain ⟨z, hz, z1, z2⟩ := hz
  have ypos : 2 ^ (-10 : ℤ) ≤ |y| := (y2 ha).trans (le_abs_self y)
  refine ⟨x, y, z, fun t ξ ht hξ => ⟨ht, div_one hx, div_one hy, div_one hz, hξ, x1.trans (by norm_num), _root_.le_trans (by norm_num) ypos, y1.trans (by norm_num),
    by linarith, z2⟩⟩

-- the shipped rain row for the reflectivity at S band, in single precision
example : (⟨some 41500, some 15500, some 10000⟩ : RawRow) ∈ Tables.tabS_summer_DZ ∧ csv "S" .summer .DZ = some Tables.tabS_summer_DZ ∧
    GoodRow ⟨some 41500, some 15500, some 10000⟩ := ⟨by decide, rfl, _, _, _, rfl, by decide, by decide⟩
-- single precision satisfies the hypotheses
noncomputable example : IeeeFloatPow Binary32 := inferInstance

end Fhc
end Csu
