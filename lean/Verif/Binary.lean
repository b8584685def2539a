import Verif.Ieee
import Mathlib.Data.Int.Log
/-!
# Binary floating point: the instances of `IeeeFloat`

Round-to-nearest, ties to even, with subnormals and overflow to infinity, in any binary format with at least the precision and range of
binary32.  `Binary32` and `Binary64` are the formats of NumPy's `float32` and `float64`.  The sign of zero is not represented (`x / 0`
takes the sign of `x`), and the library functions `pow`, `log10`, `sin` ... are the exact functions, rounded.

Also: `XR`, exact arithmetic, is an instance (nothing is rounded), so the theorems about `IeeeFloat` hold for it too.
-/
namespace Csu
open PyFloat

/-- a binary format: `p` bits of precision, least significant bits of weight `2^emin` to `2^emax` -/
structure Fmt where
  p : ℕ
  emin : ℤ
  emax : ℤ
  hp : 24 ≤ p
  hmin : emin + p ≤ -100
  hmin32 : emin ≤ -149
  hmax : 104 ≤ emax
  deriving Repr

namespace Fmt
noncomputable section

/-- nearest integer, ties to even -/
def rne (x : ℝ) : ℤ :=
  if Int.fract x < 1 / 2 then ⌊x⌋ else if 1 / 2 < Int.fract x then ⌊x⌋ + 1 else if ⌊x⌋ % 2 = 0 then ⌊x⌋ else ⌊x⌋ + 1

theorem rne_ge (x : ℝ) : ⌊x⌋ ≤ rne x := by unfold rne; split_ifs <;> omega
theorem rne_le (x : ℝ) : rne x ≤ ⌊x⌋ + 1 := by unfold rne; split_ifs <;> omega
theorem rne_int (n : ℤ) : rne (n : ℝ) = n := by simp [rne]
theorem rne_mono {x y : ℝ} (h : x ≤ y) : rne x ≤ rne y := by
  have hf := Int.floor_le_floor h
  rcases hf.lt_or_eq with hlt | heq
  · have := rne_le x
    have := rne_ge y
    omega
  · have hx : Int.fract x ≤ Int.fract y := by
      unfold Int.fract; rw [heq]; linarith
    unfold rne
    rw [heq]
    split_ifs <;> first | omega | (exfalso; linarith)

/-- the nearest integer is at most one half away -/
theorem rne_near (x : ℝ) : |(rne x : ℝ) - x| ≤ 1 / 2 := by
  have h1 := Int.self_sub_floor x
  have h2 := Int.fract_nonneg x
  have h3 := Int.fract_lt_one x
  unfold rne
  rw [abs_le]
  split_ifs <;> push_cast <;> constructor <;> linarith

variable (F : Fmt)

/-- weight of the last bit of a positive number -/
def ulp (x : ℝ) : ℤ := max F.emin (Int.log 2 x - F.p + 1)

/-- nearest number with `p` bits, ties to even, for `0 < x` and no upper limit of the exponent -/
def near (x : ℝ) : ℝ := rne (x / 2 ^ F.ulp x) * 2 ^ F.ulp x

/-- the largest finite number -/
def big : ℝ := (2 ^ F.p - 1) * 2 ^ F.emax

/-- rounding of a positive real -/
def rndPos (x : ℝ) : XR := if F.near x ≤ F.big then .fin (F.near x) else .pinf

/-- rounding -/
def round : XR → XR
  | .fin x => if 0 < x then F.rndPos x else if x = 0 then .fin 0 else XR.neg (F.rndPos (-x))
  | x => x

theorem big_pos : 0 < F.big := by
  have h : (2 : ℝ) ≤ 2 ^ F.p := by
    calc (2 : ℝ) = 2 ^ 1 := by norm_num
      _ ≤ 2 ^ F.p := pow_le_pow_right₀ (by norm_num) (by have := F.hp; omega)
  unfold big
  have : (0 : ℝ) < 2 ^ F.emax := by positivity
  nlinarith

theorem near_nonneg {x : ℝ} (h : 0 < x) : 0 ≤ F.near x := by
  have : 0 ≤ rne (x / 2 ^ F.ulp x) := (Int.floor_nonneg.mpr (by positivity)).trans (rne_ge _)
  unfold near
  have : (0 : ℝ) ≤ rne (x / 2 ^ F.ulp x) := by exact_mod_cast this
  positivity

theorem two_zpow_pos (e : ℤ) : (0 : ℝ) < 2 ^ e := by positivity

/-- a number with at most `p` bits is not changed -/
theorem near_exact {n e : ℤ} (h0 : 0 < n) (hn : n ≤ 2 ^ F.p) (he : F.emin ≤ e) : F.near (n * 2 ^ e) = n * 2 ^ e := by
  -- a multiple of the last bit is not changed
  have key : ∀ n e : ℤ, 0 < n → n < 2 ^ F.p → F.emin ≤ e → F.near (n * 2 ^ e) = n * 2 ^ e := by
    intro n e h0 hn he
    have hx : (0 : ℝ) < n * 2 ^ e := mul_pos (by exact_mod_cast h0) (two_zpow_pos e)
    have hu : F.ulp (n * 2 ^ e) ≤ e := by
      unfold ulp
      refine max_le he ?_
      have : Int.log 2 ((n : ℝ) * 2 ^ e) < F.p + e := by
        rw [← Int.lt_zpow_iff_log_lt (by norm_num) hx]
        rw [Nat.cast_ofNat, zpow_add₀ (by norm_num), zpow_natCast]
        exact mul_lt_mul_of_pos_right (by exact_mod_cast hn) (two_zpow_pos e)
      omega
    obtain ⟨d, hd⟩ := Int.eq_ofNat_of_zero_le (by omega : 0 ≤ e - F.ulp (n * 2 ^ e))
    unfold near
    generalize F.ulp (n * 2 ^ e) = u at *
    have he' : e = u + d := by omega
    have hq : (n : ℝ) * 2 ^ e / 2 ^ u = ((n * 2 ^ d : ℤ) : ℝ) := by
      rw [he', zpow_add₀ (by norm_num), zpow_natCast]
      have := (two_zpow_pos u).ne'
      push_cast
      field_simp
    rw [hq, rne_int, he', zpow_add₀ (by norm_num), zpow_natCast]
    push_cast
    ring
  rcases hn.lt_or_eq with h | h
  · exact key n e h0 h he
  · obtain ⟨q, hq⟩ : ∃ q, F.p = q + 1 := ⟨F.p - 1, by have := F.hp; omega⟩
    have e1 : (n : ℝ) * 2 ^ e = ((2 ^ q : ℤ) : ℝ) * 2 ^ (e + 1) := by
      rw [h, hq, zpow_add₀ (by norm_num)]; push_cast; ring
    rw [e1]
    refine key (2 ^ q) (e + 1) (by positivity) ?_ (by omega)
    rw [hq]; exact pow_lt_pow_right₀ (by norm_num) (by omega)

/-- the rounded number has at most `p` bits -/
theorem near_form {x : ℝ} (h : 0 < x) : ∃ n e : ℤ, 0 ≤ n ∧ n ≤ 2 ^ F.p ∧ F.emin ≤ e ∧ F.near x = n * 2 ^ e ∧ e = F.ulp x := by
  refine ⟨rne (x / 2 ^ F.ulp x), F.ulp x, (Int.floor_nonneg.mpr (by positivity)).trans (rne_ge _), ?_, le_max_left _ _, rfl, rfl⟩
  have h1 : x / 2 ^ F.ulp x ≤ ((2 ^ F.p : ℤ) : ℝ) := by
    rw [div_le_iff₀ (two_zpow_pos _)]
    have hlog := Int.lt_zpow_succ_log_self (b := 2) (by norm_num) x
    rw [Nat.cast_ofNat] at hlog
    refine hlog.le.trans ?_
    push_cast
    rw [← zpow_natCast, ← zpow_add₀ (by norm_num)]
    refine zpow_le_zpow_right₀ (by norm_num) ?_
    have : Int.log 2 x - F.p + 1 ≤ F.ulp x := le_max_right _ _
    omega
  have := rne_mono h1
  rwa [rne_int] at this

theorem ulp_mono {x y : ℝ} (hx : 0 < x) (h : x ≤ y) : F.ulp x ≤ F.ulp y := by
  unfold ulp
  have := Int.log_mono_right (b := 2) hx h
  omega

theorem near_mono {x y : ℝ} (hx : 0 < x) (h : x ≤ y) : F.near x ≤ F.near y := by
  have hy := hx.trans_le h
  rcases (F.ulp_mono hx h).lt_or_eq with hlt | heq
  · -- `y` is at least the power of two above `x`
    obtain ⟨n, e, n0, n1, e0, hn, he⟩ := F.near_form hx
    have hu : F.ulp y = Int.log 2 y - F.p + 1 := by
      have : F.emin ≤ F.ulp x := le_max_left _ _
      unfold ulp at *
      omega
    have hpow : (2 : ℝ) ^ Int.log 2 y ≤ y := by
      have := Int.zpow_log_le_self (b := 2) (by norm_num) hy
      rwa [Nat.cast_ofNat] at this
    obtain ⟨q, hq⟩ : ∃ q, F.p = q + 1 := ⟨F.p - 1, by have := F.hp; omega⟩
    have hle : F.near x ≤ 2 ^ (F.ulp y + q) := by
      rw [hn]
      calc (n : ℝ) * 2 ^ e ≤ 2 ^ F.p * 2 ^ e := mul_le_mul_of_nonneg_right (by exact_mod_cast n1) (two_zpow_pos e).le
        _ = 2 ^ ((F.p : ℤ) + e) := by rw [zpow_add₀ (by norm_num), zpow_natCast]
        _ ≤ _ := zpow_le_zpow_right₀ (by norm_num) (by omega)
    refine hle.trans ?_
    have h1 : ((2 ^ q : ℤ) : ℝ) ≤ y / 2 ^ F.ulp y := by
      rw [le_div_iff₀ (two_zpow_pos _)]
      push_cast
      rw [← zpow_natCast, ← zpow_add₀ (by norm_num)]
      refine le_trans (le_of_eq ?_) hpow
      congr 1
      omega
    have h2 := rne_mono h1
    rw [rne_int] at h2
    unfold near
    rw [add_comm, zpow_add₀ (by norm_num), zpow_natCast]
    exact mul_le_mul_of_nonneg_right (by exact_mod_cast h2) (two_zpow_pos _).le
  · unfold near
    rw [heq]
    refine mul_le_mul_of_nonneg_right ?_ (two_zpow_pos _).le
    have := rne_mono (div_le_div_of_nonneg_right h (two_zpow_pos (F.ulp y)).le)
    exact_mod_cast this

/-- the rounded number is at most half a unit in the last place away -/
theorem near_half_ulp (x : ℝ) : |F.near x - x| ≤ 2 ^ F.ulp x / 2 := by
  have h := rne_near (x / 2 ^ F.ulp x)
  have hp := two_zpow_pos (F.ulp x)
  have e : F.near x - x = ((rne (x / 2 ^ F.ulp x) : ℝ) - x / 2 ^ F.ulp x) * 2 ^ F.ulp x := by
    unfold near; field_simp
  rw [e, abs_mul, abs_of_pos hp]
  nlinarith

/-- unless the result is subnormal, the relative error is at most `2^-p` -/
theorem near_rel {x : ℝ} (hx : 0 < x) (hn : F.emin + F.p - 1 ≤ Int.log 2 x) : |F.near x - x| ≤ 2 ^ (-(F.p : ℤ)) * x := by
  have h := F.near_half_ulp x
  have hu : F.ulp x = Int.log 2 x - F.p + 1 := by unfold ulp; omega
  have hpow : (2 : ℝ) ^ Int.log 2 x ≤ x := by
    have := Int.zpow_log_le_self (b := 2) (by norm_num) hx
    rwa [Nat.cast_ofNat] at this
  refine h.trans ?_
  have e : (2 : ℝ) ^ F.ulp x / 2 = 2 ^ (-(F.p : ℤ)) * 2 ^ Int.log 2 x := by
    rw [hu, show Int.log 2 x - F.p + 1 = -(F.p : ℤ) + Int.log 2 x + 1 by ring, zpow_add₀ (by norm_num), zpow_add₀ (by norm_num)]
    norm_num
  rw [e]
  exact mul_le_mul_of_nonneg_left hpow (two_zpow_pos _).le

theorem rndPos_nonneg {x : ℝ} (h : 0 < x) : XR.le (.fin 0) (F.rndPos x) = true := by
  unfold rndPos
  split_ifs
  · rw [Ieee.le_fin]; exact F.near_nonneg h
  · rfl

theorem rndPos_mono {x y : ℝ} (hx : 0 < x) (h : x ≤ y) : XR.le (F.rndPos x) (F.rndPos y) = true := by
  have := F.near_mono hx h
  unfold rndPos
  split_ifs with h1 h2 h2
  · rw [Ieee.le_fin]; exact this
  · rfl
  · exfalso; linarith
  · rfl

theorem neg_le_neg {a b : XR} (h : XR.le a b = true) : XR.le (XR.neg b) (XR.neg a) = true := by
  cases a <;> cases b <;> simp_all [XR.le, XR.neg]

theorem round_mono (x y : XR) (h : XR.le x y = true) : XR.le (F.round x) (F.round y) = true := by
  have hz : XR.neg (.fin 0) = .fin 0 := by simp [XR.neg]
  have top : ∀ z : ℝ, XR.le (F.round (.fin z)) .pinf = true ∧ XR.le .ninf (F.round (.fin z)) = true := by
    intro z
    unfold round rndPos
    dsimp only
    split_ifs <;> simp [XR.le, XR.neg]
  cases x with
  | nan => simp [XR.le] at h
  | pinf => cases y <;> simp_all [XR.le, round]
  | ninf =>
    cases y with
    | fin z => exact (top z).2
    | _ => simp_all [XR.le, round]
  | fin a =>
    cases y with
    | nan => simp [XR.le] at h
    | ninf => simp [XR.le] at h
    | pinf => exact (top a).1
    | fin b =>
      rw [Ieee.le_fin] at h
      show XR.le (if 0 < a then _ else if a = 0 then _ else _) (if 0 < b then _ else if b = 0 then _ else _) = true
      split_ifs with h1 h2 h3 h4 h5 h6 h7
      · exact F.rndPos_mono h1 h
      · exfalso; linarith
      · exfalso; linarith
      · exact F.rndPos_nonneg h5
      · simp
      · exfalso; rcases lt_or_gt_of_ne h6 with h | h <;> linarith
      · have := F.rndPos_nonneg (x := -a) (by rcases lt_or_gt_of_ne h4 with h | h <;> linarith)
        have := neg_le_neg this
        rw [hz] at this
        exact Ieee.le_trans this (F.rndPos_nonneg h7)
      · have := F.rndPos_nonneg (x := -a) (by rcases lt_or_gt_of_ne h4 with h | h <;> linarith)
        have := neg_le_neg this
        rwa [hz] at this
      · rename_i h8
        exact neg_le_neg (F.rndPos_mono (by rcases lt_or_gt_of_ne h8 with h | h <;> linarith) (by linarith))

theorem big_exact {n e : ℤ} (h0 : 0 < n) (hn : n ≤ 2 ^ F.p) (he : F.emin ≤ e) (hb : (n : ℝ) * 2 ^ e ≤ F.big) :
    F.rndPos (n * 2 ^ e) = .fin (n * 2 ^ e) := by
  unfold rndPos
  rw [F.near_exact h0 hn he, if_pos hb]

theorem rndPos_idem {x : ℝ} (h : 0 < x) : F.round (F.rndPos x) = F.rndPos x := by
  unfold rndPos
  split_ifs with hb
  · obtain ⟨n, e, n0, n1, e0, hn, -⟩ := F.near_form h
    rw [hn] at hb ⊢
    rcases n0.lt_or_eq with h0 | h0
    · have : (0 : ℝ) < n * 2 ^ e := mul_pos (by exact_mod_cast h0) (two_zpow_pos e)
      show (if _ then _ else _) = _
      rw [if_pos this, F.big_exact h0 n1 e0 hb]
    · subst h0
      simp [round]
  · rfl

theorem round_neg (x : XR) : F.round (XR.neg x) = XR.neg (F.round x) := by
  cases x with
  | fin a =>
    simp only [XR.neg, round]
    rcases lt_trichotomy a 0 with h | h | h
    · have h1 : 0 < -a := by linarith
      rw [if_pos h1, if_neg (by linarith), if_neg h.ne]
      cases F.rndPos (-a) <;> simp [XR.neg]
    · subst h; simp [XR.neg]
    · rw [if_neg (by linarith), if_neg (by linarith), if_pos h, neg_neg]
  | _ => rfl

theorem round_idem (x : XR) : F.round (F.round x) = F.round x := by
  cases x with
  | fin a =>
    show F.round (if _ then _ else _) = (if _ then _ else _)
    split_ifs with h1 h2
    · exact F.rndPos_idem h1
    · simp [round]
    · rw [round_neg, F.rndPos_idem (by rcases lt_or_gt_of_ne h2 with h | h <;> linarith)]
  | _ => rfl

theorem round_exact (n k : ℤ) (hn : |n| ≤ 2 ^ 24) (hk : |k| ≤ 100) : F.round (.fin ((n : ℝ) * (2 : ℝ) ^ k)) = .fin ((n : ℝ) * (2 : ℝ) ^ k) := by
  have hk' := abs_le.mp hk
  have hp : (2 : ℤ) ^ 24 ≤ 2 ^ F.p := pow_le_pow_right₀ (by norm_num) F.hp
  have pos : ∀ n : ℤ, 0 < n → n ≤ 2 ^ 24 → F.rndPos ((n : ℝ) * (2 : ℝ) ^ k) = .fin ((n : ℝ) * (2 : ℝ) ^ k) := by
    intro n h0 h1
    refine F.big_exact h0 (h1.trans hp) (by have := F.hmin; have := F.hp; omega) ?_
    unfold big
    have e1 : (2 : ℝ) ^ k ≤ 2 ^ (100 : ℤ) := zpow_le_zpow_right₀ (by norm_num) hk'.2
    have e2 : (2 : ℝ) ^ (101 : ℤ) ≤ 2 ^ F.emax := zpow_le_zpow_right₀ (by norm_num) (le_trans (by norm_num) F.hmax)
    have e3 : (n : ℝ) ≤ 2 ^ 24 := by exact_mod_cast h1
    have e4 : (2 : ℝ) ^ 24 ≤ 2 ^ F.p := by exact_mod_cast hp
    have e5 : (0 : ℝ) ≤ n := by exact_mod_cast h0.le
    calc (n : ℝ) * 2 ^ k ≤ 2 ^ 24 * 2 ^ (100 : ℤ) := mul_le_mul e3 e1 (two_zpow_pos _).le (by positivity)
      _ ≤ (2 ^ 24 - 1) * 2 ^ (101 : ℤ) := by norm_num
      _ ≤ _ := mul_le_mul (by linarith) e2 (two_zpow_pos _).le (by linarith [show (1 : ℝ) ≤ 2 ^ 24 by norm_num])
  rcases lt_trichotomy n 0 with h | h | h
  · have e : XR.fin ((n : ℝ) * (2 : ℝ) ^ k) = XR.neg (.fin (((-n : ℤ) : ℝ) * (2 : ℝ) ^ k)) := by
      simp [XR.neg]
    have h0 : 0 < -n := by omega
    have hp : (0 : ℝ) < ((-n : ℤ) : ℝ) * (2 : ℝ) ^ k := mul_pos (by exact_mod_cast h0) (two_zpow_pos k)
    rw [e, round_neg]
    congr 1
    show (if _ then _ else _) = _
    rw [if_pos hp]
    exact pos (-n) h0 (by rw [abs_of_neg h] at hn; exact hn)
  · subst h; simp [round]
  · have hp : (0 : ℝ) < (n : ℝ) * (2 : ℝ) ^ k := mul_pos (by exact_mod_cast h) (two_zpow_pos k)
    show (if _ then _ else _) = _
    rw [if_pos hp]
    exact pos n h (by rw [abs_of_pos h] at hn; exact hn)

end
end Fmt

/-- binary32 -/
def Fmt.single : Fmt := ⟨24, -149, 104, by norm_num, by norm_num, by norm_num, by norm_num⟩

/-- a float32 is a float of every larger format -/
theorem Fmt.round_single (F : Fmt) (x : XR) : F.round (Fmt.single.round x) = Fmt.single.round x := by
  have hpos : ∀ x : ℝ, 0 < x → F.round (Fmt.single.rndPos x) = Fmt.single.rndPos x := by
    intro x h
    unfold Fmt.rndPos
    split_ifs with hb
    · obtain ⟨n, e, n0, n1, e0, hn, -⟩ := Fmt.single.near_form h
      rw [hn] at hb ⊢
      rcases n0.lt_or_eq with h0 | h0
      · have : (0 : ℝ) < n * 2 ^ e := mul_pos (by exact_mod_cast h0) (Fmt.two_zpow_pos e)
        show (if _ then _ else _) = _
        have hp : (2 : ℤ) ^ 24 ≤ 2 ^ F.p := pow_le_pow_right₀ (by norm_num) F.hp
        rw [if_pos this, F.big_exact h0 (n1.trans hp) (F.hmin32.trans e0) (hb.trans ?_)]
        unfold Fmt.big
        have e2 : (2 : ℝ) ^ (104 : ℤ) ≤ 2 ^ F.emax := zpow_le_zpow_right₀ (by norm_num) F.hmax
        have e4 : (2 : ℝ) ^ 24 ≤ 2 ^ F.p := by exact_mod_cast hp
        exact mul_le_mul (by show (2 : ℝ) ^ 24 - 1 ≤ _; linarith) e2 (Fmt.two_zpow_pos _).le (by linarith [show (1 : ℝ) ≤ 2 ^ 24 by norm_num])
      · subst h0
        simp [Fmt.round]
    · rfl
  cases x with
  | fin a =>
    show F.round (if _ then _ else _) = (if _ then _ else _)
    split_ifs with h1 h2
    · exact hpos a h1
    · simp [Fmt.round]
    · rw [Fmt.round_neg, hpos _ (by rcases lt_or_gt_of_ne h2 with h | h <;> linarith)]
  | _ => rfl

/-! ## Floats as rational numbers

The numbers of a format are kept as rationals, so that `+ - * /`, comparisons, squares and square roots of squares can be evaluated by the kernel. -/

/-- the rationals with infinities and NaN -/
inductive XQ
  | nan | ninf | pinf | fin (x : ℚ)
  deriving DecidableEq

namespace XQ
/-- the value -/
def toXR : XQ → XR
  | nan => .nan
  | ninf => .ninf
  | pinf => .pinf
  | fin q => .fin (q : ℝ)

theorem toXR_inj {x y : XQ} (h : x.toXR = y.toXR) : x = y := by
  cases x <;> cases y <;> simp [toXR] at h ⊢
  exact_mod_cast h

/-- as `XR.add` -/
def add : XQ → XQ → XQ
  | fin a, fin b => fin (a + b)
  | nan, _ => nan
  | _, nan => nan
  | pinf, ninf => nan
  | ninf, pinf => nan
  | pinf, _ => pinf
  | _, pinf => pinf
  | ninf, _ => ninf
  | _, ninf => ninf
/-- as `XR.neg` -/
def neg : XQ → XQ
  | fin a => fin (-a)
  | nan => nan
  | pinf => ninf
  | ninf => pinf
/-- as `XR.sub` -/
def sub (a b : XQ) : XQ := add a (neg b)
/-- as `XR.infOfSign` -/
def infOfSign (x : ℚ) : XQ := if 0 < x then pinf else if x < 0 then ninf else nan
/-- as `XR.mul` -/
def mul : XQ → XQ → XQ
  | fin a, fin b => fin (a * b)
  | nan, _ => nan
  | _, nan => nan
  | pinf, pinf => pinf
  | pinf, ninf => ninf
  | ninf, pinf => ninf
  | ninf, ninf => pinf
  | pinf, fin b => infOfSign b
  | fin a, pinf => infOfSign a
  | ninf, fin b => infOfSign (-b)
  | fin a, ninf => infOfSign (-a)
/-- as `XR.div` -/
def div : XQ → XQ → XQ
  | fin a, fin b => if b = 0 then infOfSign a else fin (a / b)
  | nan, _ => nan
  | _, nan => nan
  | fin _, pinf => fin 0
  | fin _, ninf => fin 0
  | pinf, fin b => if b < 0 then ninf else pinf
  | ninf, fin b => if b < 0 then pinf else ninf
  | _, _ => nan
/-- as `XR.abs` -/
def abs : XQ → XQ
  | fin a => fin |a|
  | nan => nan
  | _ => pinf
/-- as `XR.lt` -/
def lt : XQ → XQ → Bool
  | fin a, fin b => decide (a < b)
  | nan, _ => false
  | _, nan => false
  | ninf, ninf => false
  | ninf, _ => true
  | pinf, _ => false
  | fin _, pinf => true
  | fin _, ninf => false
/-- as `XR.le` -/
def le : XQ → XQ → Bool
  | fin a, fin b => decide (a ≤ b)
  | nan, _ => false
  | _, nan => false
  | ninf, _ => true
  | _, pinf => true
  | pinf, _ => false
  | fin _, ninf => false
/-- as `XR.eq` -/
def eq : XQ → XQ → Bool
  | fin a, fin b => decide (a = b)
  | pinf, pinf => true
  | ninf, ninf => true
  | _, _ => false

theorem toXR_neg (a : XQ) : (neg a).toXR = XR.neg a.toXR := by cases a <;> simp [neg, toXR, XR.neg]
theorem toXR_add (a b : XQ) : (add a b).toXR = XR.add a.toXR b.toXR := by cases a <;> cases b <;> simp [add, toXR, XR.add]
theorem toXR_sub (a b : XQ) : (sub a b).toXR = XR.sub a.toXR b.toXR := by unfold sub XR.sub; rw [toXR_add, toXR_neg]
theorem toXR_inf (x : ℚ) : (infOfSign x).toXR = XR.infOfSign (x : ℝ) := by
  unfold infOfSign XR.infOfSign
  simp only [Rat.cast_pos, Rat.cast_lt_zero]
  split_ifs <;> rfl
theorem toXR_mul (a b : XQ) : (mul a b).toXR = XR.mul a.toXR b.toXR := by
  cases a <;> cases b <;> simp only [mul, XR.mul, toXR_inf] <;> first | rfl | simp [toXR, XR.mul]
theorem toXR_div (a b : XQ) : (div a b).toXR = XR.div a.toXR b.toXR := by
  cases a <;> cases b
  case fin.fin a b =>
    show (if _ then _ else _ : XQ).toXR = (if _ then _ else _)
    simp only [Rat.cast_eq_zero]
    split_ifs
    · exact toXR_inf a
    · simp [toXR]
  case pinf.fin b =>
    show (if _ then _ else _ : XQ).toXR = (if _ then _ else _)
    simp only [Rat.cast_lt_zero]
    split_ifs <;> rfl
  case ninf.fin b =>
    show (if _ then _ else _ : XQ).toXR = (if _ then _ else _)
    simp only [Rat.cast_lt_zero]
    split_ifs <;> rfl
  all_goals simp [div, toXR, XR.div]
theorem toXR_abs (a : XQ) : (abs a).toXR = XR.abs a.toXR := by cases a <;> simp [abs, toXR, XR.abs]
theorem toXR_lt (a b : XQ) : lt a b = XR.lt a.toXR b.toXR := by cases a <;> cases b <;> simp [lt, toXR, XR.lt]
theorem toXR_le (a b : XQ) : le a b = XR.le a.toXR b.toXR := by cases a <;> cases b <;> simp [le, toXR, XR.le]
theorem toXR_eq (a b : XQ) : eq a b = XR.eq a.toXR b.toXR := by cases a <;> cases b <;> simp [eq, toXR, XR.eq]
end XQ

namespace Fmt
variable (F : Fmt)

/-- powers of two -/
def pow2 : ℤ → ℚ
  | .ofNat n => ((2 ^ n : ℕ) : ℚ)
  | .negSucc n => mkRat 1 (2 ^ (n + 1))

theorem pow2_cast (e : ℤ) : ((pow2 e : ℚ) : ℝ) = 2 ^ e := by
  cases e with
  | ofNat n => simp [pow2]
  | negSucc n => simp [pow2, Rat.mkRat_eq_div, zpow_negSucc]

/-- exponent of the leading bit -/
def log2Q (q : ℚ) : ℤ :=
  let e : ℤ := (Nat.log2 q.num.natAbs : ℤ) - Nat.log2 q.den
  if pow2 e ≤ q then e else e - 1

theorem log2Q_eq {q : ℚ} (h : 0 < q) : log2Q q = Int.log 2 (q : ℝ) := by
  have hq : (0 : ℝ) < q := by exact_mod_cast h
  have key : ∀ k : ℤ, (2 : ℝ) ^ k ≤ q → (q : ℝ) < 2 ^ (k + 1) → k = Int.log 2 (q : ℝ) := by
    intro k h1 h2
    have a := (Int.zpow_le_iff_le_log (b := 2) (by norm_num) hq).mp (by exact_mod_cast h1 : ((2 : ℕ) : ℝ) ^ k ≤ q)
    have b := (Int.lt_zpow_iff_log_lt (b := 2) (by norm_num) hq).mp (by exact_mod_cast h2 : (q : ℝ) < ((2 : ℕ) : ℝ) ^ (k + 1))
    omega
  have hn : 0 < q.num := Rat.num_pos.mpr h
  have hnat : q.num.natAbs ≠ 0 := by omega
  have hcast : (q : ℝ) = (q.num.natAbs : ℝ) / q.den := by
    rw [Rat.cast_def]
    congr 1
    rw [show q.num = ((q.num.natAbs : ℕ) : ℤ) by omega]
    simp
  have hd : (0 : ℝ) < q.den := by exact_mod_cast q.pos
  have n1 : (2 : ℝ) ^ Nat.log2 q.num.natAbs ≤ q.num.natAbs := by exact_mod_cast Nat.log2_self_le hnat
  have n2 : (q.num.natAbs : ℝ) < 2 ^ (Nat.log2 q.num.natAbs + 1) := by exact_mod_cast Nat.lt_log2_self
  have d1 : (2 : ℝ) ^ Nat.log2 q.den ≤ q.den := by exact_mod_cast Nat.log2_self_le q.den_ne_zero
  have d2 : (q.den : ℝ) < 2 ^ (Nat.log2 q.den + 1) := by exact_mod_cast Nat.lt_log2_self
  set a := Nat.log2 q.num.natAbs
  set b := Nat.log2 q.den
  have up : (q : ℝ) < 2 ^ ((a : ℤ) - b + 1) := by
    rw [hcast, div_lt_iff₀ hd]
    refine n2.trans_le ?_
    calc (2 : ℝ) ^ (a + 1) = 2 ^ ((a : ℤ) - b + 1) * 2 ^ b := by
          rw [← zpow_natCast, ← zpow_natCast, ← zpow_add₀ (by norm_num)]; congr 1; push_cast; ring
      _ ≤ _ := mul_le_mul_of_nonneg_left d1 (by positivity)
  have lo : (2 : ℝ) ^ ((a : ℤ) - b - 1) ≤ q := by
    rw [hcast, le_div_iff₀ hd]
    refine le_trans ?_ n1
    calc (2 : ℝ) ^ ((a : ℤ) - b - 1) * q.den ≤ 2 ^ ((a : ℤ) - b - 1) * 2 ^ (b + 1) := mul_le_mul_of_nonneg_left d2.le (by positivity)
      _ = 2 ^ a := by rw [← zpow_natCast, ← zpow_natCast, ← zpow_add₀ (by norm_num)]; congr 1; push_cast; ring
  unfold log2Q
  dsimp only
  split_ifs with hc
  · refine key _ ?_ up
    rw [← pow2_cast]; exact_mod_cast hc
  · refine key _ lo ?_
    rw [show (a : ℤ) - b - 1 + 1 = a - b by ring, ← pow2_cast]
    exact_mod_cast lt_of_not_ge hc

/-- nearest integer, ties to even -/
def rneQ (q : ℚ) : ℤ :=
  let n := q.num / q.den
  let r := q.num % q.den
  if 2 * r < q.den then n else if (q.den : ℤ) < 2 * r then n + 1 else if n % 2 = 0 then n else n + 1

theorem rneQ_eq (q : ℚ) : rneQ q = rne (q : ℝ) := by
  have hd : (0 : ℤ) < q.den := by exact_mod_cast q.pos
  have hdR : (0 : ℝ) < q.den := by exact_mod_cast q.pos
  have hf : ⌊(q : ℝ)⌋ = q.num / q.den := by rw [Rat.floor_cast, Rat.floor_def']
  have hfr : Int.fract (q : ℝ) = ((q.num % q.den : ℤ) : ℝ) / q.den := by
    unfold Int.fract
    rw [hf, eq_div_iff hdR.ne', Int.emod_def]
    have : (q : ℝ) * q.den = q.num := by rw [Rat.cast_def, div_mul_cancel₀ _ hdR.ne']
    push_cast
    rw [sub_mul, this]
    ring
  unfold rneQ rne
  dsimp only
  rw [hf, hfr]
  have e1 : (((q.num % q.den : ℤ) : ℝ) / q.den < 1 / 2) ↔ 2 * (q.num % q.den) < q.den := by
    rw [div_lt_iff₀ hdR]
    rw [← Int.cast_lt (R := ℝ)]
    push_cast
    constructor <;> intro h <;> linarith
  have e2 : (1 / 2 < ((q.num % q.den : ℤ) : ℝ) / q.den) ↔ (q.den : ℤ) < 2 * (q.num % q.den) := by
    rw [lt_div_iff₀ hdR]
    rw [← Int.cast_lt (R := ℝ)]
    push_cast
    constructor <;> intro h <;> linarith
  simp only [e1, e2]

/-- as `ulp` -/
def ulpQ (q : ℚ) : ℤ := max F.emin (log2Q q - F.p + 1)
/-- as `near` -/
def nearQ (q : ℚ) : ℚ := let u := F.ulpQ q; (rneQ (q / pow2 u) : ℚ) * pow2 u
/-- as `big` -/
def bigQ : ℚ := ((2 ^ F.p - 1 : ℤ) : ℚ) * pow2 F.emax
/-- as `rndPos` -/
def rndPosQ (q : ℚ) : XQ := let x := F.nearQ q; if x ≤ F.bigQ then .fin x else .pinf
/-- rounding -/
def roundQ : XQ → XQ
  | .fin q => if 0 < q then F.rndPosQ q else if q = 0 then .fin 0 else XQ.neg (F.rndPosQ (-q))
  | x => x

theorem nearQ_cast {q : ℚ} (h : 0 < q) : ((F.nearQ q : ℚ) : ℝ) = F.near (q : ℝ) := by
  unfold nearQ near ulpQ ulp
  dsimp only
  rw [log2Q_eq h, Rat.cast_mul, pow2_cast, Rat.cast_intCast, rneQ_eq, Rat.cast_div, pow2_cast]

theorem rndPosQ_cast {q : ℚ} (h : 0 < q) : (F.rndPosQ q).toXR = F.rndPos (q : ℝ) := by
  have hb : ((F.bigQ : ℚ) : ℝ) = F.big := by unfold bigQ big; rw [Rat.cast_mul, pow2_cast]; push_cast; rfl
  unfold rndPosQ rndPos
  dsimp only
  rw [← F.nearQ_cast h, ← hb]
  simp only [Rat.cast_le]
  split_ifs <;> rfl

/-- rounding of rationals is the rounding of reals -/
theorem roundQ_cast (x : XQ) : (F.roundQ x).toXR = F.round x.toXR := by
  cases x with
  | fin q =>
    show (if _ then _ else _ : XQ).toXR = (if _ then _ else _)
    simp only [Rat.cast_pos, Rat.cast_eq_zero]
    split_ifs with h1 h2
    · exact F.rndPosQ_cast h1
    · simp [XQ.toXR]
    · have : 0 < -q := by rcases lt_or_gt_of_ne h2 with h | h <;> linarith
      rw [XQ.toXR_neg, F.rndPosQ_cast this, Rat.cast_neg]
  | _ => rfl

theorem roundQ_idem (x : XQ) : F.roundQ (F.roundQ x) = F.roundQ x :=
  XQ.toXR_inj (by rw [roundQ_cast, roundQ_cast, round_idem])

/-- every rounded number is rational -/
theorem round_rat (x : XR) : ∃ q : XQ, q.toXR = F.round x := by
  have hpos : ∀ x : ℝ, 0 < x → ∃ q : XQ, q.toXR = F.rndPos x := by
    intro x h
    unfold rndPos
    split_ifs
    · obtain ⟨n, e, -, -, -, hn, -⟩ := F.near_form h
      exact ⟨.fin ((n : ℚ) * pow2 e), by rw [hn]; simp [XQ.toXR, pow2_cast]⟩
    · exact ⟨.pinf, rfl⟩
  cases x with
  | fin a =>
    simp only [round]
    split_ifs with h1 h2
    · exact hpos a h1
    · exact ⟨.fin 0, by simp [XQ.toXR]⟩
    · obtain ⟨q, hq⟩ := hpos (-a) (by rcases lt_or_gt_of_ne h2 with h | h <;> linarith)
      exact ⟨XQ.neg q, by rw [XQ.toXR_neg, hq]⟩
  | nan => exact ⟨.nan, rfl⟩
  | pinf => exact ⟨.pinf, rfl⟩
  | ninf => exact ⟨.ninf, rfl⟩
end Fmt

/-- floating-point numbers of a format: the values that rounding does not change -/
def Bin (F : Fmt) : Type := { x : XQ // F.roundQ x = x }

instance (F : Fmt) : DecidableEq (Bin F) := fun a b => decidable_of_iff (a.1 = b.1) Subtype.ext_iff.symm

namespace Bin
variable (F : Fmt)

/-- the value -/
def value (a : Bin F) : XR := a.1.toXR

/-- the float nearest to a rational -/
def ofQ (x : XQ) : Bin F := ⟨F.roundQ x, F.roundQ_idem x⟩

theorem value_ofQ (x : XQ) : value F (ofQ F x) = F.round x.toXR := F.roundQ_cast x

/-- the float nearest to a value -/
noncomputable def of (x : XR) : Bin F := ⟨(F.round_rat x).choose, XQ.toXR_inj (by rw [F.roundQ_cast, (F.round_rat x).choose_spec, F.round_idem])⟩

theorem value_of (x : XR) : value F (of F x) = F.round x := (F.round_rat x).choose_spec

theorem round_value (a : Bin F) : F.round (value F a) = value F a := by unfold value; rw [← F.roundQ_cast, a.2]

/-- integer square root, by bits (nothing is proved about it: its result is squared and compared) -/
def isqrt (n : ℕ) : ℕ := (List.range (Nat.log2 n / 2 + 1)).foldr (fun k r => if (r + 2 ^ k) * (r + 2 ^ k) ≤ n then r + 2 ^ k else r) 0

/-- a guess for the square root -/
def rootQ (q : ℚ) : ℚ := mkRat (isqrt q.num.natAbs) (isqrt q.den)

/-- square root: evaluated for squares of rationals -/
noncomputable def sqrt (a : Bin F) : Bin F :=
  match a.1 with
  | .fin q => if rootQ q * rootQ q = q ∧ 0 ≤ rootQ q then ofQ F (.fin (rootQ q)) else of F (XR.sqrt (value F a))
  | _ => of F (XR.sqrt (value F a))

/-- power: evaluated for the exponent 2 -/
noncomputable def pow (a b : Bin F) : Bin F :=
  match a.1, b.1 with
  | .fin x, .fin y => if y = 2 then ofQ F (.fin (x * x)) else of F (XR.pow (value F a) (value F b))
  | _, _ => of F (XR.pow (value F a) (value F b))

noncomputable instance : PyFloat (Bin F) where
  lit q := ofQ F (.fin q)
  nan := ofQ F .nan
  pi := of F (.fin Real.pi)
  add a b := ofQ F (XQ.add a.1 b.1)
  sub a b := ofQ F (XQ.sub a.1 b.1)
  mul a b := ofQ F (XQ.mul a.1 b.1)
  div a b := ofQ F (XQ.div a.1 b.1)
  pow a b := pow F a b
  neg a := ofQ F (XQ.neg a.1)
  abs a := ofQ F (XQ.abs a.1)
  sqrt a := sqrt F a
  log10 a := of F (XR.log10 (value F a))
  ln a := of F (XR.ln (value F a))
  sin a := of F (XR.lift Real.sin (value F a))
  cos a := of F (XR.lift Real.cos (value F a))
  tan a := of F (XR.lift Real.tan (value F a))
  asin a := of F (XR.asin (value F a))
  trunc a := of F (XR.trunc (value F a))
  f32 a := ofQ F (Fmt.single.roundQ a.1)
  lt a b := XQ.lt a.1 b.1
  le a b := XQ.le a.1 b.1
  eq a b := XQ.eq a.1 b.1

theorem value_sqrt (a : Bin F) : value F (sqrt F a) = F.round (XR.sqrt (value F a)) := by
  unfold sqrt
  split
  · rename_i q hq
    split_ifs with h
    · rw [value_ofQ]
      have hv : value F a = .fin (q : ℝ) := by unfold value; rw [hq]; rfl
      have h0 : (0 : ℝ) ≤ (rootQ q : ℝ) := by exact_mod_cast h.2
      have h1 : (q : ℝ) = (rootQ q : ℝ) * rootQ q := by exact_mod_cast h.1.symm
      rw [hv]
      congr 1
      show XR.fin _ = (if _ then _ else _)
      rw [h1, if_pos (mul_self_nonneg _), Real.sqrt_mul_self h0]
    · exact value_of F _
  · exact value_of F _

theorem value_pow (a b : Bin F) : value F (pow F a b) = F.round (XR.pow (value F a) (value F b)) := by
  unfold pow
  split
  · rename_i x y hx hy
    split_ifs with h
    · rw [value_ofQ]
      have hv : value F a = .fin (x : ℝ) := by unfold value; rw [hx]; rfl
      have hw : value F b = .fin 2 := by unfold value; rw [hy, h]; simp [XQ.toXR]
      rw [hv, hw]
      congr 1
      show XR.fin _ = XR.powFin _ _
      unfold XR.powFin
      have hfl : ⌊(2 : ℝ)⌋ = 2 := by norm_num
      split_ifs with h1 h2 h3 h4
      · rw [Rat.cast_mul, show (2 : ℝ) = ((2 : ℕ) : ℝ) by norm_num, Real.rpow_natCast]; ring_nf
      · rw [Rat.cast_mul, h2]; simp
      · norm_num at h3
      · norm_num at h3
      · rw [hfl, Rat.cast_mul]; congr 1; norm_cast; ring
      · rw [hfl] at *; norm_num at *
    · exact value_of F _
  · exact value_of F _

/-- a monotone rounding that fixes 0 and 1 leaves results on the right side of them -/
theorem rightSide (e : XR) : RightSide e (F.round e) := by
  have z : F.round (.fin 0) = .fin 0 := by simp [Fmt.round]
  have o : F.round (.fin 1) = .fin 1 := by simpa using F.round_exact 1 0 (by norm_num) (by norm_num)
  refine ⟨?_, ?_, ?_, ?_, ?_⟩
  · constructor
    · rintro rfl; rfl
    · intro h
      by_contra hn
      have := F.round_mono e e (Ieee.le_refl hn)
      rw [h] at this; simp [XR.le] at this
  · intro h; have := F.round_mono _ _ h; rwa [z] at this
  · intro h; have := F.round_mono _ _ h; rwa [z] at this
  · intro h; have := F.round_mono _ _ h; rwa [o] at this
  · intro h; have := F.round_mono _ _ h; rwa [o] at this

theorem round_abs (x : XR) (h : F.round x = x) : F.round (XR.abs x) = XR.abs x := by
  cases x with
  | fin a =>
    rcases le_total 0 a with h0 | h0
    · simp only [XR.abs, abs_of_nonneg h0]; exact h
    · have : XR.abs (.fin a) = XR.neg (.fin a) := by simp [XR.abs, XR.neg, abs_of_nonpos h0]
      rw [this, Fmt.round_neg, h]
  | _ => rfl

/-- rounding a positive real of moderate size changes it by less than half of it -/
theorem round_acc {e : ℝ} (h1 : (2 : ℝ) ^ (-100 : ℤ) ≤ e) (h2 : e ≤ (2 : ℝ) ^ (100 : ℤ)) :
    XR.le (.fin (e / 2)) (F.round (.fin e)) = true ∧ XR.le (F.round (.fin e)) (.fin (2 * e)) = true := by
  have h0 : 0 < e := lt_of_lt_of_le (by positivity) h1
  have hl : -100 ≤ Int.log 2 e := by
    rw [← Int.zpow_le_iff_le_log (by norm_num) h0]; exact_mod_cast h1
  have hr := F.near_rel h0 (by have := F.hmin; omega)
  have hp : (2 : ℝ) ^ (-(F.p : ℤ)) ≤ 1 / 2 := by
    calc (2 : ℝ) ^ (-(F.p : ℤ)) ≤ 2 ^ (-1 : ℤ) := zpow_le_zpow_right₀ (by norm_num) (by have := F.hp; omega)
      _ = 1 / 2 := by norm_num
  have hr2 : |F.near e - e| ≤ 1 / 2 * e := hr.trans (mul_le_mul_of_nonneg_right hp h0.le)
  have hb := abs_le.mp hr2
  have e1 : F.round (.fin e) = .fin (F.near e) := by
    show (if _ then _ else _) = _
    rw [if_pos h0]
    unfold Fmt.rndPos
    rw [if_pos]
    refine (show F.near e ≤ (2 : ℝ) ^ (101 : ℤ) from ?_).trans ?_
    · have : (2 : ℝ) ^ (101 : ℤ) = 2 * 2 ^ (100 : ℤ) := by norm_num
      linarith
    · unfold Fmt.big
      have e4 : (2 : ℝ) ≤ 2 ^ F.p := by
        calc (2 : ℝ) = 2 ^ 1 := by norm_num
          _ ≤ 2 ^ F.p := pow_le_pow_right₀ (by norm_num) (by have := F.hp; omega)
      have e2 : (2 : ℝ) ^ (101 : ℤ) ≤ 2 ^ F.emax := zpow_le_zpow_right₀ (by norm_num) (le_trans (by norm_num) F.hmax)
      have : (0 : ℝ) < 2 ^ F.emax := Fmt.two_zpow_pos _
      nlinarith
  rw [e1, Ieee.le_fin, Ieee.le_fin]
  constructor <;> linarith

theorem log10_ne_nan {x : XR} (h : XR.le (.fin 0) x = true) : XR.log10 x ≠ .nan := by
  cases x with
  | fin a =>
    rw [Ieee.le_fin] at h
    simp only [XR.log10]
    split_ifs with h1 h2
    · simp
    · simp
    · exact absurd (le_antisymm (not_lt.mp h1) h) h2
  | nan => simp [XR.le] at h
  | ninf => simp [XR.le] at h
  | pinf => simp [XR.log10]

noncomputable instance : IeeeFloat (Bin F) where
  val := value F
  rnd := F.round
  rnd_mono := F.round_mono
  rnd_nan := rfl
  rnd_val a := round_value F a
  rnd_exact := F.round_exact
  rnd_pinf := rfl
  rnd_ninf := rfl
  rnd32 := Fmt.single.round
  rnd32_mono := Fmt.single.round_mono
  rnd32_nan := rfl
  rnd32_pinf := rfl
  rnd32_ninf := rfl
  rnd32_idem := Fmt.single.round_idem
  rnd32_exact := Fmt.single.round_exact
  val_f32 a := by
    show value F (ofQ F (Fmt.single.roundQ a.1)) = _
    rw [value_ofQ, Fmt.roundQ_cast, Fmt.round_single F]; rfl
  val_lit q := value_ofQ F _
  val_nan := value_ofQ F _
  val_pi := value_of F _
  val_add a b := (value_ofQ F _).trans (by rw [XQ.toXR_add]; rfl)
  val_sub a b := (value_ofQ F _).trans (by rw [XQ.toXR_sub]; rfl)
  val_mul a b := (value_ofQ F _).trans (by rw [XQ.toXR_mul]; rfl)
  val_div a b _ := (value_ofQ F _).trans (by rw [XQ.toXR_div]; rfl)
  val_sqrt a := value_sqrt F a
  val_neg a := (value_ofQ F _).trans (by rw [XQ.toXR_neg, Fmt.round_neg]; exact congrArg XR.neg (round_value F a))
  val_abs a := (value_ofQ F _).trans (by rw [XQ.toXR_abs]; exact round_abs F _ (round_value F a))
  val_pow a b _ := by
    have := rightSide F (XR.pow (value F a) (value F b))
    rwa [← value_pow] at this
  val_pow_acc a b x y ha hb h0 h1 h2 := by
    have e : XR.pow (value F a) (value F b) = .fin (x ^ y) := by
      rw [ha, hb]; simp [XR.pow, XR.powFin, h0]
    have := round_acc F h1 h2
    rw [← e, ← value_pow] at this
    exact this
  val_pow_near a b e he h := by
    have := Ieee.near_of_mono F.round_mono F.round_exact h
    rwa [← he, ← value_pow] at this
  val_log10 a h := by
    show value F (of F (XR.log10 (value F a))) ≠ _
    rw [value_of]
    have := (rightSide F (XR.log10 (value F a))).nan
    intro hn
    exact log10_ne_nan h (this.mpr hn)
  val_lt a b := XQ.toXR_lt _ _
  val_le a b := XQ.toXR_le _ _
  val_eq a b := XQ.toXR_eq _ _

end Bin

/-- binary32: 24 bits, least subnormal `2^-149`, largest number `(2^24-1)*2^104` -/
abbrev Binary32 : Type := Bin Fmt.single
/-- binary64: 53 bits, least subnormal `2^-1074`, largest number `(2^53-1)*2^971` -/
abbrev Binary64 : Type := Bin ⟨53, -1074, 971, by norm_num, by norm_num, by norm_num, by norm_num⟩

/-- exact arithmetic rounds nothing -/
noncomputable instance : IeeeFloat XR where
  val := id
  rnd := id
  rnd_mono _ _ h := h
  rnd_nan := rfl
  rnd_val _ := rfl
  rnd_exact _ _ _ _ := rfl
  rnd_pinf := rfl
  rnd_ninf := rfl
  rnd32 := id
  rnd32_mono _ _ h := h
  rnd32_nan := rfl
  rnd32_pinf := rfl
  rnd32_ninf := rfl
  rnd32_idem _ := rfl
  rnd32_exact _ _ _ _ := rfl
  val_f32 _ := rfl
  val_lit _ := rfl
  val_nan := rfl
  val_pi := rfl
  val_add _ _ := rfl
  val_sub _ _ := rfl
  val_mul _ _ := rfl
  val_div _ _ _ := rfl
  val_sqrt _ := rfl
  val_neg _ := rfl
  val_abs _ := rfl
  val_pow _ _ _ := ⟨Iff.rfl, id, id, id, id⟩
  val_pow_acc a b x y ha hb h0 _ _ := by
    have e : XR.pow a b = .fin (x ^ y) := by
      have ha : a = .fin x := ha
      have hb : b = .fin y := hb
      rw [ha, hb]; simp [XR.pow, XR.powFin, h0]
    have hp := Real.rpow_pos_of_pos h0 y
    show XR.le _ (XR.pow a b) = true ∧ XR.le (XR.pow a b) _ = true
    rw [e, Ieee.le_fin, Ieee.le_fin]
    constructor <;> linarith
  val_pow_near _ _ e he _ := ⟨e, he, by rw [sub_self, abs_zero]; positivity⟩
  val_log10 _ h := Bin.log10_ne_nan h
  val_lt _ _ := rfl
  val_le _ _ := rfl
  val_eq _ _ := rfl


/-- rounding does happen: in binary64 `2^53 + 1` becomes `2^53`; 0.1 is not a float32 -/
example : (PyFloat.lit (2 ^ 53 + 1) : Binary64) = PyFloat.lit (2 ^ 53) ∧ ((PyFloat.f32 (0.1 : Binary64)) ==. 0.1) = false := by
  decide +kernel

/-- and the kernel evaluates it: `0.1 + 0.2` is not `0.3` in binary64, but is in binary32 -/
example : ((0.1 + 0.2 : Binary64) ==. 0.3) = false ∧ ((0.1 + 0.2 : Binary32) ==. 0.3) = true ∧ ((sqrt 2.25 : Binary64) ==. 1.5) = true ∧
    ((1e200 * 1e200 : Binary64) ==. 1 / 0) = true := by
  decide +kernel

end Csu
