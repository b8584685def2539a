import Verif.Props.KdpFloat
import Verif.Props.KdpTotal
/-!
# Rounding errors of the line fit

`LSE` computes `det = N Σx² - (Σx)²` in single precision and divides by it.  Here: with double precision locals and float32 stores (`Binary64`),
`det` is a positive number as soon as the gate spacing is not too small compared with the largest range, and then the kernel cannot raise (C147).
-/
namespace Csu.Kdp
open Csu PyFloat

/-! ## One rounding -/
namespace Fp
open Ieee IeeeFloat

/-- bound on the relative error of rounding to double and then to single -/
noncomputable def δ : ℝ := 1 / 16000000

/-- the format of `Binary64` -/
def double : Fmt := ⟨53, -1074, 971, by norm_num, by norm_num, by norm_num, by norm_num⟩

theorem round_rel (F : Fmt) {e : ℝ} (h1 : (2 : ℝ) ^ (-101 : ℤ) ≤ e) (h2 : e ≤ (2 : ℝ) ^ (101 : ℤ)) :
    F.round (.fin e) = .fin (F.near e) ∧ |F.near e - e| ≤ 2 ^ (-(F.p : ℤ)) * e := by
  have h0 : 0 < e := _root_.lt_of_lt_of_le (by positivity) h1
  have hl : -101 ≤ Int.log 2 e := by
    rw [← Int.zpow_le_iff_le_log (by norm_num) h0]; exact_mod_cast h1
  have hr := F.near_rel h0 (by have := F.hmin; omega)
  have hp : (2 : ℝ) ^ (-(F.p : ℤ)) ≤ 1 := by
    calc (2 : ℝ) ^ (-(F.p : ℤ)) ≤ 2 ^ (0 : ℤ) := zpow_le_zpow_right₀ (by norm_num) (by have := F.hp; omega)
      _ = 1 := by norm_num
  refine ⟨?_, hr⟩
  have hb := abs_le.mp (hr.trans (mul_le_mul_of_nonneg_right hp h0.le))
  show (if _ then _ else _) = _
  rw [if_pos h0]
  unfold Fmt.rndPos
  rw [if_pos]
  refine (show F.near e ≤ (2 : ℝ) ^ (102 : ℤ) from ?_).trans ?_
  · have : (2 : ℝ) ^ (102 : ℤ) = 2 * 2 ^ (101 : ℤ) := by norm_num
    linarith
  · unfold Fmt.big
    have e4 : (2 : ℝ) ≤ 2 ^ F.p := by
      calc (2 : ℝ) = 2 ^ 1 := by norm_num
        _ ≤ 2 ^ F.p := pow_le_pow_right₀ (by norm_num) (by have := F.hp; omega)
    have e2 : (2 : ℝ) ^ (102 : ℤ) ≤ 2 ^ F.emax := zpow_le_zpow_right₀ (by norm_num) (le_trans (by norm_num) F.hmax)
    have : (0 : ℝ) < 2 ^ F.emax := Fmt.two_zpow_pos _
    nlinarith

theorem round64 {e : ℝ} (h1 : (2 : ℝ) ^ (-100 : ℤ) ≤ e) (h2 : e ≤ (2 : ℝ) ^ (100 : ℤ)) :
    ∃ v : ℝ, rnd Binary64 (.fin e) = .fin v ∧ (1 - δ) * e ≤ v ∧ v ≤ (1 + δ) * e := by
  have h0 : 0 < e := _root_.lt_of_lt_of_le (by positivity) h1
  obtain ⟨a, b⟩ := round_rel double (e := e) (le_trans (by norm_num) h1) (le_trans h2 (by norm_num))
  refine ⟨_, a, ?_⟩
  have hb := abs_le.mp b
  have : (2 : ℝ) ^ (-(double.p : ℤ)) ≤ δ := by
    show (2 : ℝ) ^ (-((53 : ℕ) : ℤ)) ≤ _
    unfold δ; norm_num
  have := mul_le_mul_of_nonneg_right this h0.le
  constructor <;> linarith

theorem round3264 {e : ℝ} (h1 : (2 : ℝ) ^ (-100 : ℤ) ≤ e) (h2 : e ≤ (2 : ℝ) ^ (100 : ℤ)) :
    ∃ v : ℝ, rnd32 Binary64 (rnd Binary64 (.fin e)) = .fin v ∧ (1 - δ) * e ≤ v ∧ v ≤ (1 + δ) * e := by
  have h0 : 0 < e := _root_.lt_of_lt_of_le (by positivity) h1
  obtain ⟨a, b⟩ := round_rel double (e := e) (le_trans (by norm_num) h1) (le_trans h2 (by norm_num))
  have hb := abs_le.mp b
  have hp : (2 : ℝ) ^ (-(double.p : ℤ)) = 1 / 9007199254740992 := by
    show (2 : ℝ) ^ (-((53 : ℕ) : ℤ)) = _
    norm_num
  rw [hp] at hb
  set w := double.near e with hw
  have e1 : (2 : ℝ) ^ (-101 : ℤ) ≤ w := by
    calc (2 : ℝ) ^ (-101 : ℤ) = 2 ^ (-100 : ℤ) / 2 := by norm_num
      _ ≤ e / 2 := by gcongr
      _ ≤ w := by linarith
  have e2 : w ≤ (2 : ℝ) ^ (101 : ℤ) := by
    have : (2 : ℝ) ^ (101 : ℤ) = 2 ^ (100 : ℤ) * 2 := by norm_num
    linarith
  obtain ⟨a2, b2⟩ := round_rel Fmt.single e1 e2
  have hb2 := abs_le.mp b2
  have hp2 : (2 : ℝ) ^ (-(Fmt.single.p : ℤ)) = 1 / 16777216 := by
    show (2 : ℝ) ^ (-((24 : ℕ) : ℤ)) = _
    norm_num
  rw [hp2] at hb2
  refine ⟨Fmt.single.near w, ?_, ?_, ?_⟩
  · rw [show rnd Binary64 (.fin e) = .fin w from a]; exact a2
  · unfold δ; linarith
  · unfold δ; linarith

/-- `v` is `a`, up to `k` relative errors -/
def Near (k : ℕ) (a v : ℝ) : Prop := (1 - δ) ^ k * a ≤ v ∧ v ≤ (1 + δ) ^ k * a

theorem δ0 : 0 < δ := by unfold δ; norm_num
theorem δ1 : 0 < 1 - δ := by unfold δ; norm_num

theorem low (k : ℕ) : 1 - k * δ ≤ (1 - δ) ^ k := by
  have := one_add_mul_le_pow (a := -δ) (by have := δ1; linarith) k
  rw [show (1 + -δ) = 1 - δ by ring] at this
  linarith

theorem high (k : ℕ) (h : k * δ < 1) : (1 + δ) ^ k ≤ 1 / (1 - k * δ) := by
  have h1 := low k
  rw [le_div_iff₀ (by linarith)]
  have h2 : (1 + δ) ^ k * (1 - δ) ^ k ≤ 1 := by
    rw [← mul_pow]
    refine pow_le_one₀ (by have := δ0; have := δ1; positivity) ?_
    nlinarith [sq_nonneg δ]
  have h3 : 0 ≤ (1 + δ) ^ k := by have := δ0; positivity
  nlinarith

theorem Near.refl (a : ℝ) : Near 0 a a := by simp [Near]

theorem Near.mono {k m : ℕ} {a v : ℝ} (h : Near k a v) (ha : 0 ≤ a) (hk : k ≤ m) : Near m a v := by
  have h0 := δ0
  have h1 := δ1
  refine ⟨le_trans ?_ h.1, h.2.trans ?_⟩
  · exact mul_le_mul_of_nonneg_right (pow_le_pow_of_le_one h1.le (by linarith) hk) ha
  · exact mul_le_mul_of_nonneg_right (pow_le_pow_right₀ (by linarith) hk) ha

theorem Near.nonneg {k : ℕ} {a v : ℝ} (h : Near k a v) (ha : 0 ≤ a) : 0 ≤ v := by
  have h1 := δ1
  exact le_trans (by positivity) h.1

theorem Near.add {k : ℕ} {a b v w : ℝ} (h1 : Near k a v) (h2 : Near k b w) : Near k (a + b) (v + w) :=
  ⟨by rw [mul_add]; exact add_le_add h1.1 h2.1, by rw [mul_add]; exact add_le_add h1.2 h2.2⟩

theorem Near.mul {k m : ℕ} {a b v w : ℝ} (h1 : Near k a v) (h2 : Near m b w) (ha : 0 ≤ a) (hb : 0 ≤ b) : Near (k + m) (a * b) (v * w) := by
  have p := δ1
  have q := δ0
  have hv := h1.nonneg ha
  have hw := h2.nonneg hb
  constructor
  · calc (1 - δ) ^ (k + m) * (a * b) = ((1 - δ) ^ k * a) * ((1 - δ) ^ m * b) := by rw [pow_add]; ring
      _ ≤ v * w := mul_le_mul h1.1 h2.1 (by positivity) hv
  · calc v * w ≤ ((1 + δ) ^ k * a) * ((1 + δ) ^ m * b) := mul_le_mul h1.2 h2.2 hw (by positivity)
      _ = _ := by rw [pow_add]; ring

theorem bounds {k : ℕ} (hk : k ≤ 300000) : 1 / 2 ≤ (1 - δ) ^ k ∧ (1 + δ) ^ k ≤ 2 := by
  have hk' : (k : ℝ) ≤ 300000 := by exact_mod_cast hk
  have hd : k * δ ≤ 1 / 2 := by unfold δ; linarith
  refine ⟨by have := low k; linarith, (high k (by linarith)).trans ?_⟩
  rw [div_le_iff₀ (by linarith)]; linarith

theorem in_range {k : ℕ} {a e : ℝ} (h : Near k a e) (hk : k ≤ 300000) (ha : (2 : ℝ) ^ (-99 : ℤ) ≤ a) (hb : a ≤ (2 : ℝ) ^ (99 : ℤ)) :
    (2 : ℝ) ^ (-100 : ℤ) ≤ e ∧ e ≤ (2 : ℝ) ^ (100 : ℤ) := by
  have a0 : 0 < a := _root_.lt_of_lt_of_le (by positivity) ha
  obtain ⟨b1, b2⟩ := bounds hk
  constructor
  · calc (2 : ℝ) ^ (-100 : ℤ) = 1 / 2 * 2 ^ (-99 : ℤ) := by norm_num
      _ ≤ 1 / 2 * a := mul_le_mul_of_nonneg_left ha (by norm_num)
      _ ≤ _ := mul_le_mul_of_nonneg_right b1 a0.le
      _ ≤ e := h.1
  · calc e ≤ _ := h.2
      _ ≤ 2 * a := mul_le_mul_of_nonneg_right b2 a0.le
      _ ≤ 2 * 2 ^ (99 : ℤ) := mul_le_mul_of_nonneg_left hb (by norm_num)
      _ = _ := by norm_num

theorem near_round64 {k : ℕ} {a e : ℝ} (h : Near k a e) (hk : k ≤ 300000) (ha : a = 0 ∨ (2 : ℝ) ^ (-99 : ℤ) ≤ a)
    (hb : a ≤ (2 : ℝ) ^ (99 : ℤ)) : ∃ v, rnd Binary64 (.fin e) = .fin v ∧ Near (k + 1) a v := by
  rcases ha with rfl | ha
  · have : e = 0 := le_antisymm (by simpa [Near] using h.2) (by simpa [Near] using h.1)
    exact ⟨0, by rw [this]; exact rnd_simple simple_zero, by simp [Near]⟩
  · have a0 : 0 < a := _root_.lt_of_lt_of_le (by positivity) ha
    obtain ⟨b1, b2⟩ := bounds hk
    obtain ⟨v, hv, l, u⟩ := round64 (e := e) (in_range h hk ha hb).1 (in_range h hk ha hb).2
    have p := δ1
    have q := δ0
    refine ⟨v, hv, le_trans ?_ l, u.trans ?_⟩
    · rw [pow_succ']
      rw [mul_assoc]; exact mul_le_mul_of_nonneg_left h.1 p.le
    · rw [pow_succ', mul_assoc]; exact mul_le_mul_of_nonneg_left h.2 (by linarith)

theorem near_round {k : ℕ} {a e : ℝ} (h : Near k a e) (hk : k ≤ 300000) (ha : a = 0 ∨ (2 : ℝ) ^ (-99 : ℤ) ≤ a)
    (hb : a ≤ (2 : ℝ) ^ (99 : ℤ)) : ∃ v, rnd32 Binary64 (rnd Binary64 (.fin e)) = .fin v ∧ Near (k + 1) a v := by
  rcases ha with rfl | ha
  · have : e = 0 := le_antisymm (by simpa [Near] using h.2) (by simpa [Near] using h.1)
    exact ⟨0, by rw [this, rnd_simple simple_zero, rnd32_simple simple_zero], by simp [Near]⟩
  · have a0 : 0 < a := _root_.lt_of_lt_of_le (by positivity) ha
    obtain ⟨b1, b2⟩ := bounds hk
    obtain ⟨v, hv, l, u⟩ := round3264 (e := e) (in_range h hk ha hb).1 (in_range h hk ha hb).2
    have p := δ1
    have q := δ0
    refine ⟨v, hv, le_trans ?_ l, u.trans ?_⟩
    · rw [pow_succ']
      rw [mul_assoc]; exact mul_le_mul_of_nonneg_left h.1 p.le
    · rw [pow_succ', mul_assoc]; exact mul_le_mul_of_nonneg_left h.2 (by linarith)

/-! ## The sums and the determinant -/

/-- a range that `LSE` can handle: 0, or between `2^-30` and `2^30` -/
def OkRange (x : ℝ) : Prop := x = 0 ∨ (2 : ℝ) ^ (-30 : ℤ) ≤ x ∧ x ≤ (2 : ℝ) ^ (30 : ℤ)

theorem OkRange.nonneg {x : ℝ} (h : OkRange x) : 0 ≤ x := by
  rcases h with rfl | h
  · exact le_refl _
  · exact le_trans (by positivity) h.1

/-- running sum of nonnegative numbers -/
def OkSum (m : ℕ) (lo hi x : ℝ) : Prop := (x = 0 ∨ lo ≤ x) ∧ x ≤ m * hi

theorem OkSum.nonneg {m : ℕ} {lo hi x : ℝ} (h : OkSum m lo hi x) (h0 : 0 ≤ lo) : 0 ≤ x := by
  rcases h.1 with h | h <;> linarith

theorem OkSum.add {m : ℕ} {lo hi x y : ℝ} (h : OkSum m lo hi x) (h0 : 0 ≤ lo) (hy : (y = 0 ∨ lo ≤ y) ∧ y ≤ hi) : OkSum (m + 1) lo hi (x + y) := by
  have := h.nonneg h0
  refine ⟨?_, by push_cast; linarith [h.2, hy.2]⟩
  rcases h.1 with h1 | h1 <;> rcases hy.1 with h2 | h2
  · left; rw [h1, h2, add_zero]
  · right; linarith
  · right; linarith
  · right; linarith

theorem sums_near (bad : Binary64) (pts : List (Binary64 × Binary64)) (ρ : Binary64 × Binary64 → ℝ)
    (hv : ∀ p ∈ pts, val p.1 = .fin (ρ p)) (hr : ∀ p ∈ pts, OkRange (ρ p))
    (hs : ∀ p ∈ pts, (p.1 ==. bad) = false ∧ (p.2 ==. bad) = false) (s : Sums Binary64) (k : ℕ) (X Q x q : ℝ) (hk : k + pts.length ≤ 100000)
    (hx : val s.x = .fin x) (hq : val s.xx = .fin q) (nx : Near k X x) (nq : Near (k + 1) Q q)
    (ox : OkSum k (2 ^ (-30 : ℤ)) (2 ^ (30 : ℤ)) X) (oq : OkSum k (2 ^ (-60 : ℤ)) (2 ^ (60 : ℤ)) Q) :
    ∃ x' q', let r := pts.foldl (lseStep cython bad) s
      r.total = s.total ∧ val r.x = .fin x' ∧ val r.xx = .fin q' ∧ Near (k + pts.length) (X + (pts.map ρ).sum) x' ∧
      Near (k + pts.length + 1) (Q + (pts.map (fun p => ρ p * ρ p)).sum) q' := by
  induction pts generalizing s k X Q x q with
  | nil => exact ⟨x, q, rfl, hx, hq, by simpa using nx, by simpa using nq⟩
  | cons p pts ih =>
    rw [List.length_cons] at hk
    have hp := hr p (by simp)
    have hsp := hs p (by simp)
    have hvp := hv p (by simp)
    have p0 := hp.nonneg
    have okx : (ρ p = 0 ∨ (2 : ℝ) ^ (-30 : ℤ) ≤ ρ p) ∧ ρ p ≤ (2 : ℝ) ^ (30 : ℤ) := by
      rcases hp with h | h
      · exact ⟨.inl h, by rw [h]; positivity⟩
      · exact ⟨.inr h.1, h.2⟩
    have okq : (ρ p * ρ p = 0 ∨ (2 : ℝ) ^ (-60 : ℤ) ≤ ρ p * ρ p) ∧ ρ p * ρ p ≤ (2 : ℝ) ^ (60 : ℤ) := by
      constructor
      · rcases hp with h | h
        · left; rw [h, zero_mul]
        · right
          calc (2 : ℝ) ^ (-60 : ℤ) = 2 ^ (-30 : ℤ) * 2 ^ (-30 : ℤ) := by norm_num
            _ ≤ _ := mul_le_mul h.1 h.1 (by positivity) p0
      · calc ρ p * ρ p ≤ 2 ^ (30 : ℤ) * 2 ^ (30 : ℤ) := mul_le_mul okx.2 okx.2 p0 (by positivity)
          _ = 2 ^ (60 : ℤ) := by norm_num
    have hkR : (k : ℝ) + 1 ≤ 100000 := by exact_mod_cast (by omega : k + 1 ≤ 100000)
    -- x
    have ox' := ox.add (by positivity) okx
    have ax := nx.add ((Near.refl (ρ p)).mono p0 (Nat.zero_le k))
    obtain ⟨x', ex, nx'⟩ := near_round ax (by omega) (ox'.1.imp_right (le_trans (by norm_num))) (ox'.2.trans (by push_cast; norm_num at *; nlinarith))
    -- xx
    obtain ⟨w, ew, nw⟩ := near_round64 (Near.refl (ρ p * ρ p)) (by omega) (okq.1.imp_right (le_trans (by norm_num))) (okq.2.trans (by norm_num))
    have oq' := oq.add (by positivity) okq
    have aq := nq.add (nw.mono (mul_nonneg p0 p0) (by omega : 0 + 1 ≤ k + 1))
    obtain ⟨q', eq, nq'⟩ := near_round aq (by omega) (oq'.1.imp_right (le_trans (by norm_num))) (oq'.2.trans (by push_cast; norm_num at *; nlinarith))
    set s1 := lseStep cython bad s p with hs1
    have hstep : s1 = ⟨s.total, f32 (s.x + p.1), f32 (s.y + p.2), f32 (s.xx + p.1 * p.1), f32 (s.xy + p.1 * p.2)⟩ := by
      rw [hs1]; unfold lseStep
      rw [if_neg (by simp [cython, hsp.1, hsp.2])]
      simp [Dialect.w, cython]
    have h1 : val s1.x = .fin x' := by
      rw [hstep]; dsimp only
      rw [val_f32, vadd, hx, hvp, XR.fadd, ex]
    have h2 : val s1.xx = .fin q' := by
      rw [hstep]; dsimp only
      rw [val_f32, vadd, vmul, hq, hvp, XR.fmul, ew, XR.fadd, eq]
    obtain ⟨x2, q2, a, b, c, d, e⟩ := ih (fun p hp => hv p (by simp [hp])) (fun p hp => hr p (by simp [hp])) (fun p hp => hs p (by simp [hp]))
      s1 (k + 1) _ _ x' q' (by omega) h1 h2 nx' nq' ox' oq'
    refine ⟨x2, q2, ?_, b, c, ?_, ?_⟩
    · rw [List.foldl_cons]; rw [a, hstep]
    · rw [List.length_cons, show k + (pts.length + 1) = k + 1 + pts.length by ring, List.map_cons, List.sum_cons]
      rw [add_assoc X] at d; exact d
    · rw [List.length_cons, show k + (pts.length + 1) = k + 1 + pts.length by ring, List.map_cons, List.sum_cons]
      rw [add_assoc Q] at e; exact e

/-! ## Spread-out ranges -/

theorem sum_sq_gap {s y : ℝ} (hs : 0 ≤ s) (t : List ℝ) (c : ℕ) (h : ∀ x ∈ t, y + c * s ≤ x) (hp : t.Pairwise (fun a b => a + s ≤ b)) :
    s ^ 2 * ((List.range t.length).map (fun k : ℕ => ((c : ℝ) + k) ^ 2)).sum ≤ (t.map (fun x => (x - y) ^ 2)).sum := by
  induction t generalizing c with
  | nil => simp
  | cons x t ih =>
    have hx := h x (by simp)
    have := ih (c + 1) (fun z hz => by
      have := (List.pairwise_cons.mp hp).1 z hz
      push_cast; linarith) (List.pairwise_cons.mp hp).2
    rw [List.length_cons, List.range_succ_eq_map, List.map_cons, List.map_cons, List.sum_cons, List.sum_cons, List.map_map, mul_add]
    refine add_le_add ?_ (le_trans (le_of_eq ?_) this)
    · have : 0 ≤ c * s := by positivity
      simp only [Nat.cast_zero, add_zero]
      nlinarith
    · congr 2
      apply List.map_congr_left
      intro k _
      simp only [Function.comp_apply]; push_cast; ring

theorem sum_squares (n : ℕ) : ((List.range n).map (fun k : ℕ => ((1 : ℕ) + (k : ℝ)) ^ 2)).sum = n * (n + 1) * (2 * n + 1) / 6 := by
  induction n with
  | zero => simp
  | succ n ih =>
    rw [List.range_succ, List.map_append, List.sum_append, ih]
    simp only [List.map_cons, List.map_nil, List.sum_cons, List.sum_nil]
    push_cast; ring

/-- `N Σx² - (Σx)²` of numbers at least `s` apart -/
theorem spread {s : ℝ} (hs : 0 ≤ s) (l : List ℝ) (hp : l.Pairwise (fun a b => a + s ≤ b)) :
    s ^ 2 * (l.length ^ 2 * (l.length ^ 2 - 1) / 12) ≤ l.length * (l.map (fun x => x * x)).sum - l.sum ^ 2 := by
  induction l with
  | nil => simp
  | cons y t ih =>
    obtain ⟨h1, h2⟩ := List.pairwise_cons.mp hp
    have a := ih h2
    have b := sum_sq_gap hs t 1 (fun x hx => by have := h1 x hx; push_cast; linarith) h2
    rw [sum_squares] at b
    have e : (t.map (fun x => (x - y) ^ 2)).sum = (t.map (fun x => x * x)).sum - 2 * y * t.sum + t.length * y ^ 2 := by
      clear a b ih h1 h2 hp
      induction t with
      | nil => simp
      | cons x t ih =>
        simp only [List.map_cons, List.sum_cons, List.length_cons]
        rw [ih]; push_cast; ring
    rw [e] at b
    simp only [List.map_cons, List.sum_cons, List.length_cons]
    push_cast
    nlinarith [a, b]

theorem sum_bound {H : ℝ} (l : List ℝ) (h : ∀ x ∈ l, 0 ≤ x ∧ x ≤ H) : (l.map (fun x => x * x)).sum ≤ l.length * H ^ 2 ∧ 0 ≤ (l.map (fun x => x * x)).sum ∧
    0 ≤ l.sum := by
  induction l with
  | nil => simp
  | cons x t ih =>
    obtain ⟨a, b, c⟩ := ih (fun z hz => h z (by simp [hz]))
    have := h x (by simp)
    simp only [List.map_cons, List.sum_cons, List.length_cons]
    push_cast
    refine ⟨by nlinarith, by nlinarith, by linarith⟩

theorem sum_ge {l : List ℝ} (h0 : ∀ x ∈ l, 0 ≤ x) {x : ℝ} (hx : x ∈ l) : x * x ≤ (l.map (fun x => x * x)).sum := by
  induction l with
  | nil => simp at hx
  | cons y t ih =>
    have hn := (sum_bound (H := t.sum) t (fun z hz => ⟨h0 z (by simp [hz]), List.single_le_sum (fun w hw => h0 w (by simp [hw])) z hz⟩)).2.1
    simp only [List.map_cons, List.sum_cons]
    rcases List.mem_cons.mp hx with rfl | hx
    · linarith
    · have := ih (fun z hz => h0 z (by simp [hz])) hx
      nlinarith [h0 y (by simp)]

/-- `N` ranges up to `H`, at least `s` apart, are far enough apart for single precision -/
def Resolved (N : ℕ) (s H : ℝ) : Prop := 12 * (3.1 * N + 4) * H ^ 2 ≤ 16000000 * (s ^ 2 * (N ^ 2 - 1))

theorem det_real {N : ℕ} (hN : N ≤ 100000) {X Q A B s H : ℝ} (hX : 0 ≤ X) (hQ : 0 ≤ Q)
    (hQH : Q ≤ N * H ^ 2) (hV : s ^ 2 * (N ^ 2 * (N ^ 2 - 1) / 12) ≤ N * Q - X ^ 2) (hXQ : X ^ 2 ≤ N * Q) (hr : Resolved N s H)
    (hA : Near (N + 2) (N * Q) A) (hB : Near (2 * N + 1) (X ^ 2) B) : δ * (N * Q) / 2 ≤ A - B := by
  have hN' : (N : ℝ) ≤ 100000 := by exact_mod_cast hN
  have hN0 : (0 : ℝ) ≤ N := by positivity
  have l := low (N + 2)
  have hd : ((2 * N + 1 : ℕ) : ℝ) * δ ≤ 0.0126 := by unfold δ; push_cast; linarith
  have u := high (2 * N + 1) (by linarith)
  have u2 : (1 + δ) ^ (2 * N + 1) ≤ 1 + 1.02 * (((2 * N + 1 : ℕ) : ℝ) * δ) := by
    refine u.trans ?_
    have : 0 ≤ ((2 * N + 1 : ℕ) : ℝ) * δ := by have := δ0; positivity
    rw [div_le_iff₀ (by linarith)]
    nlinarith
  have hP : 0 ≤ N * Q := by positivity
  have a1 : (1 - ((N + 2 : ℕ) : ℝ) * δ) * (N * Q) ≤ A := (mul_le_mul_of_nonneg_right l hP).trans hA.1
  have b1 : B ≤ (1 + 1.02 * (((2 * N + 1 : ℕ) : ℝ) * δ)) * X ^ 2 := hB.2.trans (mul_le_mul_of_nonneg_right u2 (by positivity))
  have b2 : 1.02 * (((2 * N + 1 : ℕ) : ℝ) * δ) * X ^ 2 ≤ 1.02 * (((2 * N + 1 : ℕ) : ℝ) * δ) * (N * Q) :=
    mul_le_mul_of_nonneg_left hXQ (by have := δ0; positivity)
  have key : δ * (3.1 * N + 4) * (N * Q) ≤ N * Q - X ^ 2 := by
    refine le_trans ?_ hV
    have h1 : δ * (3.1 * N + 4) * (N * Q) ≤ δ * (3.1 * N + 4) * (N * (N * H ^ 2)) := by
      have := δ0
      gcongr
    refine h1.trans ?_
    unfold Resolved at hr
    have : 0 ≤ (N : ℝ) ^ 2 := by positivity
    have h3 := mul_le_mul_of_nonneg_left hr this
    unfold δ
    linarith
  push_cast at a1 b1 b2
  have : 0 ≤ δ * (N * Q) := mul_nonneg δ0.le hP
  have hN3 : 0 ≤ N * (δ * (N * Q)) := mul_nonneg hN0 this
  nlinarith

/-- `det` of `LSE` is a positive number -/
theorem det_pos (bad : Binary64) (pts : List (Binary64 × Binary64)) (ρ : Binary64 × Binary64 → ℝ) (s H : ℝ) (hs0 : 0 < s)
    (hN : 2 ≤ pts.length) (hN2 : pts.length ≤ 100000)
    (hv : ∀ p ∈ pts, val p.1 = .fin (ρ p)) (hr : ∀ p ∈ pts, OkRange (ρ p)) (hH : ∀ p ∈ pts, ρ p ≤ H)
    (hs : ∀ p ∈ pts, (p.1 ==. bad) = false ∧ (p.2 ==. bad) = false)
    (hp : (pts.map ρ).Pairwise (fun a b => a + s ≤ b)) (hres : Resolved pts.length s H) :
    XR.lt (.fin 0) (val (lseDet (lseSums cython bad pts))) = true := by
  set N := pts.length with hNd
  have h00 : val (0.0 : Binary64) = .fin 0 := by
    show val (PyFloat.lit _ : Binary64) = _
    rw [val_lit, show (((OfScientific.ofScientific 0 true 1 : ℚ)) : ℝ) = 0 by norm_num]
    exact rnd_simple simple_zero
  have hNs : Simple (N : ℝ) := by
    have := simple_int (N : ℤ) (by rw [abs_of_nonneg (by omega)]; have : N ≤ 2 ^ 24 := hN2.trans (by norm_num)
                                   exact_mod_cast this)
    simpa using this
  have hT : val (f32 (PyFloat.ofNat N) : Binary64) = .fin (N : ℝ) := by
    rw [val_f32, vnat, rnd_simple hNs, rnd32_simple hNs]
  obtain ⟨x, q, t, ex, eq, nx, nq⟩ := sums_near bad pts ρ hv hr hs ⟨f32 (PyFloat.ofNat N), 0.0, 0.0, 0.0, 0.0⟩ 0 0 0 0 0 (by omega) h00 h00
    (Near.refl 0) ((Near.refl 0).mono (le_refl _) (by omega)) ⟨.inl rfl, by simp⟩ ⟨.inl rfl, by simp⟩
  rw [Nat.zero_add, zero_add, ← hNd] at nx nq
  set r := pts.foldl (lseStep cython bad) ⟨f32 (PyFloat.ofNat N), 0.0, 0.0, 0.0, 0.0⟩ with hrd
  have hsum : lseSums cython bad pts = r := rfl
  rw [hsum]
  have hlen : (pts.map ρ).length = N := by simp [hNd]
  have e1 : (pts.map (fun p => ρ p * ρ p)) = (pts.map ρ).map (fun x => x * x) := by rw [List.map_map]; rfl
  rw [e1] at nq
  generalize hl : pts.map ρ = l at *
  have hok : ∀ y ∈ l, OkRange y ∧ y ≤ H := fun y hy => by
    rw [← hl] at hy
    obtain ⟨p, hp, rfl⟩ := List.mem_map.mp hy
    exact ⟨hr p hp, hH p hp⟩
  have hl0 : ∀ y ∈ l, 0 ≤ y := fun y hy => (hok y hy).1.nonneg
  obtain ⟨hQH, hQ0, hX0⟩ := sum_bound l (fun y hy => ⟨hl0 y hy, (hok y hy).2⟩)
  have hup := (sum_bound (H := (2 : ℝ) ^ (30 : ℤ)) l (fun y hy => ⟨hl0 y hy, by
    rcases (hok y hy).1 with h | h
    · rw [h]; positivity
    · exact h.2⟩)).1
  have hV := spread hs0.le l hp
  rw [hlen] at hQH hV hup
  set X := l.sum
  set Q := (l.map (fun x => x * x)).sum
  have hN' : (N : ℝ) ≤ 100000 := by exact_mod_cast hN2
  have hN2' : (2 : ℝ) ≤ N := by exact_mod_cast hN
  have hXQ : X ^ 2 ≤ N * Q := by
    have : 0 ≤ s ^ 2 * ((N : ℝ) ^ 2 * (N ^ 2 - 1) / 12) := by
      have : (0 : ℝ) ≤ N ^ 2 - 1 := by nlinarith
      positivity
    linarith
  have hQlow : (2 : ℝ) ^ (-60 : ℤ) ≤ Q := by
    have : ∃ y ∈ l, y ≠ 0 := by
      match l, hlen with
      | a :: b :: t, _ =>
        have h1 := (List.pairwise_cons.mp hp).1 b (by simp)
        have h2 := hl0 a (by simp)
        exact ⟨b, by simp, by intro h; linarith⟩
      | [_], h => simp at h; omega
      | [], h => simp at h; omega
    obtain ⟨y, hy, hy0⟩ := this
    refine le_trans ?_ (sum_ge hl0 hy)
    rcases (hok y hy).1 with h | h
    · exact absurd h hy0
    · calc (2 : ℝ) ^ (-60 : ℤ) = 2 ^ (-30 : ℤ) * 2 ^ (-30 : ℤ) := by norm_num
        _ ≤ _ := mul_le_mul h.1 h.1 (by positivity) (hl0 y hy)
  -- N * xx
  have nA := (Near.refl (N : ℝ)).mul nq (by positivity) hQ0
  have hQbig : Q ≤ (2 : ℝ) ^ (78 : ℤ) := hup.trans (by norm_num; nlinarith)
  have hNQ : N * Q ≤ (2 : ℝ) ^ (96 : ℤ) := by
    calc N * Q ≤ 100000 * (2 : ℝ) ^ (78 : ℤ) := mul_le_mul hN' hQbig hQ0 (by norm_num)
      _ ≤ _ := by norm_num
  obtain ⟨A, eA, nA⟩ := near_round nA (by omega) (.inr (by
    calc (2 : ℝ) ^ (-99 : ℤ) ≤ 1 * 2 ^ (-60 : ℤ) := by norm_num
      _ ≤ N * Q := mul_le_mul (by linarith) hQlow (by positivity) (by positivity))) (hNQ.trans (by norm_num))
  -- x ^ 2
  have nB := nx.mul nx hX0 hX0
  have hXlow : X = 0 ∨ (2 : ℝ) ^ (-30 : ℤ) ≤ X := by
    right
    have : ∃ y ∈ l, y ≠ 0 := by
      by_contra hc
      push Not at hc
      have : Q = 0 := List.sum_eq_zero (fun z hz => by
        obtain ⟨y, hy, rfl⟩ := List.mem_map.mp hz
        rw [hc y hy, zero_mul])
      rw [this] at hQlow
      exact absurd hQlow (by norm_num)
    obtain ⟨y, hy, hy0⟩ := this
    refine le_trans ?_ (List.single_le_sum hl0 y hy)
    rcases (hok y hy).1 with h | h
    · exact absurd h hy0
    · exact h.1
  obtain ⟨B, eB, nB⟩ := near_round nB (by omega) (by
    rcases hXlow with h | h
    · left; rw [h, zero_mul]
    · right
      calc (2 : ℝ) ^ (-99 : ℤ) ≤ 2 ^ (-30 : ℤ) * 2 ^ (-30 : ℤ) := by norm_num
        _ ≤ _ := mul_le_mul h h (by positivity) hX0) (by
    calc X * X = X ^ 2 := by ring
      _ ≤ N * Q := hXQ
      _ ≤ _ := hNQ.trans (by norm_num))
  have hdiff := det_real hN2 hX0 hQ0 hQH hV hXQ hres (by rwa [show 0 + (N + 1) + 1 = N + 2 by ring] at nA)
    (by rwa [show N + N + 1 = 2 * N + 1 by ring, show X * X = X ^ 2 by ring] at nB)
  have hlow : (2 : ℝ) ^ (-100 : ℤ) ≤ A - B := by
    refine le_trans ?_ hdiff
    calc (2 : ℝ) ^ (-100 : ℤ) ≤ δ * (1 * 2 ^ (-60 : ℤ)) / 2 := by unfold δ; norm_num
      _ ≤ δ * (N * Q) / 2 := by
        have := δ0
        have : (1 : ℝ) ≤ N := by linarith
        gcongr
  -- the determinant
  have eT : val r.total = .fin (N : ℝ) := by rw [t]; exact hT
  have e2 : val (2 : Binary64) = .fin 2 := voflit 2 (by norm_num)
  have epow : val (r.x ^ (2 : Binary64)) = rnd Binary64 (.fin (x * x)) := by
    show Bin.value _ (Bin.pow _ r.x 2) = _
    rw [Bin.value_pow]
    show double.round (XR.pow (val r.x) (val (2 : Binary64))) = _
    rw [ex, e2]
    show double.round (XR.fin x ^ XR.fin 2) = _
    rw [show (XR.fin 2 : XR) = (2 : XR) by rw [XR.foflit], fpow_two, pow_two]; rfl
  have hdet : val (lseDet r) = rnd32 Binary64 (rnd Binary64 (.fin (A - B))) := by
    unfold lseDet
    rw [val_f32, vsub, val_f32, val_f32, vmul, eT, eq, XR.fmul, eA, epow, eB, XR.fsub]
  rw [hdet]
  have hone : Simple ((2 : ℝ) ^ (-100 : ℤ)) := ⟨1, -100, by norm_num, by norm_num, by norm_num⟩
  have m1 := rnd_mono (α := Binary64) (.fin ((2 : ℝ) ^ (-100 : ℤ))) (.fin (A - B)) (by rw [le_fin]; exact hlow)
  rw [rnd_simple hone] at m1
  have m2 := rnd32_mono (α := Binary64) _ _ m1
  rw [rnd32_simple hone] at m2
  have hpos : (0 : ℝ) < 2 ^ (-100 : ℤ) := by positivity
  cases hz : rnd32 Binary64 (rnd Binary64 (.fin (A - B))) with
  | fin z =>
    rw [hz, le_fin] at m2
    simp only [XR.lt, decide_eq_true_eq]; linarith
  | pinf => rfl
  | ninf => rw [hz] at m2; simp [XR.le] at m2
  | nan => rw [hz] at m2; simp [XR.le] at m2
end Fp

/-! ## C147 -/
section c147
open Ieee IeeeFloat Fp

/-- The ranges of a ray in double precision: numbers from 0 to `H`, increasing by at least `s` from gate to gate, none of them the bad value and none
of them (except 0) below `2^-30` or above `2^30`. -/
structure Ranges64 (R : Ray Binary64) (ρ : Int → ℝ) (s H : ℝ) : Prop where
  val : ∀ j : Int, 0 ≤ j → j < R.n → IeeeFloat.val (R.rng.mem j) = .fin (ρ j) ∧ OkRange (ρ j) ∧ ρ j ≤ H ∧ (R.rng.mem j !=. R.bad) = true
  pos : 0 < s
  gap : ∀ j k : Int, 0 ≤ j → j < k → k < R.n → ρ j + s ≤ ρ k

theorem sorted_rangeI (a b : Int) : (rangeI a b).Pairwise (· < ·) := by
  unfold rangeI
  rw [List.pairwise_map]
  refine List.Pairwise.imp (fun {x y} h => ?_) List.pairwise_lt_range
  simp only [Int.ofNat_eq_natCast]; omega

theorem returns_window64 {R : Ray Binary64} {ρ : Int → ℝ} {s H : ℝ} (h : Ranges64 R ρ s H) (z : Buf Binary64) (js : List Int) (P : Int → Bool)
    (hn : js.Pairwise (· < ·)) (hj : ∀ j ∈ js, 0 ≤ j ∧ j < R.n) (hP : ∀ j ∈ js, P j = true → (z.mem j !=. R.bad) = true)
    (hl : 2 ≤ (js.filter P).length) (hl2 : (js.filter P).length ≤ 100000) (hres : Resolved (js.filter P).length s H) :
    Returns (lse cython R.bad ((js.filter P).map (fun j => (R.rng.mem j, z.mem j)))) := by
  have hmem : ∀ j ∈ js.filter P, (0 ≤ j ∧ j < R.n) ∧ (z.mem j !=. R.bad) = true := fun j hj' => by
    have := List.mem_filter.mp hj'
    exact ⟨hj j this.1, hP j this.1 this.2⟩
  set l := js.filter P with hld
  -- the real range of a sample
  let r : Binary64 × Binary64 → ℝ := fun p => match IeeeFloat.val p.1 with | .fin x => x | _ => 0
  have hr : ∀ j ∈ l, r (R.rng.mem j, z.mem j) = ρ j := fun j hj' => by
    have := hmem j hj'
    show (match IeeeFloat.val (R.rng.mem j) with | .fin x => x | _ => 0) = _
    rw [(h.val j this.1.1 this.1.2).1]
  have hd := det_pos R.bad (l.map (fun j => (R.rng.mem j, z.mem j))) r s H h.pos (by simpa using hl) (by simpa using hl2)
    (fun p hp => by
      obtain ⟨j, hj', rfl⟩ := List.mem_map.mp hp
      have := hmem j hj'
      rw [hr j hj']; exact (h.val j this.1.1 this.1.2).1)
    (fun p hp => by
      obtain ⟨j, hj', rfl⟩ := List.mem_map.mp hp
      have := hmem j hj'
      rw [hr j hj']; exact (h.val j this.1.1 this.1.2).2.1)
    (fun p hp => by
      obtain ⟨j, hj', rfl⟩ := List.mem_map.mp hp
      have := hmem j hj'
      rw [hr j hj']; exact (h.val j this.1.1 this.1.2).2.2.1)
    (fun p hp => by
      obtain ⟨j, hj', rfl⟩ := List.mem_map.mp hp
      have := hmem j hj'
      have h1 := (h.val j this.1.1 this.1.2).2.2.2
      have h2 := this.2
      simp only [PyFloat.ne, Bool.not_eq_true'] at h1 h2
      exact ⟨h1, h2⟩)
    (by
      rw [List.map_map, List.map_congr_left (f := r ∘ fun j => (R.rng.mem j, z.mem j)) (g := ρ) (fun j hj' => hr j hj'), List.pairwise_map]
      refine (List.Pairwise.and_mem.mp (hn.filter P)).imp (fun {a b} hab => ?_)
      obtain ⟨ha, hb, hab⟩ := hab
      exact h.gap a b (hmem a ha).1.1 hab (hmem b hb).1.2)
    (by simpa using hres)
  unfold lse
  dsimp only
  have : (lseDet (lseSums cython R.bad (l.map (fun j => (R.rng.mem j, z.mem j)))) ==. (0 : Binary64)) = false := by
    generalize lseDet (lseSums cython R.bad (l.map (fun j => (R.rng.mem j, z.mem j)))) = d at hd
    have h0 : IeeeFloat.val (0 : Binary64) = .fin 0 := by
      show IeeeFloat.val (PyFloat.lit _ : Binary64) = _
      rw [val_lit]
      norm_num
      exact rnd_simple simple_zero
    rw [val_eq, h0]
    cases hv : IeeeFloat.val d with
    | fin x =>
      rw [hv] at hd
      simp only [XR.lt, decide_eq_true_eq] at hd
      simp only [XR.eq, decide_eq_false_iff_not]
      exact hd.ne'
    | _ => rfl
  rw [this, Bool.and_false]
  exact .ok _

/-- `0.8 * w`, rounded, is at least `0.75 w` -/
theorem eighty {w N : ℕ} (hw : w ≤ 300000) (hN : N ≤ 300000)
    (h : ((cython : Dialect Binary64).w (PyFloat.ofNat N) >. (cython : Dialect Binary64).w ((cython : Dialect Binary64).w (0.8 : Binary64) *
      (cython : Dialect Binary64).w (PyFloat.ofNat w))) = true) : 3 * w < 4 * N := by
  have hs : ∀ m : ℕ, m ≤ 300000 → Simple (m : ℝ) := fun m hm => by
    have := simple_int (m : ℤ) (by rw [abs_of_nonneg (by omega)]; have : m ≤ 2 ^ 24 := hm.trans (by norm_num)
                                   exact_mod_cast this)
    simpa using this
  have h8 : XR.le (.fin 0.75) (IeeeFloat.val (0.8 : Binary64)) = true := by
    show XR.le _ (IeeeFloat.val (PyFloat.lit _ : Binary64)) = true
    rw [val_lit]
    refine rnd_ge (α := Binary64) (a := 0.75) ⟨3, -2, by norm_num, by norm_num, by norm_num⟩ ?_
    rw [le_fin]; norm_num
  have h81 : XR.le (IeeeFloat.val (0.8 : Binary64)) (.fin 1) = true := by
    show XR.le (IeeeFloat.val (PyFloat.lit _ : Binary64)) _ = true
    rw [val_lit]
    refine rnd_le (α := Binary64) (a := 1) ⟨1, 0, by norm_num, by norm_num, by norm_num⟩ ?_
    rw [le_fin]; norm_num
  obtain ⟨c, hc, c1, c2⟩ := between h8 h81
  have hprod : XR.le (.fin (0.75 * w)) (IeeeFloat.val ((0.8 : Binary64) * PyFloat.ofNat w)) = true := by
    rw [vmul, hc, vnat, rnd_simple (hs w hw), XR.fmul]
    refine rnd_ge (α := Binary64) ⟨3 * w, -2, ?_, by norm_num, by push_cast; ring⟩ ?_
    · rw [abs_of_nonneg (by positivity)]
      have : 3 * w ≤ 2 ^ 24 := (Nat.mul_le_mul_left 3 hw).trans (by norm_num)
      exact_mod_cast this
    · rw [le_fin]
      have : (0 : ℝ) ≤ w := by positivity
      nlinarith
  have h' : ((0.8 : Binary64) * PyFloat.ofNat w <. PyFloat.ofNat N) = true := h
  rw [val_lt, vnat, rnd_simple (hs N hN)] at h'
  have key : (0.75 : ℝ) * w < N := by
    generalize IeeeFloat.val ((0.8 : Binary64) * PyFloat.ofNat w) = v at hprod h'
    cases v with
    | fin v =>
      rw [le_fin] at hprod
      simp only [XR.lt, decide_eq_true_eq] at h'
      linarith
    | pinf => simp [XR.lt] at h'
    | ninf => simp [XR.le] at hprod
    | nan => simp [XR.lt] at h'
  have : (3 * w : ℝ) < 4 * N := by linarith
  exact_mod_cast this

/-- every number of samples that a fit can have in this ray is resolved -/
def AllResolved (R : Ray Binary64) (s H : ℝ) : Prop := ∀ N : ℕ, 2 ≤ N → 3 * R.half < 4 * N → N ≤ 3 * R.half → Resolved N s H

theorem returns_kdpGate64 {R : Ray Binary64} {ρ : Int → ℝ} {s H : ℝ} (h : Ranges64 R ρ s H) (ho : R.order ≤ 60000) (hres : AllResolved R s H)
    (z : Buf Binary64) {m i : Int} (hd : IeeeFloat.val (R.dz.mem i) ≠ .nan) :
    Returns (kdpGate cython false R z m i) := by
  unfold kdpGate
  refine (returns_rd _ _ _).bind fun d hd' => ?_
  have hdv : d = R.dz.mem i := by simpa [rd, eq_comm] using hd'
  split
  · obtain ⟨w, hw, hw1⟩ : ∃ w : ℕ, nadpOf R d m = (w : Int) ∧ R.half ≤ w ∧ w ≤ 3 * R.half := by
      have hval : IeeeFloat.val d ≠ .nan := hdv ▸ hd
      have c45 : IeeeFloat.val (45.0 : Binary64) = .fin 45 := by
        show IeeeFloat.val (PyFloat.lit _ : Binary64) = _
        rw [val_lit, show (((OfScientific.ofScientific 450 true 1 : ℚ)) : ℝ) = 45 by norm_num]
        exact rnd_simple (simple_nat 45 (by norm_num))
      have c35 : IeeeFloat.val (35.0 : Binary64) = .fin 35 := by
        show IeeeFloat.val (PyFloat.lit _ : Binary64) = _
        rw [val_lit, show (((OfScientific.ofScientific 350 true 1 : ℚ)) : ℝ) = 35 by norm_num]
        exact rnd_simple (simple_nat 35 (by norm_num))
      unfold nadpOf
      dsimp only
      by_cases h1 : (d <. 35.0) = true
      · rw [if_pos h1]; exact ⟨3 * R.half, by push_cast; ring, by omega, le_refl _⟩
      · rw [if_neg h1]
        by_cases h2 : (d >=. 35.0 && d <. 45.0) = true
        · rw [if_pos h2]; exact ⟨2 * R.half, by push_cast; ring, by omega, by omega⟩
        · rw [if_neg h2]
          have h3 : (d >=. 45.0) = true := by
            rw [Bool.and_eq_true, not_and] at h2
            have e1 : (d >=. 35.0) = XR.le (.fin 35) (IeeeFloat.val d) := by rw [← c35]; exact val_le _ _
            have e2 : (d <. 45.0) = XR.lt (IeeeFloat.val d) (.fin 45) := by rw [← c45]; exact val_lt _ _
            have e3 : (d >=. 45.0) = XR.le (.fin 45) (IeeeFloat.val d) := by rw [← c45]; exact val_le _ _
            have e4 : (d <. 35.0) = XR.lt (IeeeFloat.val d) (.fin 35) := by rw [← c35]; exact val_lt _ _
            rw [e1, e2] at h2
            rw [e4] at h1
            rw [e3]
            generalize IeeeFloat.val d = v at *
            cases v with
            | fin v =>
              simp only [XR.le, XR.lt, decide_eq_true_eq, not_lt] at *
              exact h2 h1
            | pinf => rfl
            | ninf => simp [XR.lt] at h1
            | nan => exact absurd rfl hval
          rw [if_pos h3]; exact ⟨R.half, rfl, le_refl _, by omega⟩
    have hhalf : R.half ≤ 30000 := by unfold Ray.half; omega
    dsimp only
    rw [hw]
    have hz : ∀ pts : List (Binary64 × Binary64), pts.length ≤ 300000 → ((cython : Dialect Binary64).w (PyFloat.ofNat pts.length) >.
        (cython : Dialect Binary64).w ((cython : Dialect Binary64).w (0.8 : Binary64) * (cython : Dialect Binary64).w (PyFloat.ofInt (w : Int)))) = true →
        3 * w < 4 * pts.length := fun pts hp hc => eighty (by omega) hp hc
    by_cases hfit : 0 ≤ i - (w : Int) / 2 ∧ i + (w : Int) / 2 ≤ (R.n : Int) - 1
    · rw [if_pos hfit]
      refine (returns_kdpCollect _ _ _).bind fun pts hp => ?_
      have hv := kdpCollect_val hp
      have hle : pts.length ≤ 2 * (w / 2) := by
        rw [hv, List.length_map]
        refine (List.length_filter_le _ _).trans ?_
        rw [length_rangeI]; simp only [cython]; omega
      split
      · rename_i hc
        have h3 := hz pts (by omega) hc
        have hr := returns_window64 h z (rangeI (i - (w : Int) / 2) (i + (w : Int) / 2 + (cython : Dialect Binary64).winEnd)) (fun j => z.mem j !=. R.bad)
          (sorted_rangeI _ _) (fun j hj => by
            have := mem_rangeI.mp hj
            simp only [cython] at this; omega) (fun j _ hj => hj)
        rw [← hv, ← List.length_map (f := fun j => (R.rng.mem j, z.mem j)), ← hv] at hr
        exact (hr (by omega) (by omega) (hres _ (by omega) (by omega) (by omega))).bind fun ab _ => .ok _
      · exact .ok _
    · rw [if_neg hfit]
      refine Returns.bind (.ok _) fun pts hp => ?_
      cases hp
      rw [if_neg (fun hc => by have := hz [] (by simp) hc; simp at this)]
      exact .ok _
  · exact .ok _

theorem returns_firGate64 {R : Ray Binary64} {ρ : Int → ℝ} {s H : ℝ} (h : Ranges64 R ρ s H) (he : R.order % 2 = 0) (ho : R.order ≤ 60000)
    (hres : AllResolved R s H) (sd : Buf Binary64) (yz : Buf Binary64 × Buf Binary64) {i : Int} (h0 : R.half ≤ i) (h1 : i < (R.n : Int) - R.half) :
    Returns (firGate cython false R sd yz i) := by
  unfold firGate
  refine (returns_good _ _ _ _).bind fun g _ => ?_
  split
  · refine (returns_collect _ _ _ _).bind fun pts hp => ?_
    have hv := collect_val hp
    split
    · rename_i hc
      refine Returns.bind ?_ fun z _ => ?_
      · split
        · rename_i hlt
          refine Returns.bind ?_ fun ab _ => returns_fill _ _ _ _ _
          have h3 := eighty (by omega) (by omega) hc
          have hh : R.order = 2 * R.half := by unfold Ray.half; omega
          have hr := returns_window64 h yz.2 (rangeI (i - R.half) (i + R.half + 1))
            (fun j => (sd.mem j <=. R.thsd.mem j) && (yz.2.mem j !=. R.bad)) (sorted_rangeI _ _) (fun j hj => by
            have := mem_rangeI.mp hj; omega) (fun j _ hj => by
            simp only [Bool.and_eq_true] at hj; exact hj.2)
          rw [← hv, ← List.length_map (f := fun j => (R.rng.mem j, yz.2.mem j)), ← hv] at hr
          exact hr (by omega) (by omega) (hres _ (by omega) (by omega) (by omega))
        · exact .ok _
      · exact (returns_firSum _ _ _ _ _).bind fun A _ => (returns_set _ _ _ _).bind fun y _ => .ok _
    · exact .ok _
  · exact .ok _

/-- **C147 (partial).** In IEEE double precision with float32 stores, the Cython kernel returns a result — it never raises — for every phase,
threshold and number of passes (NaN and infinities included), every reflectivity that is not NaN, every even order up to 60000 and every positive
window, on every ray whose ranges are resolved: they increase from gate to gate by at least `s`, are at most `H`, and `12 (3.1 N + 4) H² ≤ 1.6·10⁷ s² (N² - 1)` for
the numbers `N` of samples that a fit can have. -/
theorem C147_cython_returns_partial (R : Ray Binary64) (ρ : Int → ℝ) (s H : ℝ) (h : Ranges64 R ρ s H) (he : R.order % 2 = 0) (ho : R.order ≤ 60000)
    (hs : 1 ≤ R.stdGate) (hd : ∀ i : Int, 0 ≤ i → i < R.n → IeeeFloat.val (R.dz.mem i) ≠ .nan) (hres : AllResolved R s H) :
    Returns (calcKdpRayFir cython false R) := by
  unfold calcKdpRayFir
  refine (Returns.mapM fun j _ => returns_rd _ _ _).bind fun z _ => (Returns.mapM fun i _ => ?_).bind fun sd _ => ?_
  · unfold sdAt
    split
    · refine (Returns.mapM fun j _ => returns_rd _ _ _).bind fun xs _ => ?_
      dsimp only
      split
      · rename_i hN
        have : 0 ≤ R.halfStd := by unfold Ray.halfStd; omega
        rw [if_neg]
        · exact .ok _
        · simp only [Bool.and_eq_true, beq_iff_eq]; omega
      · exact .ok _
    · exact .ok _
  · refine Returns.bind ?_ fun yz _ => ?_
    · generalize (ofList R.n (List.replicate R.n R.bad), ofList R.n z) = yz
      induction R.nf generalizing yz with
      | zero => exact .ok _
      | succ k ih =>
        unfold firPasses firPass
        refine Returns.bind (Returns.bind (.foldlM fun s i hi => ?_) fun r _ => .ok _) fun r _ => ih r
        have := mem_rangeI.mp hi
        exact returns_firGate64 h he ho hres _ _ this.1 this.2
    · refine Returns.bind ?_ fun kd _ => .ok _
      have hin : ∀ i ∈ gates R.n, (0 : Int) ≤ i ∧ i < R.n := fun i hi => by
        have := mem_rangeI.mp hi
        omega
      generalize R.nadp0 = m
      generalize gates R.n = gs at hin
      induction gs generalizing m with
      | nil => exact .ok _
      | cons i is ih =>
        unfold kdpLoop
        have hi := hin i (by simp)
        exact (returns_kdpGate64 h ho hres yz.2 (hd i hi.1 hi.2)).bind fun p _ => (ih _ (fun j hj => hin j (by simp [hj]))).bind fun ks _ => .ok _

/-- With filters of order 20, ranges up to 1700 gate spacings are resolved. -/
theorem order20_resolved (R : Ray Binary64) (ho : R.order = 20) (s H : ℝ) (h0 : 0 ≤ H) (h : H ≤ 1700 * s) : AllResolved R s H := by
  intro N h1 h2 h3
  have hh : R.half = 10 := by unfold Ray.half; omega
  rw [hh] at h2 h3
  have hN1 : (8 : ℝ) ≤ N := by exact_mod_cast (by omega : 8 ≤ N)
  have hN2 : (N : ℝ) ≤ 30 := by exact_mod_cast (by omega : N ≤ 30)
  unfold Resolved
  have hH : H ^ 2 ≤ 2890000 * s ^ 2 := by nlinarith
  have e : 12 * (3.1 * (N : ℝ) + 4) * H ^ 2 ≤ 12 * (3.1 * (N : ℝ) + 4) * (2890000 * s ^ 2) := by gcongr
  refine e.trans ?_
  have hp : 34680000 * (3.1 * (N : ℝ) + 4) ≤ 16000000 * (N ^ 2 - 1) := by nlinarith
  have := mul_le_mul_of_nonneg_right hp (sq_nonneg s)
  linarith

/-- **C147, an instance.**  Gates every 125 m up to 200 km, a filter of order 20 and a negative bad value: the Cython kernel never raises. -/
theorem C147_gates_125m (R : Ray Binary64) (hn : R.n ≤ 1601) (ho : R.order = 20) (hs : 1 ≤ R.stdGate)
    (hr : ∀ j : Int, 0 ≤ j → j < R.n → R.rng.mem j = PyFloat.lit ((j : ℚ) / 8)) (b : ℝ) (hb : IeeeFloat.val R.bad = .fin b) (hb0 : b < 0)
    (hd : ∀ i : Int, 0 ≤ i → i < R.n → IeeeFloat.val (R.dz.mem i) ≠ .nan) : Returns (calcKdpRayFir cython false R) := by
  refine C147_cython_returns_partial R (fun j => j / 8) (1 / 8) 200 ⟨fun j j0 j1 => ?_, by norm_num, fun j k j0 jk k1 => ?_⟩ (by omega) (by omega) hs hd
    (order20_resolved R ho _ _ (by norm_num) (by norm_num))
  · have hj : (j : ℝ) ≤ 1600 := by exact_mod_cast (by omega : j ≤ 1600)
    have hj0 : (0 : ℝ) ≤ j := by exact_mod_cast j0
    have hv : IeeeFloat.val (R.rng.mem j) = .fin ((j : ℝ) / 8) := by
      rw [hr j j0 j1, val_lit]
      push_cast
      refine rnd_simple ⟨j, -3, ?_, by norm_num, by norm_num; ring⟩
      rw [abs_of_nonneg j0]
      exact le_trans (by omega : j ≤ 1600) (by norm_num)
    refine ⟨hv, ?_, by linarith, ?_⟩
    · rcases j0.lt_or_eq with h | h
      · right
        have : (1 : ℝ) ≤ j := by exact_mod_cast h
        exact ⟨by norm_num; linarith, by norm_num; linarith⟩
      · left; rw [← h]; simp
    · simp only [PyFloat.ne, Bool.not_eq_true']
      rw [val_eq, hv, hb]
      simp only [XR.eq, decide_eq_false_iff_not]
      intro h
      have : (0 : ℝ) ≤ j / 8 := by positivity
      linarith
  · have : (j : ℝ) + 1 ≤ k := by exact_mod_cast (by omega : j + 1 ≤ k)
    show (j : ℝ) / 8 + 1 / 8 ≤ k / 8
    linarith

/-- the hypotheses can be met: 1601 gates, any phase and thresholds -/
example (dp thsd : Buf Binary64) (nf : ℕ) : Returns (calcKdpRayFir cython false
    ⟨1601, dp, ⟨1601, fun _ => 30⟩, ⟨1601, fun j => PyFloat.lit ((j : ℚ) / 8)⟩, thsd, nf, -32768, 20, 1, ⟨21, fun _ => 1⟩, 15, 0⟩) :=
  C147_gates_125m _ (by simp) rfl (by norm_num) (fun j _ _ => rfl) (-32768)
    (by
      show IeeeFloat.val (-(32768 : Binary64)) = _
      rw [vneg, voflit 32768 (by norm_num)]; rfl) (by norm_num)
    (fun i _ _ => by
      show IeeeFloat.val (30 : Binary64) ≠ _
      rw [voflit 30 (by norm_num)]; simp)

/-- A ray of 11 gates with the same phase `φ` and reflectivity 50, at the ranges `r0 + gs i`, all float32; one pass-through filter of order 20. -/
noncomputable def flatRay (r0 gs φ : Binary64) : Ray Binary64 where
  n := 11
  dp := ⟨11, fun _ => f32 φ⟩
  dz := ⟨11, fun _ => 50⟩
  rng := ⟨11, fun i => f32 (r0 + gs * PyFloat.ofInt i)⟩
  thsd := ⟨11, fun _ => 12⟩
  nf := 0
  bad := -32768
  order := 20
  gain := 1
  coef := ⟨21, fun _ => 1⟩
  stdGate := 1
  nadp0 := 0

/-- **C147, full statement**: as C71, in IEEE arithmetic. -/
def C147Full : Prop := ∀ (R : Ray Binary64) (ρ : Int → ℝ),
  (∀ j : Int, 0 ≤ j → j < R.n → IeeeFloat.val (R.rng.mem j) = .fin (ρ j) ∧ (R.rng.mem j !=. R.bad) = true) →
  (∀ j k : Int, 0 ≤ j → j < R.n → 0 ≤ k → k < R.n → ρ j = ρ k → j = k) →
  R.order % 2 = 0 → 1 ≤ R.stdGate → 0 ≤ R.nadp0 → Returns (calcKdpRayFir cython false R)

/-- the rational value of a float -/
def ratOf (x : Binary64) : ℚ := match x.1 with | .fin q => q | _ => 0

theorem val_ratOf {x : Binary64} (h : x.1 = .fin (ratOf x)) : IeeeFloat.val x = .fin (ratOf x : ℝ) := by
  show x.1.toXR = _
  rw [h]; rfl

set_option maxRecDepth 100000 in
theorem flat150_check : (∀ j : Fin 11, ((flatRay 150 0.01 100.1).rng.mem (j : ℕ)).1 = .fin (ratOf ((flatRay 150 0.01 100.1).rng.mem (j : ℕ)))) ∧
    (∀ j : Fin 11, ((flatRay 150 0.01 100.1).rng.mem (j : ℕ) !=. (flatRay 150 0.01 100.1).bad) = true) ∧
    (∀ j k : Fin 11, ratOf ((flatRay 150 0.01 100.1).rng.mem (j : ℕ)) = ratOf ((flatRay 150 0.01 100.1).rng.mem (k : ℕ)) → j = k) ∧
    (calcKdpRayFir cython false (flatRay 150 0.01 100.1)).toOption = none := by decide +kernel

/-- **C147 is false in floating point.**  Gates at 150.00, 150.01, ... 150.10: the ranges differ, but `N Σx² - (Σx)²`, in single precision, is 0, and the
Cython kernel raises `ZeroDivisionError`. -/
theorem C147_full_false : ¬ C147Full := by
  intro h
  obtain ⟨c1, c2, c3, c4⟩ := flat150_check
  have idx : ∀ j : Int, 0 ≤ j → j < (flatRay 150 0.01 100.1).n → ∃ a : Fin 11, j = ((a : ℕ) : Int) := fun j j0 j1 =>
    ⟨⟨j.toNat, by have : j < 11 := j1; omega⟩, by simp; omega⟩
  obtain ⟨v, hv⟩ := h (flatRay 150 0.01 100.1) (fun j => (ratOf ((flatRay 150 0.01 100.1).rng.mem j) : ℝ)) (fun j j0 j1 => by
      obtain ⟨a, rfl⟩ := idx j j0 j1
      exact ⟨val_ratOf (c1 a), c2 a⟩) (fun j k j0 j1 k0 k1 e => by
      obtain ⟨a, rfl⟩ := idx j j0 j1
      obtain ⟨b, rfl⟩ := idx k k0 k1
      have := c3 a b (by exact_mod_cast e)
      rw [this]) (by decide) (by decide) (by decide)
  rw [hv] at c4
  cases c4
end c147
end Csu.Kdp
