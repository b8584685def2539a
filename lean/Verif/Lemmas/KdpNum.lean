import Verif.Lemmas.Kdp
import Verif.Spec.Kdp
import Mathlib.Tactic
/-! Numeric lemmas for the KDP kernel over the extended reals. -/
namespace Csu.Kdp
open Csu PyFloat XR KdpSpec

theorem fpow_two (a : ℝ) : (XR.fin a ^ (2 : XR) : XR) = .fin (a ^ 2) := by
  rw [foflit, fpow_def, powFin]
  split
  · simp
  · split
    · rename_i h; simp [h]
    · have : (⌊(2 : ℝ)⌋ : ℝ) = 2 := by norm_num
      have h2 : ⌊(2 : ℝ)⌋ = 2 := by norm_num
      simp [h2]

@[simp] theorem wx (D : Dialect XR) (x : XR) : D.w x = x := by unfold Dialect.w; split <;> rfl

/-! ## Standard deviation -/

theorem sd_fold (D : Dialect XR) (bad : XR) (xs : List ℝ) (hx : ∀ x ∈ xs, (XR.fin x !=. bad) = true) (N : Nat) (S1 S2 W : ℝ)
    (h0 : N = 0 → S1 = 0 ∧ S2 = 0 ∧ W = 0) (A : ℝ) (hA : A = if N = 0 then 0 else S1 / N - W) :
    ∃ W', (N + xs.length = 0 → W' = 0) ∧ (xs.map XR.fin).foldl (sdStep D bad) ⟨N, .fin A, .fin (S2 - S1 ^ 2 / N), .fin W⟩ =
      ⟨N + xs.length, .fin (if N + xs.length = 0 then 0 else (S1 + xs.sum) / ((N + xs.length : ℕ) : ℝ) - W'),
        .fin (S2 + (xs.map (· ^ 2)).sum - (S1 + xs.sum) ^ 2 / ((N + xs.length : ℕ) : ℝ)), .fin W'⟩ := by
  induction xs generalizing N S1 S2 W A with
  | nil => exact ⟨W, fun h => (h0 (by simpa using h)).2.2, by simp [hA]⟩
  | cons x xs ih =>
    have hg := hx x (by simp)
    simp only [List.map_cons, List.foldl_cons]
    set W1 : ℝ := if N = 0 then x else W with hW1
    have hstep : sdStep D bad ⟨N, .fin A, .fin (S2 - S1 ^ 2 / N), .fin W⟩ (.fin x) =
        ⟨N + 1, .fin ((S1 + x) / ((N + 1 : ℕ) : ℝ) - W1),
          .fin ((S2 + x ^ 2) - (S1 + x) ^ 2 / ((N + 1 : ℕ) : ℝ)), .fin W1⟩ := by
      have hN : ((N + 1 : ℕ) : ℝ) ≠ 0 := by positivity
      unfold sdStep
      simp only [wx]
      rw [hg]
      simp only [if_true]
      have hW : (if N = 0 then XR.fin x else XR.fin W) = XR.fin W1 := by
        rw [hW1]; split <;> rfl
      rw [hW]
      simp only [fsub, fpow_two, fofNat, fmul, Nat.add_sub_cancel, fdiv hN, fadd]
      congr 2
      · rw [hA]
        rcases Nat.eq_zero_or_pos N with h | h
        · have := h0 h
          simp [h, this.1, hW1]
        · have h' : (N : ℝ) ≠ 0 := by positivity
          have h'' : N ≠ 0 := by omega
          simp only [h'', if_false, hW1]
          push_cast
          field_simp
          ring
      · rw [hA]
        rcases Nat.eq_zero_or_pos N with h | h
        · have := h0 h
          simp [h, this.1, this.2.1]
        · have h' : (N : ℝ) ≠ 0 := by positivity
          have h'' : N ≠ 0 := by omega
          simp only [h'', if_false, hW1]
          push_cast
          field_simp
          ring
    rw [hstep]
    obtain ⟨W', -, e⟩ := ih (fun y hy => hx y (by simp [hy])) (N + 1) (S1 + x) (S2 + x ^ 2) W1 (by omega)
      ((S1 + x) / ((N + 1 : ℕ) : ℝ) - W1) (by simp)
    refine ⟨W', by simp, ?_⟩
    rw [e]
    have hl : N + 1 + xs.length = N + (xs.length + 1) := by omega
    simp only [List.length_cons, List.sum_cons, hl, add_assoc]

theorem sd_skip (D : Dialect XR) (bad : XR) (xs : List XR) (s : SdAcc XR) :
    xs.foldl (sdStep D bad) s = (xs.filter (fun x => x !=. bad)).foldl (sdStep D bad) s := by
  induction xs generalizing s with
  | nil => rfl
  | cons x xs ih =>
    by_cases h : (x !=. bad) = true
    · simp [h, ih]
    · have : sdStep D bad s x = s := by unfold sdStep; simp [h]
      simp [h, ih, this]

theorem sum_sq_dev (l : List ℝ) (hl : l ≠ []) :
    (l.map (fun x => (x - l.sum / l.length) ^ 2)).sum = (l.map (· ^ 2)).sum - l.sum ^ 2 / l.length := by
  have key : ∀ (l : List ℝ) (m : ℝ), (l.map (fun x => (x - m) ^ 2)).sum =
      (l.map (· ^ 2)).sum - 2 * m * l.sum + l.length * m ^ 2 := by
    intro l m
    induction l with
    | nil => simp
    | cons x l ih => simp only [List.map_cons, List.sum_cons, ih, List.length_cons]; push_cast; ring
  have hn : (l.length : ℝ) ≠ 0 := by
    have : 0 < l.length := List.length_pos_iff.mpr hl
    positivity
  rw [key]
  field_simp
  ring

theorem sum_sq_nonneg (l : List ℝ) (f : ℝ → ℝ) : 0 ≤ (l.map (fun x => (f x) ^ 2)).sum := by
  induction l with
  | nil => simp
  | cons x l ih => simp only [List.map_cons, List.sum_cons]; positivity

/-- The one-pass algorithm computes the population standard deviation. -/
theorem sd_value (D : Dialect XR) (bad : XR) (xs : List ℝ) (hx : ∀ x ∈ xs, (XR.fin x !=. bad) = true) (hne : xs ≠ []) :
    let s := (xs.map XR.fin).foldl (sdStep D bad) ⟨0, 0.0, 0.0, 0.0⟩
    s.N = xs.length ∧ PyFloat.sqrt (s.V / PyFloat.ofNat s.N) = XR.fin (popStd xs) := by
  have h00 : (0.0 : XR) = .fin 0 := by rw [fsci]; norm_num
  obtain ⟨W', -, e⟩ := sd_fold D bad xs hx 0 0 0 0 (by simp) 0 (by simp)
  simp only [ne_eq, OfNat.ofNat_ne_zero, not_false_eq_true, zero_pow, Nat.cast_zero, div_zero, sub_zero, zero_add] at e
  have hpos : 0 < xs.length := List.length_pos_iff.mpr hne
  have hn : (xs.length : ℝ) ≠ 0 := by positivity
  dsimp only
  rw [h00, e]
  refine ⟨rfl, ?_⟩
  dsimp only
  rw [fofNat, fdiv hn, fsqrt]
  · rw [popStd, sum_sq_dev xs hne]
  · rw [← sum_sq_dev xs hne]
    exact div_nonneg (sum_sq_nonneg xs _) (by positivity)

theorem sd_count (D : Dialect XR) (bad : XR) (xs : List XR) (s : SdAcc XR) :
    (xs.foldl (sdStep D bad) s).N = s.N + (xs.filter (fun x => x !=. bad)).length := by
  induction xs generalizing s with
  | nil => simp
  | cons x xs ih =>
    rw [List.foldl_cons, ih]
    unfold sdStep
    by_cases h : (x !=. bad) = true
    · simp [h]; omega
    · simp [h]

/-- NaN in the running `V` stays -/
theorem sd_nan (D : Dialect XR) (bad : XR) (xs : List XR) (s : SdAcc XR) (h : s.V = .nan ∨ XR.nan ∈ xs) :
    (xs.foldl (sdStep D bad) s).V = .nan := by
  induction xs generalizing s with
  | nil => simpa using h
  | cons x xs ih =>
    rw [List.foldl_cons]
    apply ih
    by_cases hx : x = .nan
    · left
      subst hx
      unfold sdStep
      have h2 : (XR.nan ^ (XR.fin 2) : XR) = .nan := nan_pow (by norm_num)
      simp [h2]
    · rcases h with h | h
      · left
        unfold sdStep
        split
        · simp [h]
        · exact h
      · right
        simpa [Ne.symm hx] using h

/-! ## Least squares -/

/-- a sample as floats -/
def lift (p : ℝ × ℝ) : XR × XR := (.fin p.1, .fin p.2)

/-- the samples that are not skipped -/
noncomputable def kept (D : Dialect XR) (bad : XR) (pts : List (ℝ × ℝ)) : List (ℝ × ℝ) :=
  pts.filter (fun p => !(D.skip bad (.fin p.1) || D.skip bad (.fin p.2)))

theorem lse_fold (D : Dialect XR) (bad : XR) (pts : List (ℝ × ℝ)) (t x y xx xy : ℝ) :
    (pts.map lift).foldl (lseStep D bad) ⟨.fin t, .fin x, .fin y, .fin xx, .fin xy⟩ =
      ⟨.fin (t - pts.length + (kept D bad pts).length), .fin (x + ((kept D bad pts).map (·.1)).sum),
        .fin (y + ((kept D bad pts).map (·.2)).sum), .fin (xx + ((kept D bad pts).map (fun p => p.1 * p.1)).sum),
        .fin (xy + ((kept D bad pts).map (fun p => p.1 * p.2)).sum)⟩ := by
  induction pts generalizing t x y xx xy with
  | nil => simp [kept]
  | cons p pts ih =>
    rw [List.map_cons, List.foldl_cons]
    have h1 : (1.0 : XR) = .fin 1 := by rw [fsci]; norm_num
    by_cases h : (D.skip bad (.fin p.1) || D.skip bad (.fin p.2)) = true
    · have hk : kept D bad (p :: pts) = kept D bad pts := by
        unfold kept; rw [List.filter_cons_of_neg]; rw [h]; simp
      have hs : lseStep D bad ⟨.fin t, .fin x, .fin y, .fin xx, .fin xy⟩ (lift p) =
          ⟨.fin (t - 1), .fin x, .fin y, .fin xx, .fin xy⟩ := by
        unfold lseStep lift; rw [if_pos h, h1]; simp
      rw [hs, ih, hk]
      congr 2
      simp only [List.length_cons]; push_cast; ring
    · have hk : kept D bad (p :: pts) = p :: kept D bad pts := by
        unfold kept; rw [List.filter_cons_of_pos]; simpa using h
      have hs : lseStep D bad ⟨.fin t, .fin x, .fin y, .fin xx, .fin xy⟩ (lift p) =
          ⟨.fin t, .fin (x + p.1), .fin (y + p.2), .fin (xx + p.1 * p.1), .fin (xy + p.1 * p.2)⟩ := by
        unfold lseStep lift; rw [if_neg h]; simp
      rw [hs, ih, hk]
      simp only [List.length_cons, List.map_cons, List.sum_cons]
      congr 2 <;> first | (push_cast; ring) | ring

/-- the determinant of the normal equations -/
def detR (g : List (ℝ × ℝ)) : ℝ := g.length * (g.map (fun p => p.1 * p.1)).sum - (g.map (·.1)).sum ^ 2

/-- the slope -/
noncomputable def slopeR (g : List (ℝ × ℝ)) : ℝ :=
  (g.length * (g.map (fun p => p.1 * p.2)).sum - (g.map (·.1)).sum * (g.map (·.2)).sum) / detR g

/-- the intercept -/
noncomputable def interR (g : List (ℝ × ℝ)) : ℝ :=
  ((g.map (·.2)).sum * (g.map (fun p => p.1 * p.1)).sum - (g.map (·.1)).sum * (g.map (fun p => p.1 * p.2)).sum) / detR g

theorem lseSums_val (D : Dialect XR) (bad : XR) (pts : List (ℝ × ℝ)) :
    lseSums D bad (pts.map lift) =
      ⟨.fin (kept D bad pts).length, .fin ((kept D bad pts).map (·.1)).sum, .fin ((kept D bad pts).map (·.2)).sum,
        .fin ((kept D bad pts).map (fun p => p.1 * p.1)).sum, .fin ((kept D bad pts).map (fun p => p.1 * p.2)).sum⟩ := by
  unfold lseSums
  have h00 : (0.0 : XR) = .fin 0 := by rw [fsci]; norm_num
  rw [h00, fofNat, ff32, lse_fold]
  simp

theorem lse_det (D : Dialect XR) (bad : XR) (pts : List (ℝ × ℝ)) :
    lseDet (lseSums D bad (pts.map lift)) = .fin (detR (kept D bad pts)) := by
  rw [lseSums_val]; unfold lseDet; simp only [ff32]; rw [fpow_two]; simp [detR]

theorem lse_val (D : Dialect XR) (bad : XR) (pts : List (ℝ × ℝ)) (h : detR (kept D bad pts) ≠ 0) :
    lse D bad (pts.map lift) = .ok (.fin (slopeR (kept D bad pts)), .fin (interR (kept D bad pts))) := by
  unfold lse
  dsimp only
  rw [lse_det, lseSums_val]
  have : (XR.fin (detR (kept D bad pts)) ==. (0 : XR)) = false := by rw [fzero, feq]; simpa using h
  rw [this]
  simp only [Bool.and_false, Bool.false_eq_true, if_false, ff32, fmul, fsub, fdiv h]
  rfl

theorem detR_dev (g : List (ℝ × ℝ)) (m : ℝ) (hm : (g.map (·.1)).sum = g.length * m) :
    detR g = g.length * (g.map (fun p => (p.1 - m) ^ 2)).sum := by
  have key : (g.map (fun p : ℝ × ℝ => (p.1 - m) ^ 2)).sum =
      (g.map (fun p => p.1 * p.1)).sum - 2 * m * (g.map (·.1)).sum + g.length * m ^ 2 := by
    clear hm
    induction g with
    | nil => simp
    | cons p g ih => simp only [List.map_cons, List.sum_cons, ih, List.length_cons]; push_cast; ring
  rw [key, hm, detR, hm]; ring

theorem sum_sq_eq_zero {β : Type} (g : List β) (f : β → ℝ) (h : (g.map (fun p => (f p) ^ 2)).sum ≤ 0) : ∀ p ∈ g, f p = 0 := by
  induction g with
  | nil => simp
  | cons p g ih =>
    have hn : ∀ g : List β, 0 ≤ (g.map (fun p => (f p) ^ 2)).sum := by
      intro g
      induction g with
      | nil => simp
      | cons p g ih => simp only [List.map_cons, List.sum_cons]; positivity
    simp only [List.map_cons, List.sum_cons] at h
    have h1 := hn g
    have h2 := sq_nonneg (f p)
    intro q hq
    rcases List.mem_cons.mp hq with rfl | hq
    · have : f q ^ 2 = 0 := by linarith
      simpa using this
    · exact ih (by linarith) q hq

theorem detR_ne_zero_iff (g : List (ℝ × ℝ)) : detR g ≠ 0 ↔ TwoAbscissae g := by
  rcases List.eq_nil_or_concat g with rfl | hg
  · simp [detR, TwoAbscissae]
  have hne : g ≠ [] := by obtain ⟨l, a, rfl⟩ := hg; simp
  have hpos : 0 < g.length := List.length_pos_iff.mpr hne
  have hn : (g.length : ℝ) ≠ 0 := by positivity
  have hd := detR_dev g ((g.map (·.1)).sum / g.length) (by field_simp)
  constructor
  · intro h
    by_contra hc
    apply h
    unfold TwoAbscissae at hc
    push Not at hc
    obtain ⟨p, hp⟩ := List.exists_mem_of_ne_nil g hne
    have : ∀ q ∈ g, q.1 = p.1 := fun q hq => hc q hq p hp
    have hs : (g.map (·.1)).sum = g.length * p.1 := by
      rw [List.map_congr_left this]; simp
    rw [detR_dev g p.1 hs]
    have : (g.map (fun q => (q.1 - p.1) ^ 2)) = g.map (fun _ => (0 : ℝ)) :=
      List.map_congr_left fun q hq => by rw [this q hq]; simp
    rw [this]; simp
  · rintro ⟨p, hp, q, hq, hpq⟩ h
    rw [hd] at h
    have h0 : (g.map (fun p => (p.1 - (g.map (·.1)).sum / g.length) ^ 2)).sum = 0 := by
      rcases mul_eq_zero.mp h with h | h
      · exact absurd h hn
      · exact h
    have := sum_sq_eq_zero g (fun p => p.1 - (g.map (·.1)).sum / g.length) h0.le
    have a := this p hp
    have b := this q hq
    exact hpq (by linarith)

theorem sse_expand (g : List (ℝ × ℝ)) (a b : ℝ) :
    sse g a b = (g.map (fun p => p.2 ^ 2)).sum - 2 * a * (g.map (fun p => p.1 * p.2)).sum - 2 * b * (g.map (·.2)).sum +
      a ^ 2 * (g.map (fun p => p.1 * p.1)).sum + 2 * a * b * (g.map (·.1)).sum + g.length * b ^ 2 := by
  unfold sse
  induction g with
  | nil => simp
  | cons p g ih => simp only [List.map_cons, List.sum_cons, ih, List.length_cons]; push_cast; ring

theorem line_expand (g : List (ℝ × ℝ)) (a b : ℝ) :
    (g.map (fun p => (a * p.1 + b) ^ 2)).sum = a ^ 2 * (g.map (fun p => p.1 * p.1)).sum + 2 * a * b * (g.map (·.1)).sum +
      g.length * b ^ 2 := by
  induction g with
  | nil => simp
  | cons p g ih => simp only [List.map_cons, List.sum_cons, ih, List.length_cons]; push_cast; ring

theorem normal_eqs (g : List (ℝ × ℝ)) (h : detR g ≠ 0) :
    slopeR g * (g.map (fun p => p.1 * p.1)).sum + interR g * (g.map (·.1)).sum = (g.map (fun p => p.1 * p.2)).sum ∧
    slopeR g * (g.map (·.1)).sum + interR g * g.length = (g.map (·.2)).sum := by
  unfold slopeR interR
  constructor
  · rw [div_mul_eq_mul_div, div_mul_eq_mul_div, ← add_div, div_eq_iff h]; unfold detR; ring
  · rw [div_mul_eq_mul_div, div_mul_eq_mul_div, ← add_div, div_eq_iff h]; unfold detR; ring

theorem sse_diff (g : List (ℝ × ℝ)) (h : detR g ≠ 0) (a b : ℝ) :
    sse g a b = sse g (slopeR g) (interR g) + (g.map (fun p => ((a - slopeR g) * p.1 + (b - interR g)) ^ 2)).sum := by
  obtain ⟨e1, e2⟩ := normal_eqs g h
  rw [line_expand, sse_expand, sse_expand, ← e1, ← e2]
  ring

theorem least_squares (g : List (ℝ × ℝ)) (h : TwoAbscissae g) : IsLeastSquares g (slopeR g) (interR g) := by
  have hd := (detR_ne_zero_iff g).mpr h
  intro a b
  have e := sse_diff g hd a b
  have hn : 0 ≤ (g.map (fun p => ((a - slopeR g) * p.1 + (b - interR g)) ^ 2)).sum := by
    generalize a - slopeR g = u
    generalize b - interR g = v
    clear e hd h
    induction g with
    | nil => simp
    | cons p g ih => simp only [List.map_cons, List.sum_cons]; positivity
  refine ⟨by linarith, fun h2 => ?_⟩
  obtain ⟨p, hp, q, hq, hpq⟩ := h
  have h0 := sum_sq_eq_zero g (fun p => (a - slopeR g) * p.1 + (b - interR g)) (by linarith)
  have h1 := h0 p hp
  have h2 := h0 q hq
  have h3 : (a - slopeR g) * (p.1 - q.1) = 0 := by linarith
  have h4 : a - slopeR g = 0 := by
    rcases mul_eq_zero.mp h3 with h | h
    · exact h
    · exact absurd (by linarith) hpq
  rw [h4] at h1
  constructor <;> linarith

theorem slope_of_line (g : List (ℝ × ℝ)) (h : TwoAbscissae g) (a b : ℝ) (hl : ∀ p ∈ g, p.2 = a * p.1 + b) :
    slopeR g = a ∧ interR g = b := by
  have h0 : sse g a b = 0 := by
    unfold sse
    rw [List.map_congr_left (g := fun _ => (0 : ℝ)) (fun p hp => by rw [hl p hp]; simp)]
    simp
  have hn : 0 ≤ sse g (slopeR g) (interR g) := by
    unfold sse
    generalize slopeR g = u
    generalize interR g = v
    clear h hl h0
    induction g with
    | nil => simp
    | cons p g ih => simp only [List.map_cons, List.sum_cons]; positivity
  have := least_squares g h a b
  have := this.2 (by linarith [this.1])
  exact ⟨this.1.symm, this.2.symm⟩

end Csu.Kdp
