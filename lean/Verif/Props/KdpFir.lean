import Verif.Lemmas.KdpFir
import Verif.Lemmas.KdpNum
import Verif.Props.KdpSafe
/-! # C11: where filtered phase is defined, and what it is -/
namespace Csu.Kdp
open Csu PyFloat KdpSpec
variable {α : Type} [PyFloat α]

/-- **C11**, first half, any arithmetic, both kernels: with zero passes the phase is returned unchanged. -/
theorem C11_no_passes (D : Dialect α) (chk : Bool) (R : Ray α) (hnf : R.nf = 0) (out : RayOut α)
    (e : calcKdpRayFir D chk R = .ok out) (i : Nat) (hi : i < R.n) : out.dp[i]? = some (R.dp.mem i) := by
  obtain ⟨yz, r⟩ := calc_run e
  have h1 : i < out.dp.length := by rw [r.dpLen]; exact hi
  have hp := r.passes
  rw [hnf] at hp
  cases hp
  rw [List.getElem?_eq_getElem h1, r.dp i h1, ofList_map_gates _ _ (by omega) (by omega)]

/-- **C11**, second half, any arithmetic, both kernels: with at least one pass the filtered phase is `bad` within half a
filter window of either end, and wherever the standard deviation is not at most the threshold (in particular when
either is NaN). -/
theorem C11_bad_outside (D : Dialect α) (chk : Bool) (R : Ray α) (hnf : 0 < R.nf) (out : RayOut α)
    (e : calcKdpRayFir D chk R = .ok out) (i : Nat) (hi : i < R.n)
    (hb : i < R.order / 2 ∨ R.n ≤ i + R.order / 2 ∨ ∀ s, out.sd[i]? = some s → (s <=. R.thsd.mem i) = false) :
    out.dp[i]? = some R.bad := by
  obtain ⟨yz, r⟩ := calc_run e
  have h1 : i < out.dp.length := by rw [r.dpLen]; exact hi
  have h2 : i < out.sd.length := by rw [r.sdLen]; exact hi
  rw [List.getElem?_eq_getElem h1, r.dp i h1]
  rw [firPasses_y hnf r.passes (j := i) ?_]
  · rw [ofList_get _ _ _ (by simpa using hi)]; simp
  · rcases hb with hb | hb | hb
    · left; unfold Ray.half; omega
    · right; left; unfold Ray.half; omega
    · right; right
      rw [ofList_get _ _ _ h2]
      exact hb _ (List.getElem?_eq_getElem h2)

/-- the two cases occur: gate 0 of the three-gate ray is within half a window of the end -/
example : ∃ out, calcKdpRayFir fortran true (tiny 0) = .ok out ∧ out.dp[0]? = some (QF.q (-32768)) ∧ out.dp[1]? = some 1 :=
  ⟨⟨[QF.q (-32768), QF.nan, QF.q (-32768)], [QF.q (-32768), 1, QF.q (-32768)], [0, 0, 0]⟩, by decide +kernel⟩

/-- **What one pass of the filter computes** (any coefficients, infinities and NaN included, both kernels): at a gate whose
whole window is good, the sum of coefficient times phase, times the gain. -/
theorem C11_filter_sum (D : Dialect XR) (chk : Bool) (R : Ray XR) (hnf : R.nf = 1) (he : R.order % 2 = 0) (out : RayOut XR)
    (e : calcKdpRayFir D chk R = .ok out) (i : Nat) (h0 : R.order / 2 ≤ i) (h1 : i + R.order / 2 < R.n)
    (hw : ∀ j : Nat, i ≤ j + R.order / 2 → j ≤ i + R.order / 2 →
      (∃ s, out.sd[j]? = some s ∧ (s <=. R.thsd.mem j) = true) ∧ (R.dp.mem j !=. R.bad) = true) :
    out.dp[i]? = some ((List.range (R.order + 1)).foldl
      (fun A (k : Nat) => A + R.coef.mem ((k : Int) + D.coefOff) * R.dp.mem ((i : Int) - (R.order / 2 : Nat) + (k : Int))) 0.0
        * R.gain) := by
  obtain ⟨yz, r⟩ := calc_run e
  have hlt : i < out.dp.length := by rw [r.dpLen]; omega
  rw [List.getElem?_eq_getElem hlt, r.dp i hlt]
  have hp := r.passes
  rw [hnf] at hp
  unfold firPasses at hp
  obtain ⟨v, hv, hp⟩ := bind_ok hp
  cases hp
  have hh : (R.half : Int) = ((R.order / 2 : Nat) : Int) := rfl
  have hz : ∀ j : Int, 0 ≤ j → j < R.n → (ofList R.n ((gates R.n).map R.dp.mem)).mem j = R.dp.mem j :=
    fun j a b => ofList_map_gates _ _ a b
  rw [firPass_good hv (i := i) (by omega) (by omega) he (by
      simp only [wx, XR.fofNat, XR.fsci, XR.fmul, XR.fgt]; norm_num; push_cast; linarith [Nat.cast_nonneg (α := ℝ) R.order])
    (fun j a b => ?_)]
  · simp only [wx, XR.ff32]
    congr 2
    rw [hh]
    unfold rangeI
    rw [show (((i : Int) + (R.order / 2 : Nat) + 1) - ((i : Int) - (R.order / 2 : Nat))).toNat = R.order + 1 by omega,
      List.foldl_map]
    have key : ∀ (l : List Nat) (s : XR), (∀ k ∈ l, k < R.order + 1) → l.foldl (fun A (k : Nat) =>
        A + R.coef.mem ((i : Int) - (R.order / 2 : Nat) + Int.ofNat k - ((i : Int) - (R.order / 2 : Nat)) + D.coefOff) *
          (ofList R.n ((gates R.n).map R.dp.mem)).mem ((i : Int) - (R.order / 2 : Nat) + Int.ofNat k)) s =
        l.foldl (fun A (k : Nat) => A + R.coef.mem ((k : Int) + D.coefOff) *
          R.dp.mem ((i : Int) - (R.order / 2 : Nat) + (k : Int))) s := by
      intro l
      induction l with
      | nil => intro s _; rfl
      | cons k l ih =>
        intro s hs
        have hk := hs k (by simp)
        rw [List.foldl_cons, List.foldl_cons, ih _ fun j hj => hs j (by simp [hj]),
          hz _ (by simp only [Int.ofNat_eq_natCast]; omega) (by simp only [Int.ofNat_eq_natCast]; omega)]
        congr 5
        simp only [Int.ofNat_eq_natCast]; omega
    exact key _ _ fun k hk => List.mem_range.mp hk
  · rw [hh] at a b
    obtain ⟨m, rfl⟩ : ∃ m : Nat, j = m := ⟨j.toNat, by omega⟩
    obtain ⟨⟨s, hs, hle⟩, hbad⟩ := hw m (by omega) (by omega)
    have hm : m < out.sd.length := by rw [r.sdLen]; omega
    rw [List.getElem?_eq_getElem hm] at hs
    rw [ofList_get _ _ _ hm, Option.some.inj hs, hz m (by omega) (by omega)]
    exact ⟨hle, hbad⟩

theorem foldl_fin {β : Type} (l : List β) (f : β → ℝ) (s : ℝ) :
    l.foldl (fun (A : XR) k => A + XR.fin (f k)) (XR.fin s) = .fin (s + (l.map f).sum) := by
  induction l generalizing s with
  | nil => simp
  | cons x l ih => simp [ih, add_assoc]

/-- the coefficient-weighted sum on finite data -/
theorem fir_fin (n : Nat) (c z : Nat → ℝ) :
    (List.range n).foldl (fun (A : XR) (k : Nat) => A + .fin (c k) * .fin (z k)) 0.0 =
      .fin (∑ k ∈ Finset.range n, c k * z k) := by
  have h00 : (0.0 : XR) = .fin 0 := by rw [XR.fsci]; norm_num
  simp only [XR.fmul]
  rw [h00, foldl_fin (List.range n) (fun k => c k * z k) 0, zero_add]
  rfl

/-- The Fortran filter preserves a linear phase: coefficients that are symmetric and sum to one, gain one. -/
theorem C11_linear_phase_fortran (chk : Bool) (R : Ray XR) (hnf : R.nf = 1) (he : R.order % 2 = 0) (hg : R.gain = .fin 1)
    (out : RayOut XR) (e : calcKdpRayFir fortran chk R = .ok out) (i : Nat) (h0 : R.order / 2 ≤ i) (h1 : i + R.order / 2 < R.n)
    (hw : ∀ j : Nat, i ≤ j + R.order / 2 → j ≤ i + R.order / 2 →
      (∃ s, out.sd[j]? = some s ∧ (s <=. R.thsd.mem j) = true) ∧ (R.dp.mem j !=. R.bad) = true)
    (c : Nat → ℝ) (hc : ∀ k : Nat, k ≤ R.order → R.coef.mem k = .fin (c k)) (hsym : ∀ k ≤ R.order, c k = c (R.order - k))
    (hsum : ∑ k ∈ Finset.range (R.order + 1), c k = 1)
    (p q : ℝ) (hz : ∀ j : Nat, i ≤ j + R.order / 2 → j ≤ i + R.order / 2 → R.dp.mem j = .fin (p + q * j)) :
    out.dp[i]? = some (.fin (p + q * i)) := by
  rw [C11_filter_sum fortran chk R hnf he out e i h0 h1 hw]
  have hfold : ∀ (l : List Nat) (s : XR), (∀ k ∈ l, k < R.order + 1) → l.foldl (fun A (k : Nat) =>
      A + R.coef.mem ((k : Int) + (fortran : Dialect XR).coefOff) * R.dp.mem ((i : Int) - (R.order / 2 : Nat) + (k : Int))) s =
      l.foldl (fun (A : XR) (k : Nat) => A + .fin (c k) * .fin (p + q * ((i : ℝ) - (R.order / 2 : Nat) + k))) s := by
    intro l
    induction l with
    | nil => intro s _; rfl
    | cons k l ih =>
      intro s hs
      have hk := hs k (by simp)
      have h2 : ((i : Int) - (R.order / 2 : Nat) + (k : Int)) = ((i - R.order / 2 + k : Nat) : Int) := by omega
      have h3 : ((i - R.order / 2 + k : Nat) : ℝ) = (i : ℝ) - (R.order / 2 : Nat) + k := by
        push_cast [Nat.cast_sub h0]; ring
      rw [List.foldl_cons, List.foldl_cons, ih _ fun j hj => hs j (by simp [hj]), h2,
        hz _ (by omega) (by omega), h3, show (k : Int) + (fortran : Dialect XR).coefOff = (k : Int) from by simp [fortran],
        hc k (by omega)]
  rw [hfold _ _ fun k hk => List.mem_range.mp hk, fir_fin, hg, XR.fmul, mul_one]
  congr 2
  -- Σ c_k (k - half) = 0 by symmetry
  have hodd : ∑ k ∈ Finset.range (R.order + 1), c k * ((k : ℝ) - (R.order / 2 : Nat)) = 0 := by
    have hr := Finset.sum_range_reflect (fun k => c k * ((k : ℝ) - (R.order / 2 : Nat))) (R.order + 1)
    have h4 : ∑ k ∈ Finset.range (R.order + 1), c (R.order + 1 - 1 - k) * (((R.order + 1 - 1 - k : Nat) : ℝ) - (R.order / 2 : Nat)) =
        ∑ k ∈ Finset.range (R.order + 1), -(c k * ((k : ℝ) - (R.order / 2 : Nat))) := by
      apply Finset.sum_congr rfl
      intro k hk
      have hk : k ≤ R.order := by have := Finset.mem_range.mp hk; omega
      rw [Nat.add_sub_cancel, ← hsym k hk, Nat.cast_sub hk]
      have : (R.order : ℝ) = 2 * (R.order / 2 : Nat) := by
        have : R.order = 2 * (R.order / 2) := by omega
        exact_mod_cast this
      rw [this]; ring
    rw [h4, Finset.sum_neg_distrib] at hr
    linarith
  have : ∑ k ∈ Finset.range (R.order + 1), c k * (p + q * ((i : ℝ) - (R.order / 2 : Nat) + k)) =
      (p + q * i) * ∑ k ∈ Finset.range (R.order + 1), c k +
        q * ∑ k ∈ Finset.range (R.order + 1), c k * ((k : ℝ) - (R.order / 2 : Nat)) := by
    rw [Finset.mul_sum, Finset.mul_sum, ← Finset.sum_add_distrib]
    apply Finset.sum_congr rfl
    intro k _
    ring
  rw [this, hsum, hodd]; ring

/-- The Cython filter does not: on a constant phase `p` it returns `(1 - c₀ + g) p`, where `c₀` is the first coefficient,
which it never uses, and `g` is what follows the coefficients in memory. -/
theorem C11_constant_phase_cython (R : Ray XR) (hnf : R.nf = 1) (he : R.order % 2 = 0) (hg : R.gain = .fin 1)
    (out : RayOut XR) (e : calcKdpRayFir cython false R = .ok out) (i : Nat) (h0 : R.order / 2 ≤ i) (h1 : i + R.order / 2 < R.n)
    (hw : ∀ j : Nat, i ≤ j + R.order / 2 → j ≤ i + R.order / 2 →
      (∃ s, out.sd[j]? = some s ∧ (s <=. R.thsd.mem j) = true) ∧ (R.dp.mem j !=. R.bad) = true)
    (c : Nat → ℝ) (hc : ∀ k : Nat, k ≤ R.order → R.coef.mem k = .fin (c k)) (g : ℝ)
    (hgarb : R.coef.mem ((R.order : Int) + 1) = .fin g) (hsum : ∑ k ∈ Finset.range (R.order + 1), c k = 1)
    (p : ℝ) (hz : ∀ j : Nat, i ≤ j + R.order / 2 → j ≤ i + R.order / 2 → R.dp.mem j = .fin p) :
    out.dp[i]? = some (.fin ((1 - c 0 + g) * p)) := by
  rw [C11_filter_sum cython false R hnf he out e i h0 h1 hw]
  set d : Nat → ℝ := fun k => if k < R.order + 1 then c k else g with hd
  have hfold : ∀ (l : List Nat) (s : XR), (∀ k ∈ l, k < R.order + 1) → l.foldl (fun A (k : Nat) =>
      A + R.coef.mem ((k : Int) + (cython : Dialect XR).coefOff) * R.dp.mem ((i : Int) - (R.order / 2 : Nat) + (k : Int))) s =
      l.foldl (fun (A : XR) (k : Nat) => A + .fin (d (k + 1)) * .fin p) s := by
    intro l
    induction l with
    | nil => intro s _; rfl
    | cons k l ih =>
      intro s hs
      have hk := hs k (by simp)
      have h2 : ((i : Int) - (R.order / 2 : Nat) + (k : Int)) = ((i - R.order / 2 + k : Nat) : Int) := by omega
      have h3 : R.coef.mem ((k : Int) + (cython : Dialect XR).coefOff) = .fin (d (k + 1)) := by
        show R.coef.mem ((k : Int) + 1) = _
        by_cases h : k + 1 < R.order + 1
        · rw [hd]; simp only [h, if_true]
          rw [← hc (k + 1) (by omega)]; rfl
        · have : k = R.order := by omega
          subst this
          rw [hd, hgarb]; simp
      rw [List.foldl_cons, List.foldl_cons, ih _ fun j hj => hs j (by simp [hj]), h2,
        hz _ (by omega) (by omega), h3]
  rw [hfold _ _ fun k hk => List.mem_range.mp hk, fir_fin (R.order + 1) (fun k => d (k + 1)) (fun _ => p), hg, XR.fmul, mul_one,
    ← Finset.sum_mul]
  congr 3
  have e1 : ∑ k ∈ Finset.range (R.order + 2), d k = 1 + g := by
    rw [Finset.sum_range_succ]
    congr 1
    · rw [← hsum]
      apply Finset.sum_congr rfl
      intro k hk
      have := Finset.mem_range.mp hk
      rw [hd]; simp [this]
    · rw [hd]; simp
  rw [Finset.sum_range_succ' d (R.order + 1)] at e1
  have : d 0 = c 0 := by rw [hd]; simp
  rw [this] at e1
  linarith

end Csu.Kdp
