import Verif.Lemmas.KdpLine
import Verif.Props.KdpApi
/-! # C88-C90: differential phase that is linear in range, from the ray to KDP -/
namespace Csu.Kdp
open Csu PyFloat KdpSpec

theorem step_id (L : Line) (S : Spacing) : L.step S 1 0 = L := by
  cases L; simp [Line.step]

/-- any number of passes of a filter with unit sum and zero first moment -/
theorem firPasses_line {D : Dialect XR} {R : Ray XR} {S : Spacing} {d : Nat → ℝ} (h : FirData D R S d 1 0) {L : Line}
    (hs : NoSkip D R S L) {chk : Bool} {sd : Buf XR} (nf : Nat) {yz r : Buf XR × Buf XR} (hy : OnLine R S L yz.1)
    (hz : OnLine R S L yz.2) (e : firPasses D chk R sd nf yz = .ok r) : OnLine R S L r.2 := by
  induction nf generalizing yz with
  | zero => cases e; exact hz
  | succ k ih =>
    unfold firPasses at e
    obtain ⟨w, hw, e⟩ := bind_ok e
    have hp := firPass_line h hs hz hw (L' := L) (step_id L S).symm
    have h1 : OnLine R S L w.1 := by
      intro j j0 j1
      rcases hp.2 j j0 j1 with h2 | h2
      · exact .inl h2
      · rw [h2]; exact hy j j0 j1
    exact ih h1 (hp.1 ▸ h1) e

/-- KDP at a gate of width at least 2 with enough good samples, when the filtered phase is on a line or bad -/
theorem kd_line_good {D : Dialect XR} (hD : D = cython ∨ D = fortran) {chk : Bool} {R : Ray XR} {out : RayOut XR}
    (e : calcKdpRayFir D chk R = .ok out) {S : Spacing} {L : Line} (hbad : ∃ β : ℝ, R.bad = .fin β) (hs : S.s ≠ 0)
    (hrng : ∀ j : Int, 0 ≤ j → j < R.n → R.rng.mem j = .fin (S.at j) ∧ D.skip R.bad (.fin (S.at j)) = false)
    (hns : NoSkip D R S L)
    (hdp : ∀ j : Nat, j < R.n → out.dp.getD j .nan = .fin (L.at S j) ∨ out.dp.getD j .nan = R.bad) (i : Nat) (hi : i < R.n)
    (w : Nat) (hw : Width R (R.dz.mem i) w) (hw2 : 2 ≤ w) (hb : ¬ (R.dz.mem i ==. R.bad) = true) (hf : w / 2 ≤ i ∧ i + w / 2 < R.n)
    (hc : ¬ ((goodSamples R out (i - w / 2) (winLen D w)).length : ℝ) ≤ 0.8 * w) :
    out.kd[i]? = some (.fin (L.a / 2)) := by
  have hwl : winLen D w ≤ 2 * (w / 2) + 1 := by
    unfold winLen; rcases hD with rfl | rfl <;> simp [cython, fortran]
  set lo := i - w / 2 with hlo
  set ks := (List.range (winLen D w)).filter (fun k => (out.dp.getD (lo + k) .nan) !=. R.bad) with hks
  have hk : ∀ k ∈ ks, lo + k < R.n ∧ out.dp.getD (lo + k) .nan = .fin (L.at S (lo + k : Nat)) ∧
      XR.fin (L.at S (lo + k : Nat)) ≠ R.bad := by
    intro k hk
    have h1 := List.mem_filter.mp hk
    have h2 := List.mem_range.mp h1.1
    have h3 : lo + k < R.n := by omega
    have h4 := (ne_bad_iff hbad _).mp h1.2
    rcases hdp _ h3 with h5 | h5
    · exact ⟨h3, h5, h5 ▸ h4⟩
    · exact absurd h5 h4
  have hgs : goodSamples R out lo (winLen D w) = (ks.map (fun k => (S.at (lo + k : Nat), L.at S (lo + k : Nat)))).map lift := by
    unfold goodSamples
    rw [List.map_map]
    apply List.map_congr_left
    intro k hk'
    have h1 := hk k hk'
    simp only [Function.comp, lift, h1.2.1, (hrng ((lo + k : Nat) : Int) (by omega) (by omega)).1]
  have hlen : 0.8 * (w : ℝ) < ((ks.map (fun k => (S.at (lo + k : Nat), L.at S (lo + k : Nat)))).length : ℝ) := by
    have : (goodSamples R out lo (winLen D w)).length = (ks.map (fun k => (S.at (lo + k : Nat), L.at S (lo + k : Nat)))).length := by
      rw [hgs]; simp
    rw [← this]; linarith
  have htwo : TwoAbscissae (ks.map (fun k => (S.at (lo + k : Nat), L.at S (lo + k : Nat)))) := by
    have hnd : ks.Nodup := List.nodup_range.filter _
    have hl : 2 ≤ ks.length := by
      rw [List.length_map] at hlen
      have hwr : (2 : ℝ) ≤ w := by exact_mod_cast hw2
      by_contra hc'
      have : ks.length ≤ 1 := by omega
      have : (ks.length : ℝ) ≤ 1 := by exact_mod_cast this
      norm_num at hlen; linarith
    obtain ⟨a, b, l, hab⟩ : ∃ a b l, ks = a :: b :: l := by
      match hm : ks, hl with
      | a :: b :: l, _ => exact ⟨a, b, l, rfl⟩
    rw [hab] at hnd ⊢
    have hne : a ≠ b := by
      have := List.nodup_cons.mp hnd
      intro hc'; apply this.1; simp [hc']
    refine ⟨_, List.mem_map.mpr ⟨a, by simp, rfl⟩, _, List.mem_map.mpr ⟨b, by simp, rfl⟩, ?_⟩
    intro hc'
    have : S.s * (((lo + a : Nat) : Int) : ℝ) = S.s * ((lo + b : Nat) : Int) := by simpa [Spacing.at] using hc'
    have := mul_left_cancel₀ hs this
    push_cast at this
    exact hne (by exact_mod_cast (add_left_cancel this))
  have := C12_linear_phase D hD chk R out e i hi (by simpa using hb) w hw hf.1 hf.2 _ hgs hlen ?_ htwo (L.a / 2) L.b ?_
  · exact this
  · intro p hp'
    obtain ⟨k, hk', rfl⟩ := List.mem_map.mp hp'
    have h1 := hk k hk'
    exact ⟨(hrng _ (by omega) (by omega)).2, hns _ (by omega) (by omega) h1.2.2⟩
  · intro p hp'
    obtain ⟨k, hk', rfl⟩ := List.mem_map.mp hp'
    simp only [Line.at]; ring

/-- KDP at a gate of width at least 2 when the filtered phase is on a line or bad -/
theorem kd_of_line {D : Dialect XR} (hD : D = cython ∨ D = fortran) {chk : Bool} {R : Ray XR} {out : RayOut XR}
    (e : calcKdpRayFir D chk R = .ok out) {S : Spacing} {L : Line} (hbad : ∃ β : ℝ, R.bad = .fin β) (hs : S.s ≠ 0)
    (hrng : ∀ j : Int, 0 ≤ j → j < R.n → R.rng.mem j = .fin (S.at j) ∧ D.skip R.bad (.fin (S.at j)) = false)
    (hns : NoSkip D R S L)
    (hdp : ∀ j : Nat, j < R.n → out.dp.getD j .nan = .fin (L.at S j) ∨ out.dp.getD j .nan = R.bad) (i : Nat) (hi : i < R.n)
    (w : Nat) (hw : Width R (R.dz.mem i) w) (hw2 : 2 ≤ w) :
    out.kd[i]? = some (.fin (L.a / 2)) ∨ out.kd[i]? = some R.bad := by
  by_cases hb : (R.dz.mem i ==. R.bad) = true
  · exact .inr (C12_bad_reflectivity D chk R out e i hi hb)
  have hp := C12_window_slope D hD chk R out e i hi (by simpa using hb) w hw
  by_cases hf : i < w / 2 ∨ R.n ≤ i + w / 2
  · exact .inr (hp.1 hf)
  push Not at hf
  by_cases hc : ((goodSamples R out (i - w / 2) (winLen D w)).length : ℝ) ≤ 0.8 * w
  · exact .inr ((hp.2 hf.1 hf.2).1 hc)
  exact .inl (kd_line_good hD e hbad hs hrng hns hdp i hi w hw hw2 hb hf hc)

/-- the first moment of a symmetric filter about its centre is zero -/
theorem moment_zero (n : Nat) (hn : n % 2 = 0) (c : Nat → ℝ) (hsym : ∀ k ≤ n, c k = c (n - k)) :
    ∑ k ∈ Finset.range (n + 1), c k * ((k : ℝ) - (n / 2 : Nat)) = 0 := by
  have h1 : ∑ k ∈ Finset.range (n + 1), c k * ((k : ℝ) - (n / 2 : Nat)) =
      ∑ k ∈ Finset.range (n + 1), -(c k * ((k : ℝ) - (n / 2 : Nat))) := by
    conv_lhs => rw [← Finset.sum_range_reflect]
    apply Finset.sum_congr rfl
    intro k hk
    have hk : k ≤ n := by have := Finset.mem_range.mp hk; omega
    rw [show n + 1 - 1 - k = n - k by omega, ← hsym k hk, Nat.cast_sub hk]
    have : ((n / 2 : Nat) : ℝ) = n / 2 := by
      obtain ⟨m, rfl⟩ : ∃ m, n = 2 * m := ⟨n / 2, by omega⟩
      rw [Nat.mul_div_cancel_left _ (by norm_num)]; push_cast; ring
    rw [this]; ring
  rw [Finset.sum_neg_distrib] at h1
  linarith

theorem fortran_skip {x : ℝ} (h : x ≤ 1e35) (bad : XR) : (fortran (α := XR)).skip bad (.fin x) = false := by
  show (XR.fin x >. (1e35 : XR)) = false
  rw [XR.fsci, XR.fgt]
  simp only [decide_eq_false_iff_not, not_lt]
  refine h.trans (le_of_eq ?_)
  norm_num

/-- **C88.** The Fortran kernel, any number of passes, any gaps: if every gate of the ray is bad or on one straight line
in range (range in equal steps, filter symmetric with unit sum), then every gate of the filtered phase is bad or on the
same line, and every KDP with a window of width at least 2 is bad or exactly half the slope of the line. -/
theorem C88_linear_ray_fortran (chk : Bool) (R : Ray XR) (out : RayOut XR) (e : calcKdpRayFir fortran chk R = .ok out)
    (he : R.order % 2 = 0) (hg : R.gain = .fin 1) (β : ℝ) (hbad : R.bad = .fin β)
    (c : Nat → ℝ) (hc : ∀ k : Nat, k ≤ R.order → R.coef.mem k = .fin (c k)) (hsym : ∀ k ≤ R.order, c k = c (R.order - k))
    (hsum : ∑ k ∈ Finset.range (R.order + 1), c k = 1)
    (r0 s : ℝ) (hs : s ≠ 0) (hrng : ∀ j : Nat, j < R.n → R.rng.mem j = .fin (r0 + s * j) ∧ r0 + s * j ≤ 1e35)
    (a b : ℝ) (hle : ∀ j : Nat, j < R.n → a * (r0 + s * j) + b ≤ 1e35)
    (hdp : ∀ j : Nat, j < R.n → R.dp.mem j = .fin (a * (r0 + s * j) + b) ∨ R.dp.mem j = R.bad) (i : Nat) (hi : i < R.n) :
    (out.dp[i]? = some (.fin (a * (r0 + s * i) + b)) ∨ out.dp[i]? = some R.bad) ∧
    ∀ w, Width R (R.dz.mem i) w → 2 ≤ w → out.kd[i]? = some (.fin (a / 2)) ∨ out.kd[i]? = some R.bad := by
  set S : Spacing := ⟨r0, s⟩
  set L : Line := ⟨a, b⟩
  have hat : ∀ j : Nat, S.at j = r0 + s * j := by intro j; simp [Spacing.at, S]
  have hrng' : ∀ j : Int, 0 ≤ j → j < R.n → R.rng.mem j = .fin (S.at j) ∧ (fortran (α := XR)).skip R.bad (.fin (S.at j)) = false := by
    intro j j0 j1
    obtain ⟨m, rfl⟩ : ∃ m : Nat, j = m := ⟨j.toNat, by omega⟩
    have := hrng m (by omega)
    rw [hat]
    exact ⟨this.1, fortran_skip this.2 _⟩
  have hLat : ∀ j : Nat, L.at S j = a * (r0 + s * j) + b := by intro j; simp only [Line.at, hat, L]
  have hF : FirData fortran R S c 1 0 :=
    ⟨he, hg, ⟨β, hbad⟩, hs, hrng', fun k hk => by simpa [fortran] using hc k hk, hsum, moment_zero _ he c hsym⟩
  have hN : NoSkip fortran R S L := by
    intro j j0 j1 _
    obtain ⟨m, rfl⟩ : ∃ m : Nat, j = m := ⟨j.toNat, by omega⟩
    rw [hLat]
    exact fortran_skip (hle m (by omega)) _
  obtain ⟨yz, r⟩ := calc_run e
  have hz : OnLine R S L (ofList R.n ((gates R.n).map R.dp.mem)) := by
    intro j j0 j1
    obtain ⟨m, rfl⟩ : ∃ m : Nat, j = m := ⟨j.toNat, by omega⟩
    have hm : m < ((gates R.n).map R.dp.mem).length := by simp [gates, length_rangeI]; omega
    rw [ofList_get _ _ m hm, hLat]
    have : ((gates R.n).map R.dp.mem)[m] = R.dp.mem m := by simp [gates, rangeI]
    rw [this]
    exact hdp m (by omega)
  have hy : OnLine R S L (ofList R.n (List.replicate R.n R.bad)) := by
    intro j j0 j1
    obtain ⟨m, rfl⟩ : ∃ m : Nat, j = m := ⟨j.toNat, by omega⟩
    right
    rw [ofList_get _ _ m (by simp; omega)]; simp
  have hout := firPasses_line hF hN R.nf hy hz r.passes
  have hdp' : ∀ j : Nat, j < R.n → ∃ v, out.dp[j]? = some v ∧ out.dp.getD j .nan = v ∧ (v = .fin (L.at S j) ∨ v = R.bad) := by
    intro j hj
    have h1 : j < out.dp.length := by rw [r.dpLen]; exact hj
    refine ⟨out.dp[j], List.getElem?_eq_getElem h1, ?_, ?_⟩
    · rw [List.getD_eq_getElem?_getD, List.getElem?_eq_getElem h1]; rfl
    · rw [r.dp j h1]; exact hout j (by omega) (by omega)
  constructor
  · obtain ⟨v, h1, -, h2⟩ := hdp' i hi
    rw [h1, ← hLat]
    rcases h2 with rfl | rfl
    · exact .inl rfl
    · exact .inr rfl
  · intro w hw hw2
    exact kd_of_line (.inr rfl) e ⟨β, hbad⟩ hs hrng' hN (fun j hj => by
      obtain ⟨v, -, h1, h2⟩ := hdp' j hj; rw [h1]; exact h2) i hi w hw hw2

/-! ## A clean ray -/

theorem sum_sq_centred (h : Nat) : ∑ k ∈ Finset.range (2 * h + 1), ((k : ℝ) - h) ^ 2 = (2 * h + 1) * (h * (h + 1) / 3) := by
  have key : ∀ n : Nat, ∀ x : ℝ, ∑ k ∈ Finset.range n, ((k : ℝ) - x) ^ 2 = n * (n - 1) * (2 * n - 1) / 6 - x * (n * (n - 1)) + n * x ^ 2 := by
    intro n x
    induction n with
    | zero => simp
    | succ n ih => rw [Finset.sum_range_succ, ih]; push_cast; ring
  rw [key]; push_cast; ring

theorem sum_centred (h : Nat) (p q : ℝ) : ∑ k ∈ Finset.range (2 * h + 1), (p + q * (k : ℝ)) = (2 * h + 1) * (p + q * h) := by
  have key : ∀ n : Nat, ∑ k ∈ Finset.range n, (p + q * (k : ℝ)) = n * p + q * (n * (n - 1) / 2) := by
    intro n
    induction n with
    | zero => simp
    | succ n ih => rw [Finset.sum_range_succ, ih]; push_cast; ring
  rw [key]; push_cast; ring

theorem list_sum_range (n : Nat) (f : Nat → ℝ) : ((List.range n).map f).sum = ∑ k ∈ Finset.range n, f k := rfl

/-- The population standard deviation of `2 h + 1` equally spaced values at distance `q` is `|q| √(h (h + 1) / 3)`. -/
theorem popStd_arith (h : Nat) (p q : ℝ) :
    popStd ((List.range (2 * h + 1)).map (fun (k : Nat) => p + q * (k : ℝ))) = |q| * √((h : ℝ) * (h + 1) / 3) := by
  unfold popStd
  rw [List.map_map, List.length_map, List.length_range, list_sum_range, list_sum_range, sum_centred]
  have hn : ((2 * h + 1 : Nat) : ℝ) = 2 * h + 1 := by push_cast; ring
  have hne : (2 * (h : ℝ) + 1) ≠ 0 := by positivity
  rw [hn]
  have : ∀ k : Nat, ((fun x => (x - (2 * (h : ℝ) + 1) * (p + q * h) / (2 * h + 1)) ^ 2) ∘ fun (k : Nat) => p + q * (k : ℝ)) k =
      q ^ 2 * ((k : ℝ) - h) ^ 2 := by
    intro k
    simp only [Function.comp]
    rw [mul_div_cancel_left₀ _ hne]; ring
  simp only [this]
  rw [← Finset.mul_sum, sum_sq_centred, mul_left_comm, mul_div_cancel_left₀ _ hne, Real.sqrt_mul (sq_nonneg q), Real.sqrt_sq_eq_abs]

/-- A ray all of whose phases are good and on a line, whose roughness `|a s| √(h (h+1)/3)` is within the thresholds. -/
structure CleanRay (R : Ray XR) (S : Spacing) (L : Line) (h : Nat) : Prop where
  std : R.stdGate = 2 * h + 1
  dp : ∀ j : Nat, j < R.n → R.dp.mem j = .fin (L.at S j) ∧ XR.fin (L.at S j) ≠ R.bad
  thsd : ∀ j : Nat, j < R.n → ∃ t : ℝ, R.thsd.mem j = .fin t ∧ |L.a * S.s| * √((h : ℝ) * (h + 1) / 3) ≤ t

theorem clean_sd {D : Dialect XR} {chk : Bool} {R : Ray XR} {out : RayOut XR} (e : calcKdpRayFir D chk R = .ok out)
    (hbad : ∃ β : ℝ, R.bad = .fin β) {S : Spacing} {L : Line} {h : Nat} (hc : CleanRay R S L h) (i : Nat) (h0 : h ≤ i) (h1 : i + h < R.n) :
    out.sd[i]? = some (.fin (|L.a * S.s| * √((h : ℝ) * (h + 1) / 3))) := by
  have hg : goodPhases R h i = ((List.range (2 * h + 1)).map (fun (k : Nat) => L.at S ((i : Int) - h) + (L.a * S.s) * (k : ℝ))).map .fin := by
    have hv : ∀ k < 2 * h + 1, R.dp.mem ((i : Int) - h + Int.ofNat k) = .fin (L.at S ((i : Int) - h) + (L.a * S.s) * (k : ℝ)) ∧
        XR.fin (L.at S ((i : Int) - h) + (L.a * S.s) * (k : ℝ)) ≠ R.bad := by
      intro k hk
      have h2 := hc.dp (i - h + k) (by omega)
      have h3 : ((i : Int) - h + Int.ofNat k) = ((i - h + k : Nat) : Int) := by simp only [Int.ofNat_eq_natCast]; omega
      have h4 : L.at S ((i : Int) - h) + (L.a * S.s) * (k : ℝ) = L.at S ((i - h + k : Nat) : Int) := by
        simp only [Line.at, Spacing.at]
        rw [Nat.cast_add, Nat.cast_sub h0]; push_cast; ring
      rw [h3, h4]; exact h2
    unfold goodPhases window
    rw [List.filter_eq_self.mpr, List.map_map, List.map_map]
    · apply List.map_congr_left
      intro k hk
      exact (hv k (List.mem_range.mp hk)).1
    · intro x hx
      rw [List.map_map] at hx
      obtain ⟨k, hk, rfl⟩ := List.mem_map.mp hx
      have := hv k (List.mem_range.mp hk)
      rw [ne_bad_iff hbad]
      simp only [Function.comp]
      rw [this.1]; exact this.2
  rw [(C09_population_std D chk R h hc.std out e i (by omega)).2.2 _ h0 h1 (by simp; omega) hg, popStd_arith]

/-- the passes on a clean ray, for a gate with a full margin; one pass, or a filter that keeps lines -/
theorem clean_dp {D : Dialect XR} {chk : Bool} {R : Ray XR} {out : RayOut XR} (e : calcKdpRayFir D chk R = .ok out)
    {S : Spacing} {d : Nat → ℝ} {m0 m1 : ℝ} (hF : FirData D R S d m0 m1) {L : Line} {h : Nat} (hc : CleanRay R S L h)
    (hN : NoSkip D R S L) (hnf : R.nf = 1 ∨ (1 ≤ R.nf ∧ m0 = 1 ∧ m1 = 0)) :
    (∀ j : Nat, j < R.n → out.dp.getD j .nan = .fin ((L.step S m0 m1).at S j) ∨ out.dp.getD j .nan = R.bad) ∧
    ∀ i : Nat, R.order / 2 + h ≤ i → i + R.order / 2 + h < R.n → out.dp.getD i .nan = .fin ((L.step S m0 m1).at S i) := by
  obtain ⟨yz, r⟩ := calc_run e
  have hz0 : ∀ j : Nat, j < R.n → (ofList R.n ((gates R.n).map R.dp.mem)).mem j = R.dp.mem j := by
    intro m hm
    have hm : m < ((gates R.n).map R.dp.mem).length := by simp [gates, length_rangeI]; omega
    rw [ofList_get _ _ m hm]; simp [gates, rangeI]
  have hz : OnLine R S L (ofList R.n ((gates R.n).map R.dp.mem)) := by
    intro j j0 j1
    obtain ⟨m, rfl⟩ : ∃ m : Nat, j = m := ⟨j.toNat, by omega⟩
    rw [hz0 m (by omega)]
    exact .inl (hc.dp m (by omega)).1
  have hy : ∀ j : Nat, j < R.n → (ofList R.n (List.replicate R.n R.bad)).mem j = R.bad := by
    intro m hm
    rw [ofList_get _ _ m (by simp; omega)]; simp
  have hget : ∀ j : Nat, j < R.n → out.dp.getD j .nan = yz.2.mem j := by
    intro j hj
    have h1 : j < out.dp.length := by rw [r.dpLen]; exact hj
    rw [List.getD_eq_getElem?_getD, List.getElem?_eq_getElem h1]; exact r.dp j h1
  obtain ⟨k, hk⟩ : ∃ k, R.nf = k + 1 := ⟨R.nf - 1, by omega⟩
  have hp := r.passes
  rw [hk] at hp
  unfold firPasses at hp
  obtain ⟨w, hw, hp⟩ := bind_ok hp
  have hl := firPass_line hF hN hz hw (L' := L.step S m0 m1) rfl
  -- first pass at a gate with margin
  have hfirst : ∀ i : Nat, R.order / 2 + h ≤ i → i + R.order / 2 + h < R.n → w.2.mem i = .fin ((L.step S m0 m1).at S i) := by
    intro i i0 i1
    have heven := hF.even
    have hhalf : (R.half : Int) = ((R.order / 2 : Nat) : Int) := rfl
    rw [firPass_good hw (i := (i : Int)) (by omega) (by omega) hF.even (by
      simp only [wx, XR.fofNat, XR.fsci, XR.fmul, XR.fgt, decide_eq_true_eq]
      push_cast
      have : (0 : ℝ) ≤ R.order := by positivity
      norm_num; linarith) (fun j j0 j1 => ?_)]
    simp only [wx, XR.ff32]
    rw [fold_line (L := L) hF (fun j hj => ?_), hF.gain]
    · simp
    · have := mem_rangeI.mp hj
      obtain ⟨m, rfl⟩ : ∃ m : Nat, j = m := ⟨j.toNat, by omega⟩
      rw [hz0 m (by omega)]
      exact (hc.dp m (by omega)).1
    · obtain ⟨m, rfl⟩ : ∃ m : Nat, j = m := ⟨j.toNat, by omega⟩
      have hm : m < R.n := by omega
      constructor
      · have h1 : m < out.sd.length := by rw [r.sdLen]; exact hm
        rw [ofList_get _ _ m h1]
        have h2 := clean_sd e hF.bad hc m (by omega) (by omega)
        rw [List.getElem?_eq_getElem h1] at h2
        rw [Option.some.inj h2]
        obtain ⟨t, ht, hle⟩ := hc.thsd m hm
        rw [ht, XR.fle]; simpa using hle
      · rw [hz0 m hm, (hc.dp m hm).1, ne_bad_iff hF.bad]; exact (hc.dp m hm).2
  have hw2 : ∀ j : Nat, j < R.n → w.2.mem j = .fin ((L.step S m0 m1).at S j) ∨ w.2.mem j = R.bad := by
    intro j hj
    rw [hl.1]
    rcases hl.2 j (by omega) (by omega) with h1 | h1
    · exact .inl h1
    · right; rw [h1]; exact hy j hj
  rcases hnf with h1 | ⟨-, rfl, rfl⟩
  · have : k = 0 := by omega
    subst this
    cases hp
    exact ⟨fun j hj => by rw [hget j hj]; exact hw2 j hj, fun i i0 i1 => by rw [hget i (by omega)]; exact hfirst i i0 i1⟩
  · -- further passes keep the line
    rw [step_id] at *
    have hkeep : ∀ (k : Nat) (u v : Buf XR × Buf XR), OnLine R S L u.1 → OnLine R S L u.2 → u.2 = u.1 → firPasses D chk R (ofList R.n out.sd) k u = .ok v →
        OnLine R S L v.2 ∧ ∀ i : Nat, i < R.n → u.2.mem i = .fin (L.at S i) → v.2.mem i = .fin (L.at S i) := by
      intro k
      induction k with
      | zero => intro u v _ h2 _ hv; cases hv; exact ⟨h2, fun _ _ h => h⟩
      | succ k ih =>
        intro u v h1 h2 h3 hv
        unfold firPasses at hv
        obtain ⟨x, hx, hv⟩ := bind_ok hv
        have hl' := firPass_line hF hN h2 hx (L' := L) (step_id L S).symm
        have h4 : OnLine R S L x.1 := by
          intro j j0 j1
          rcases hl'.2 j j0 j1 with h5 | h5
          · exact .inl h5
          · rw [h5]; exact h1 j j0 j1
        have h6 := ih x v h4 (hl'.1 ▸ h4) hl'.1 hv
        refine ⟨h6.1, fun i hi hu => h6.2 i hi ?_⟩
        rw [hl'.1]
        rcases hl'.2 i (by omega) (by omega) with h7 | h7
        · exact h7
        · rw [h7, ← h3]; exact hu
    have hw1 : OnLine R S L w.2 := by
      intro j j0 j1
      obtain ⟨m, rfl⟩ : ∃ m : Nat, j = m := ⟨j.toNat, by omega⟩
      exact hw2 m (by omega)
    have h8 := hkeep k w yz (hl.1 ▸ hw1) hw1 hl.1 hp
    refine ⟨fun j hj => by rw [hget j hj]; exact h8.1 j (by omega) (by omega), fun i i0 i1 => ?_⟩
    rw [hget i (by omega)]
    exact h8.2 i (by omega) (hfirst i i0 i1)

/-- KDP on a clean ray, at a gate with a full margin -/
theorem clean_kd {D : Dialect XR} (hD : D = cython ∨ D = fortran) {chk : Bool} {R : Ray XR} {out : RayOut XR}
    (e : calcKdpRayFir D chk R = .ok out)
    {S : Spacing} {d : Nat → ℝ} {m0 m1 : ℝ} (hF : FirData D R S d m0 m1) {L : Line} {h : Nat} (hc : CleanRay R S L h)
    (hN : NoSkip D R S L) (hnf : R.nf = 1 ∨ (1 ≤ R.nf ∧ m0 = 1 ∧ m1 = 0))
    (hN' : NoSkip D R S (L.step S m0 m1)) (hne : ∀ j : Nat, j < R.n → XR.fin ((L.step S m0 m1).at S j) ≠ R.bad)
    (i : Nat) (w : Nat) (hw : Width R (R.dz.mem i) w) (hw2 : 2 ≤ w) (hb : R.dz.mem i ≠ R.bad)
    (hwin : 0.8 * (w : ℝ) < winLen D w) (i0 : R.order / 2 + h + w / 2 ≤ i) (i1 : i + R.order / 2 + h + w / 2 < R.n) :
    out.kd[i]? = some (.fin (m0 * L.a / 2)) := by
  have hdp := clean_dp e hF hc hN hnf
  refine kd_line_good hD e hF.bad hF.step hF.rng hN' hdp.1 i (by omega) w hw hw2 (by rw [eq_bad_iff hF.bad]; exact hb) (by omega) ?_
  rw [show (goodSamples R out (i - w / 2) (winLen D w)).length = winLen D w from ?_]
  · linarith
  · unfold goodSamples
    rw [List.length_map, List.filter_eq_self.mpr, List.length_range]
    intro k hk
    have hk := List.mem_range.mp hk
    have hwl : winLen D w ≤ 2 * (w / 2) + 1 := by
      unfold winLen; rcases hD with rfl | rfl <;> simp [cython, fortran]
    rw [ne_bad_iff hF.bad, hdp.2 _ (by omega) (by omega)]
    exact hne _ (by omega)

/-! ## Through the API -/

/-- The documented width of the KDP window: half the filter order for reflectivity at least 45, twice that from 35 to 45,
three times that below 35. -/
noncomputable def adaptiveWidth (order : Nat) (z : ℝ) : Nat :=
  if 45 ≤ z then order / 2 else if 35 ≤ z then 2 * (order / 2) else 3 * (order / 2)

theorem width_adaptive (R : Ray XR) (z : ℝ) : Width R (.fin z) (adaptiveWidth R.order z) := by
  unfold adaptiveWidth
  split
  · exact .high (by simpa using ‹45 ≤ z›)
  · split
    · exact .mid (by simpa using ‹35 ≤ z›) (by simpa using ‹¬ 45 ≤ z›)
    · exact .low (by simpa using ‹¬ 35 ≤ z›)

@[simp] theorem map_wx (D : Dialect XR) (l : List XR) : l.map D.w = l := by
  rw [show D.w = id from funext fun x => wx D x, List.map_id]

theorem rayCall_coef (D : Dialect XR) (J : Junk XR) (f : Fir XR) (o : KdpOpts XR) (r : Nat) (dp dz rng t : Buf XR) :
    (rayCall D J f o r dp dz rng t).coef = coefBuf J f.coef := by
  show coefBuf J (f.coef.map D.w) = _
  rw [map_wx]

/-- one ray through the API with a scalar threshold -/
theorem bringi_one (D : Dialect XR) (J : Junk XR) {gs window : ℝ} {f : Fir XR} (hf : getFir gs window = .ok (some f))
    (dp dz rng : Buf XR) (o : KdpOpts XR) {t : XR} (ht : o.thsd = .scalar t) :
    calcKdpBringi D J (some (.one dp)) (some (.one dz)) (some (.one rng)) o gs window =
      (calcKdpRayFir D false (rayCall D J f o 0 dp dz rng ⟨dp.len, fun _ => t⟩)).map .one := by
  unfold calcKdpBringi kdpWithFir
  rw [hf]
  simp only [Data.ndim, ne_eq, not_true_eq_false, or_self, if_false]
  show (thsd1 o.thsd dp >>= fun t => _) = _
  rw [ht]
  show (calcKdpRayFir D false _ >>= fun out => _) = _
  simp only [XR.ff32]
  cases calcKdpRayFir D false (rayCall D J f o 0 dp dz rng ⟨dp.len, fun _ => t⟩) <;> rfl

theorem fir_ok {gs window : ℝ} (hg : 0 < gs) (hw : 0 < window) {f : Fir XR} (hf : getFir gs window = .ok (some f)) :
    f.gain = .fin 1 := by
  obtain ⟨h1, h2, h3⟩ := C16_order gs window hg hw
  obtain ⟨h4, h5⟩ := (C16_succeeds_iff gs window hg hw).mp ⟨f, hf⟩
  obtain ⟨f', h6, -, -, h7⟩ := h3 h4 h5
  rw [hf] at h6
  cases h6
  exact h7

theorem coef_at {J : Junk XR} {l : List XR} {n : Nat} {c : Nat → ℝ} (hl : l = (List.range (n + 1)).map (fun k => XR.fin (c k))) :
    (∀ k : Nat, k ≤ n → (coefBuf J l).mem k = .fin (c k)) ∧ (coefBuf J l).mem ((n : Int) + 1) = J.after (n + 1) := by
  subst hl
  constructor
  · intro k hk
    simp only [coefBuf]
    rw [if_pos (by simp; omega)]
    simp [List.getD_eq_getElem?_getD, show k < n + 1 by omega]
  · simp only [coefBuf]
    rw [if_neg (by simp)]

/-- **C89.** `calc_kdp_bringi`, built with the Fortran kernel, on one ray of good phases that increase linearly with
range: it returns; the standard deviation is `|a s| √(h (h+1)/3)` at every gate with `h` gates on both sides
(`std_gate = 2 h + 1`); if that is within the threshold, then after any number of passes the filtered phase is the
phase at every gate with `order/2 + h` gates on both sides, and KDP is exactly half the slope at every gate of good
reflectivity with a further half window on both sides. -/
theorem C89_clean_linear_ray_fortran (J : Junk XR) (gs window : ℝ) (hg : 0 < gs) (hw : 0 < window) (f : Fir XR)
    (hf : getFir gs window = .ok (some f)) (h4 : 4 ≤ f.order) (dp dz rng : Buf XR) (o : KdpOpts XR)
    (β t : ℝ) (hβ : o.bad = .fin β) (ht : o.thsd = .scalar (.fin t)) (h : Nat) (hstd : o.stdGate = 2 * h + 1) (hnf : 1 ≤ o.nfilter)
    (r0 s a b : ℝ) (hs : s ≠ 0)
    (hrng : ∀ j : Nat, j < dp.len → rng.mem j = .fin (r0 + s * j) ∧ r0 + s * j ≤ 1e35)
    (hdp : ∀ j : Nat, j < dp.len → dp.mem j = .fin (a * (r0 + s * j) + b) ∧ a * (r0 + s * j) + b ≤ 1e35 ∧ a * (r0 + s * j) + b ≠ β)
    (hrough : |a * s| * √((h : ℝ) * (h + 1) / 3) ≤ t) :
    ∃ out, calcKdpBringi fortran J (some (.one dp)) (some (.one dz)) (some (.one rng)) o gs window = .ok (.one out) ∧
      (∀ i : Nat, h ≤ i → i + h < dp.len → out.sd[i]? = some (.fin (|a * s| * √((h : ℝ) * (h + 1) / 3)))) ∧
      (∀ i : Nat, f.order / 2 + h ≤ i → i + f.order / 2 + h < dp.len → out.dp[i]? = some (.fin (a * (r0 + s * i) + b))) ∧
      (∀ (i : Nat) (z : ℝ), dz.mem i = .fin z → z ≠ β → f.order / 2 + h + adaptiveWidth f.order z / 2 ≤ i →
        i + f.order / 2 + h + adaptiveWidth f.order z / 2 < dp.len → out.kd[i]? = some (.fin (a / 2))) := by
  set R : Ray XR := rayCall fortran J f o 0 dp dz rng ⟨dp.len, fun _ => .fin t⟩ with hR
  obtain ⟨out, e⟩ := C71_fortran_returns R
  refine ⟨out, by rw [bringi_one fortran J hf dp dz rng o ht, ← hR, e]; rfl, ?_⟩
  obtain ⟨c, heven, hcoef, hsym, -, hsum⟩ := C72_filter_design gs window hg hw f hf
  set S : Spacing := ⟨r0, s⟩
  set L : Line := ⟨a, b⟩
  have hat : ∀ j : Nat, S.at j = r0 + s * j := by intro j; simp [Spacing.at, S]
  have hLat : ∀ j : Nat, L.at S j = a * (r0 + s * j) + b := by intro j; simp only [Line.at, hat, L]
  have hF : FirData fortran R S c 1 0 := by
    refine ⟨heven, fir_ok hg hw hf, ⟨β, hβ⟩, hs, ?_, ?_, hsum, moment_zero _ heven c hsym⟩
    · intro j j0 j1
      obtain ⟨m, rfl⟩ : ∃ m : Nat, j = m := ⟨j.toNat, by omega⟩
      have hm : m < dp.len := by have : R.n = dp.len := rfl; omega
      rw [hat]
      exact ⟨(hrng m hm).1, fortran_skip (hrng m hm).2 _⟩
    · intro k hk
      have := (coef_at (J := J) hcoef).1 k hk
      rw [hR, rayCall_coef]
      simp only [fortran, add_zero]
      exact this
  have hN : NoSkip fortran R S L := by
    intro j j0 j1 _
    obtain ⟨m, rfl⟩ : ∃ m : Nat, j = m := ⟨j.toNat, by omega⟩
    rw [hLat]
    exact fortran_skip (hdp m (by have : R.n = dp.len := rfl; omega)).2.1 _
  have hfin : ∀ j : Nat, j < dp.len → XR.fin (L.at S j) ≠ R.bad := by
    intro j hj hc'
    have : R.bad = .fin β := hβ
    rw [this, hLat] at hc'
    exact (hdp j hj).2.2 (XR.fin.inj hc')
  have hC : CleanRay R S L h := by
    refine ⟨?_, fun j hj => ⟨?_, hfin j hj⟩, fun j hj => ⟨t, rfl, hrough⟩⟩
    · show fixStdGate o.stdGate = _
      unfold fixStdGate; rw [if_neg (by omega), hstd]
    · rw [hLat]; exact (hdp j hj).1
  have hnf' : R.nf = 1 ∨ (1 ≤ R.nf ∧ (1 : ℝ) = 1 ∧ (0 : ℝ) = 0) := by
    right; refine ⟨?_, rfl, rfl⟩
    show 1 ≤ o.nfilter.toNat
    omega
  have hD := clean_dp e hF hC hN hnf'
  rw [step_id] at hD
  obtain ⟨yz, r⟩ := calc_run e
  refine ⟨fun i i0 i1 => clean_sd e ⟨β, hβ⟩ hC i i0 i1, fun i i0 i1 => ?_, fun i z hz hzb i0 i1 => ?_⟩
  · have := hD.2 i i0 i1
    have hi : i < out.dp.length := by rw [r.dpLen]; show i < dp.len; omega
    rw [List.getD_eq_getElem?_getD, List.getElem?_eq_getElem hi] at this
    rw [List.getElem?_eq_getElem hi, ← hLat]
    exact congrArg some this
  · have hW : Width R (R.dz.mem i) (adaptiveWidth f.order z) := by
      show Width R (dz.mem i) _
      rw [hz]; exact width_adaptive R z
    have hw2 : 2 ≤ adaptiveWidth f.order z := by unfold adaptiveWidth; split <;> [skip; split] <;> omega
    have := clean_kd (.inr rfl) e hF hC hN hnf' (by rw [step_id]; exact hN) (by rw [step_id]; exact hfin) i _ hW hw2 (by
      show dz.mem i ≠ o.bad
      rw [hz, hβ]; intro hc'; exact hzb (XR.fin.inj hc')) (by
      generalize adaptiveWidth f.order z = w at *
      have h1 : w ≤ winLen fortran w := by unfold winLen; simp only [fortran]; omega
      have h1 : (w : ℝ) ≤ winLen fortran w := by exact_mod_cast h1
      have h2 : (2 : ℝ) ≤ w := by exact_mod_cast hw2
      norm_num; linarith) i0 i1
    rw [this, one_mul]

/-- The full statement of C89 for the Cython kernel, the one the package is normally built from (C90): on a clean linear
ray KDP is half the slope at every gate with enough room. -/
def C90Full : Prop := ∀ (J : Junk XR) (gs window : ℝ) (f : Fir XR) (dp dz rng : Buf XR) (o : KdpOpts XR) (β t : ℝ) (h : Nat)
    (r0 s a b : ℝ) (out : RayOut XR),
    0 < gs → 0 < window → getFir gs window = .ok (some f) → 12 ≤ f.order → o.bad = .fin β → o.thsd = .scalar (.fin t) →
    o.stdGate = 2 * h + 1 → o.nfilter = 1 → s ≠ 0 →
    (∀ j : Nat, j < dp.len → rng.mem j = .fin (r0 + s * j) ∧ r0 + s * j ≠ β) →
    (∀ j : Nat, j < dp.len → dp.mem j = .fin (a * (r0 + s * j) + b) ∧ a * (r0 + s * j) + b ≠ β) →
    |a * s| * √((h : ℝ) * (h + 1) / 3) ≤ t →
    calcKdpBringi cython J (some (.one dp)) (some (.one dz)) (some (.one rng)) o gs window = .ok (.one out) →
    ∀ (i : Nat) (z : ℝ), dz.mem i = .fin z → z ≠ β → f.order / 2 + h + adaptiveWidth f.order z / 2 ≤ i →
      i + f.order / 2 + h + adaptiveWidth f.order z / 2 < dp.len → out.kd[i]? = some (.fin (a / 2))

/-- the first moment of the coefficients the Cython kernel reads -/
theorem cython_moments (n : Nat) (hn : n % 2 = 0) (c d : Nat → ℝ) (hsym : ∀ k ≤ n, c k = c (n - k))
    (hsum : ∑ k ∈ Finset.range (n + 1), c k = 1) (g : ℝ) (hd : ∀ k < n, d k = c (k + 1)) (hg : d n = g) :
    ∑ k ∈ Finset.range (n + 1), d k = 1 - c 0 + g ∧
    ∑ k ∈ Finset.range (n + 1), d k * ((k : ℝ) - (n / 2 : Nat)) = c 0 * (1 + (n : ℝ) / 2) + g * (n / 2) - 1 := by
  have hm := moment_zero n hn c hsym
  have hq : ((n / 2 : Nat) : ℝ) = n / 2 := by
    obtain ⟨m, rfl⟩ : ∃ m, n = 2 * m := ⟨n / 2, by omega⟩
    rw [Nat.mul_div_cancel_left _ (by norm_num)]; push_cast; ring
  rw [hq] at hm ⊢
  rw [Finset.sum_range_succ'] at hsum hm
  rw [Finset.sum_range_succ, Finset.sum_range_succ, hg]
  have e1 : ∑ k ∈ Finset.range n, d k = ∑ k ∈ Finset.range n, c (k + 1) :=
    Finset.sum_congr rfl fun k hk => hd k (Finset.mem_range.mp hk)
  have e2 : ∑ k ∈ Finset.range n, d k * ((k : ℝ) - n / 2) =
      ∑ k ∈ Finset.range n, c (k + 1) * (((k + 1 : Nat) : ℝ) - n / 2) - ∑ k ∈ Finset.range n, c (k + 1) := by
    rw [← Finset.sum_sub_distrib]
    apply Finset.sum_congr rfl
    intro k hk
    rw [hd k (Finset.mem_range.mp hk)]; push_cast; ring
  rw [e1, e2]
  constructor
  · linarith
  · push_cast at hm ⊢
    linarith

/-- **C90, what holds**: one pass of the Cython kernel on a clean linear ray.  `c0` is the first coefficient of the
filter and `g` the memory after the last one.  Filtered phase and KDP are those of a line with slope `(1 - c0 + g) a`,
provided that line does not meet the bad value and the window has an even width or more than 5 gates. -/
theorem C90_exact_factor_partial (J : Junk XR) (gs window : ℝ) (hg : 0 < gs) (hw : 0 < window) (f : Fir XR)
    (hf : getFir gs window = .ok (some f)) (h4 : 4 ≤ f.order) (dp dz rng : Buf XR) (o : KdpOpts XR)
    (β t : ℝ) (hβ : o.bad = .fin β) (ht : o.thsd = .scalar (.fin t)) (h : Nat) (hstd : o.stdGate = 2 * h + 1) (hnf : o.nfilter = 1)
    (r0 s a b : ℝ) (hs : s ≠ 0)
    (hrng : ∀ j : Nat, j < dp.len → rng.mem j = .fin (r0 + s * j) ∧ r0 + s * j ≠ β)
    (hdp : ∀ j : Nat, j < dp.len → dp.mem j = .fin (a * (r0 + s * j) + b) ∧ a * (r0 + s * j) + b ≠ β)
    (hrough : |a * s| * √((h : ℝ) * (h + 1) / 3) ≤ t)
    (c0 g : ℝ) (hc0 : f.coef[0]? = some (.fin c0)) (hgb : J.after (f.order + 1) = .fin g)
    (hb : ∀ j : Nat, j < dp.len →
      (1 - c0 + g) * (a * (r0 + s * j) + b) + a * s * (c0 * (1 + (f.order : ℝ) / 2) + g * (f.order / 2) - 1) ≠ β)
    (out : RayOut XR)
    (e : calcKdpBringi cython J (some (.one dp)) (some (.one dz)) (some (.one rng)) o gs window = .ok (.one out)) :
    (∀ i : Nat, f.order / 2 + h ≤ i → i + f.order / 2 + h < dp.len → out.dp[i]? = some (.fin
      ((1 - c0 + g) * (a * (r0 + s * i) + b) + a * s * (c0 * (1 + (f.order : ℝ) / 2) + g * (f.order / 2) - 1)))) ∧
    (∀ (i : Nat) (z : ℝ), dz.mem i = .fin z → z ≠ β → (adaptiveWidth f.order z % 2 = 0 ∨ 5 < adaptiveWidth f.order z) →
        f.order / 2 + h + adaptiveWidth f.order z / 2 ≤ i →
        i + f.order / 2 + h + adaptiveWidth f.order z / 2 < dp.len → out.kd[i]? = some (.fin ((1 - c0 + g) * a / 2))) := by
  set R : Ray XR := rayCall cython J f o 0 dp dz rng ⟨dp.len, fun _ => .fin t⟩ with hR
  rw [bringi_one cython J hf dp dz rng o ht, ← hR] at e
  have e : calcKdpRayFir cython false R = .ok out := by
    cases hh : calcKdpRayFir cython false R with
    | error x => rw [hh] at e; cases e
    | ok v => rw [hh] at e; cases e; rfl
  obtain ⟨c, heven, hcoef, hsym, -, hsum⟩ := C72_filter_design gs window hg hw f hf
  have hc00 : c 0 = c0 := by
    rw [hcoef] at hc0
    simp at hc0
    exact hc0
  obtain ⟨hm0, hm1⟩ := cython_moments f.order heven c (fun k => if k < f.order then c (k + 1) else g) hsym hsum g
    (fun k hk => by simp [hk]) (by simp)
  rw [hc00] at hm0 hm1
  set m0 : ℝ := 1 - c0 + g
  set m1 : ℝ := c0 * (1 + (f.order : ℝ) / 2) + g * (f.order / 2) - 1
  set S : Spacing := ⟨r0, s⟩
  set L : Line := ⟨a, b⟩
  have hat : ∀ j : Nat, S.at j = r0 + s * j := by intro j; simp [Spacing.at, S]
  have hLat : ∀ j : Nat, L.at S j = a * (r0 + s * j) + b := by intro j; simp only [Line.at, hat, L]
  have hSt : ∀ j : Nat, (L.step S m0 m1).at S j = m0 * (a * (r0 + s * j) + b) + a * s * m1 := by
    intro j; simp only [Line.at, Line.step, hat, L, S]; ring
  have hRb : R.bad = .fin β := hβ
  have hskip : ∀ x : ℝ, x ≠ β → (cython (α := XR)).skip R.bad (.fin x) = false := by
    intro x hx
    show (XR.fin x ==. R.bad) = false
    rw [hRb, XR.feq]; simpa using hx
  have hF : FirData cython R S (fun k => if k < f.order then c (k + 1) else g) m0 m1 := by
    refine ⟨heven, fir_ok hg hw hf, ⟨β, hβ⟩, hs, ?_, ?_, hm0, hm1⟩
    · intro j j0 j1
      obtain ⟨m, rfl⟩ : ∃ m : Nat, j = m := ⟨j.toNat, by omega⟩
      have hm : m < dp.len := by have : R.n = dp.len := rfl; omega
      rw [hat]
      exact ⟨(hrng m hm).1, hskip _ (hrng m hm).2⟩
    · intro k hk
      have hk : k ≤ f.order := hk
      rw [show R.coef = coefBuf J f.coef from rayCall_coef _ _ _ _ _ _ _ _ _]
      show (coefBuf J f.coef).mem ((k : Int) + 1) = _
      by_cases hlt : k < f.order
      · rw [if_pos hlt]
        have := (coef_at (J := J) hcoef).1 (k + 1) hlt
        push_cast at this; exact this
      · rw [if_neg hlt]
        have : k = f.order := by omega
        subst this
        rw [(coef_at (J := J) hcoef).2]; exact hgb
  have hN : NoSkip cython R S L := by
    intro j j0 j1 hne
    exact hskip _ fun hc' => hne (by rw [hRb, hc'])
  have hN' : NoSkip cython R S (L.step S m0 m1) := by
    intro j j0 j1 hne
    exact hskip _ fun hc' => hne (by rw [hRb, hc'])
  have hC : CleanRay R S L h := by
    refine ⟨?_, fun j hj => ⟨?_, ?_⟩, fun j hj => ⟨t, rfl, hrough⟩⟩
    · show fixStdGate o.stdGate = _
      unfold fixStdGate; rw [if_neg (by omega), hstd]
    · rw [hLat]; exact (hdp j hj).1
    · rw [hRb, hLat]; intro hc'; exact (hdp j hj).2 (XR.fin.inj hc')
  have hnf' : R.nf = 1 ∨ (1 ≤ R.nf ∧ m0 = 1 ∧ m1 = 0) := by
    left; show o.nfilter.toNat = 1; omega
  have hD := clean_dp e hF hC hN hnf'
  obtain ⟨yz, r⟩ := calc_run e
  refine ⟨fun i i0 i1 => ?_, fun i z hz hzb hwin i0 i1 => ?_⟩
  · have := hD.2 i i0 i1
    have hi : i < out.dp.length := by rw [r.dpLen]; show i < dp.len; omega
    rw [List.getD_eq_getElem?_getD, List.getElem?_eq_getElem hi] at this
    rw [List.getElem?_eq_getElem hi, ← hSt]
    exact congrArg some this
  · have hW : Width R (R.dz.mem i) (adaptiveWidth f.order z) := by
      show Width R (dz.mem i) _
      rw [hz]; exact width_adaptive R z
    have hw2 : 2 ≤ adaptiveWidth f.order z := by unfold adaptiveWidth; split <;> [skip; split] <;> omega
    exact clean_kd (.inl rfl) e hF hC hN hnf' hN' (fun j hj => by
      rw [hRb, hSt]; intro hc'; exact hb j hj (XR.fin.inj hc')) i _ hW hw2 (by
      show dz.mem i ≠ o.bad
      rw [hz, hβ]; intro hc'; exact hzb (XR.fin.inj hc')) (by
      generalize adaptiveWidth f.order z = w at *
      have h2 : (2 : ℝ) ≤ w := by exact_mod_cast hw2
      rcases hwin with h1 | h1
      · have h3 : winLen cython w = w := by unfold winLen; simp only [cython]; simp; omega
        rw [h3]; norm_num; linarith
      · have h3 : w ≤ winLen cython w + 1 := by unfold winLen; simp only [cython]; simp; omega
        have h3 : (w : ℝ) ≤ winLen cython w + 1 := by exact_mod_cast h3
        have h4 : (6 : ℝ) ≤ w := by exact_mod_cast h1
        norm_num; linarith) i0 i1

/-! ## A concrete clean ray: 101 gates, 150 m apart, 3 km filter (order 20), phase `2 + 2 j`, reflectivity 40 -/

/-- `get_fir(gs=150, window=3)` succeeds with order 20 -/
theorem fir_150_3 : ∃ f, getFir 150 3 = .ok (some f) ∧ f.order = 20 := by
  have h20 : XR.truncR (1000 * 3 / 150) = 20 := by
    rw [truncR_nonneg (by norm_num), Int.floor_eq_iff]; norm_num
  obtain ⟨f, h1, h2, -⟩ := (C16_order 150 3 (by norm_num) (by norm_num)).2.2 (by rw [h20]; rfl) (by rw [h20]; decide)
  exact ⟨f, h1, by rw [h20] at h2; exact_mod_cast h2⟩

/-- phases -/
noncomputable def exDp : Buf XR := ⟨101, fun j => .fin (2 * (1 + 1 * j) + 0)⟩
/-- ranges -/
noncomputable def exRng : Buf XR := ⟨101, fun j => .fin (1 + 1 * j)⟩
/-- reflectivity -/
noncomputable def exDz : Buf XR := ⟨101, fun _ => .fin 40⟩
/-- options: scalar threshold 12, one pass, bad value -32768, standard deviation over 1 gate -/
noncomputable def exOpts : KdpOpts XR := ⟨.scalar (.fin 12), 1, .fin (-32768), 1⟩
/-- zeros in the memory the code does not control -/
noncomputable def exJunk : Junk XR := ⟨fun _ => .fin 0, fun _ => 0⟩

theorem adaptive_40 (n : Nat) : adaptiveWidth n 40 = 2 * (n / 2) := by
  unfold adaptiveWidth; norm_num

/-- The hypotheses of C89 are met; KDP at gate 50 is 1. -/
example : ∃ out, calcKdpBringi fortran exJunk (some (.one exDp)) (some (.one exDz)) (some (.one exRng)) exOpts 150 3 = .ok (.one out) ∧
    out.kd[50]? = some (.fin 1) := by
  obtain ⟨f, hf, h20⟩ := fir_150_3
  have hj : ∀ j : Nat, j < 101 → (j : ℝ) ≤ 100 := by
    intro j hj; have : j ≤ 100 := by omega
    exact_mod_cast this
  obtain ⟨out, h1, -, -, h2⟩ := C89_clean_linear_ray_fortran exJunk 150 3 (by norm_num) (by norm_num) f hf (by omega) exDp exDz exRng exOpts
    (-32768) 12 rfl rfl 0 rfl (by decide) 1 1 2 0 one_ne_zero
    (fun j hj' => ⟨by simp [exRng], by have := hj j hj'; norm_num; linarith⟩)
    (fun j hj' => ⟨by simp [exDp], by have := hj j hj'; norm_num; linarith, by
      have : (0 : ℝ) ≤ j := by positivity
      intro hc; norm_num at hc; linarith⟩) (by simp)
  refine ⟨out, h1, ?_⟩
  have := h2 50 40 rfl (by norm_num) (by rw [adaptive_40, h20]; decide) (by rw [adaptive_40, h20]; decide)
  rw [this]; norm_num

/-- **C90 is false**: on this ray the Cython kernel returns less than half the slope. -/
theorem C90_full_false : ¬ C90Full := by
  intro hfull
  obtain ⟨f, hf, h20⟩ := fir_150_3
  obtain ⟨c, heven, hcoef, hsym, hpos, hsum⟩ := C72_filter_design 150 3 (by norm_num) (by norm_num) f hf
  have hc0 : f.coef[0]? = some (.fin (c 0)) := by rw [hcoef]; simp
  have hp : 0 < c 0 := hpos 0 (by omega)
  have h1 : c 0 ≤ 1 := by
    rw [← hsum]
    exact Finset.single_le_sum (f := c) (fun k hk => (hpos k (by have := Finset.mem_range.mp hk; omega)).le) (by simp)
  obtain ⟨out, e⟩ := C71_cython_returns (rayCall cython exJunk f exOpts 0 exDp exDz exRng ⟨101, fun _ => .fin 12⟩)
    (fun j => 1 + 1 * (j : ℝ)) ⟨fun j j0 _ => ⟨rfl, by
      rw [ne_bad_iff ⟨_, rfl⟩]
      intro hc
      have : (0 : ℝ) ≤ j := by exact_mod_cast j0
      have := XR.fin.inj hc
      linarith⟩, fun j k _ _ _ _ h => by
        have : (j : ℝ) = k := by linarith
        exact_mod_cast this⟩ heven (by show 1 ≤ fixStdGate 1; decide) (le_refl _)
  have e' : calcKdpBringi cython exJunk (some (.one exDp)) (some (.one exDz)) (some (.one exRng)) exOpts 150 3 = .ok (.one out) := by
    rw [bringi_one cython exJunk hf exDp exDz exRng exOpts (t := .fin 12) rfl]
    show (calcKdpRayFir cython false (rayCall cython exJunk f exOpts 0 exDp exDz exRng ⟨101, fun _ => .fin 12⟩)).map _ = _
    rw [e]; rfl
  have hrng : ∀ j : Nat, j < 101 → exRng.mem j = .fin (1 + 1 * j) ∧ (1 : ℝ) + 1 * j ≠ -32768 := by
    intro j hj
    have : (0 : ℝ) ≤ j := by positivity
    exact ⟨by simp [exRng], fun hc => by linarith⟩
  have hdp : ∀ j : Nat, j < 101 → exDp.mem j = .fin (2 * (1 + 1 * j) + 0) ∧ (2 : ℝ) * (1 + 1 * j) + 0 ≠ -32768 := by
    intro j hj
    have : (0 : ℝ) ≤ j := by positivity
    exact ⟨by simp [exDp], fun hc => by linarith⟩
  have k1 := hfull exJunk 150 3 f exDp exDz exRng exOpts (-32768) 12 0 1 1 2 0 out (by norm_num) (by norm_num) hf (by omega) rfl rfl rfl rfl
    one_ne_zero hrng hdp (by simp) e' 50 40 rfl (by norm_num) (by rw [adaptive_40, h20]; decide) (by rw [adaptive_40, h20]; decide)
  have k2 := (C90_exact_factor_partial exJunk 150 3 (by norm_num) (by norm_num) f hf (by omega) exDp exDz exRng exOpts (-32768) 12 rfl rfl 0 rfl rfl
    1 1 2 0 one_ne_zero hrng hdp (by simp) (c 0) 0 hc0 rfl (fun j hj hc => by
      have : (0 : ℝ) ≤ j := by positivity
      rw [h20] at hc
      norm_num at hc
      nlinarith [mul_nonneg (sub_nonneg.mpr h1) this]) out e').2 50 40 rfl (by norm_num) (.inl (by rw [adaptive_40]; omega))
      (by rw [adaptive_40, h20]; decide) (by rw [adaptive_40, h20]; decide)
  rw [k1] at k2
  have := XR.fin.inj (Option.some.inj k2)
  linarith

/-- The hypotheses of C88 are met by a ray with a gap: gate 50 of the clean ray is bad. -/
example : ∃ (R : Ray XR) (out : RayOut XR), calcKdpRayFir fortran false R = .ok out ∧ R.dp.mem 50 = R.bad ∧
    (out.dp[40]? = some (.fin 82) ∨ out.dp[40]? = some R.bad) ∧ (out.kd[40]? = some (.fin 1) ∨ out.kd[40]? = some R.bad) := by
  obtain ⟨f, hf, h20⟩ := fir_150_3
  obtain ⟨c, heven, hcoef, hsym, hpos, hsum⟩ := C72_filter_design 150 3 (by norm_num) (by norm_num) f hf
  let R : Ray XR := { rayCall fortran exJunk f exOpts 0 exDp exDz exRng ⟨101, fun _ => .fin 12⟩ with
    nf := 3, dp := ⟨101, fun j => if j = 50 then .fin (-32768) else exDp.mem j⟩ }
  obtain ⟨out, e⟩ := C71_fortran_returns R
  have hj : ∀ j : Nat, j < 101 → (j : ℝ) ≤ 100 := by
    intro j hj; have : j ≤ 100 := by omega
    exact_mod_cast this
  have h := C88_linear_ray_fortran false R out e heven (fir_ok (by norm_num) (by norm_num) hf) (-32768) rfl c
    (fun k hk => by rw [show R.coef = coefBuf exJunk f.coef from rayCall_coef fortran exJunk f exOpts 0 exDp exDz exRng ⟨101, fun _ => .fin 12⟩]; exact (coef_at hcoef).1 k hk) hsym hsum 1 1 one_ne_zero
    (fun j hj' => ⟨by show exRng.mem j = _; simp [exRng], by have := hj j hj'; norm_num; linarith⟩) 2 0
    (fun j hj' => by have := hj j hj'; norm_num; linarith)
    (fun j hj' => by
      show (if (j : Int) = 50 then XR.fin (-32768) else exDp.mem j) = _ ∨ (if (j : Int) = 50 then XR.fin (-32768) else exDp.mem j) = _
      by_cases h50 : (j : Int) = 50
      · right; rw [if_pos h50]; rfl
      · left; rw [if_neg h50]; simp [exDp]) 40 (by show 40 < 101; decide)
  refine ⟨R, out, e, rfl, ?_, ?_⟩
  · have := h.1
    norm_num at this
    exact this
  · have := h.2 (2 * (R.order / 2)) (.mid (by show (XR.fin 40 >=. XR.fin 35) = true; simp; norm_num) (by show (XR.fin 40 <. XR.fin 45) = true; simp; norm_num))
      (by have : R.order = 20 := h20; omega)
    norm_num at this
    exact this

end Csu.Kdp
